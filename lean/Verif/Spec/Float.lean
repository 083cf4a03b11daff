import Verif.Spec.Num
import Verif.Spec.ReadBack

/-!
# Amounts: specification

An amount is a decimal number with at most ten places, given as a whole number of units of 10^-10. How an amount is written and
how it is shown; what calculations with whole numbers and with amounts mean, in whole numbers only. Nothing here refers to
floating point numbers.
-/

namespace Verif.Spec.Float
open Verif.Spec.Num (Digits Sign group)
open Verif.Spec.ReadBack (digits decimal)

/-- Units of an amount. -/
def one : Nat := 10000000000

/-- What digits stand for. -/
def value (t : List UInt8) : Nat := t.foldl (fun a c => a * 10 + (c.toNat - 48)) 0

/-- Exactly `w` decimal places. -/
def places : Nat → Nat → List UInt8
  | 0, _ => []
  | w + 1, n => places w (n / 10) ++ [UInt8.ofNat (48 + n % 10)]

/-- The decimal places without zeros at the end, after the decimal separator; nothing if there are none. -/
def fraction (dec : UInt8) (f : List UInt8) : List UInt8 :=
  match (f.reverse.dropWhile (· = 48)).reverse with
  | [] => []
  | g => dec :: g

/-- An amount without its sign, as it is shown. -/
def plain (tho dec : UInt8) (n : Nat) : List UInt8 :=
  group tho (digits (n / one)) ++ fraction dec (places 10 (n % one))

/-- An amount as it is shown. -/
def amount (tho dec : UInt8) (n : Int) : List UInt8 := (if n < 0 then [45] else []) ++ plain tho dec n.natAbs

/-- A whole number as it is shown. -/
def whole (tho : UInt8) (n : Int) : List UInt8 := (if n < 0 then [45] else []) ++ group tho (digits n.natAbs)

/-- `t` writes the amount `± n` with the sign `sg`: digits, with separators of thousands anywhere, perhaps a decimal separator and up
to ten further digits, in at most 40 bytes. -/
def Writes (tho dec : UInt8) (t sg : List UInt8) (n : Nat) : Prop :=
  t.length ≤ 40 ∧ Sign sg ∧ ∃ ds, Digits ds ∧
    ((t.filter (· ≠ tho) = sg ++ ds ∧ n = value ds * one) ∨
     ∃ f, Digits f ∧ f.length ≤ 10 ∧ t.filter (· ≠ tho) = sg ++ ds ++ dec :: f ∧ n = value (ds ++ f) * 10 ^ (10 - f.length))

/-- `v` is the whole number nearest to `x / y`, halves away from zero. -/
def NearestQuotient (x y v : Int) : Prop :=
  2 * (v.natAbs * y.natAbs) ≤ 2 * x.natAbs + y.natAbs ∧ 2 * x.natAbs < 2 * (v.natAbs * y.natAbs) + y.natAbs ∧
    (v ≠ 0 → (v < 0 ↔ ¬ (x < 0 ↔ y < 0)))

end Verif.Spec.Float
