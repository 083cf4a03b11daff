/-!
# Specification of number texts and of random numbers
-/

namespace Verif.Spec.Num

/-- A non-empty list of ASCII digits. -/
def Digits (l : List UInt8) : Prop := l ≠ [] ∧ ∀ c ∈ l, 48 ≤ c.toNat ∧ c.toNat ≤ 57

/-- No sign or a minus sign. -/
def Sign (l : List UInt8) : Prop := l = [] ∨ l = [45]

/-- Nothing, or a decimal point and digits. -/
def Fraction (l : List UInt8) : Prop := l = [] ∨ ∃ f, Digits f ∧ l = 46 :: f

/-- Digits in groups of three from the right. -/
def group (sep : UInt8) (l : List UInt8) : List UInt8 :=
  if l.length ≤ 3 then l else group sep (l.take (l.length - 3)) ++ sep :: l.drop (l.length - 3)
termination_by l.length
decreasing_by rw [List.length_take]; omega

/-- The fraction with the decimal separator of the language. -/
def localFraction (dec : UInt8) : List UInt8 → List UInt8
  | [] => []
  | _ :: f => dec :: f

/-- Usable separators: different, and neither digits nor the minus sign. -/
def Separators (tho dec : UInt8) : Prop :=
  tho ≠ dec ∧ (tho.toNat < 48 ∨ 57 < tho.toNat) ∧ (dec.toNat < 48 ∨ 57 < dec.toNat) ∧ tho ≠ 45 ∧ dec ≠ 45 ∧
    tho ≠ 0 ∧ dec ≠ 0

/-- Nearest whole number to `m / 2^k`, halves away from zero: `n` is it. -/
def Nearest (m : Int) (k : Nat) (n : Int) : Prop :=
  2 * (n * 2 ^ k - m).natAbs < 2 ^ k ∨ (2 * (n * 2 ^ k - m).natAbs = 2 ^ k ∧ m.natAbs < (n * 2 ^ k).natAbs)

end Verif.Spec.Num
