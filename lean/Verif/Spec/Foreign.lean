/-!
# Types of C on Linux with 64 bits

Independent of the model.
-/

namespace Verif.Spec.Foreign

/-- The types of C for whole numbers that may be named: with a sign or without, and how many bits. -/
def cTypes : List (List UInt8 × Bool × Nat) := [
  ([117, 105, 110, 116], false, 32),
  ([105, 110, 116], true, 32),
  ([117, 105, 110, 116, 56, 95, 116], false, 8),
  ([105, 110, 116, 56, 95, 116], true, 8),
  ([117, 105, 110, 116, 49, 54, 95, 116], false, 16),
  ([105, 110, 116, 49, 54, 95, 116], true, 16),
  ([117, 105, 110, 116, 51, 50, 95, 116], false, 32),
  ([105, 110, 116, 51, 50, 95, 116], true, 32),
  ([117, 105, 110, 116, 54, 52, 95, 116], false, 64),
  ([105, 110, 116, 54, 52, 95, 116], true, 64),
  ([117, 115, 104, 111, 114, 116], false, 16),
  ([115, 104, 111, 114, 116], true, 16),
  ([117, 99, 104, 97, 114], false, 8),
  ([99, 104, 97, 114], true, 8),
  ([117, 108, 111, 110, 103], false, 64),
  ([108, 111, 110, 103], true, 64)]

/-- Whether a whole number is of a type with so many bits. -/
def InRange (signed : Bool) (bits : Nat) (z : Int) : Prop :=
  if signed = true then -(2 ^ (bits - 1)) ≤ z ∧ z < 2 ^ (bits - 1) else 0 ≤ z ∧ z < 2 ^ bits

/-- `z` is `± m / 2^k` without the fraction. -/
def WholePart (neg : Bool) (m k : Nat) (z : Int) : Prop :=
  z.natAbs * 2 ^ k ≤ m ∧ m < (z.natAbs + 1) * 2 ^ k ∧ (z < 0 → neg = true) ∧ (0 < z → neg = false)

end Verif.Spec.Foreign
