import Verif.Basic

/-!
# Bits of whole numbers

Independent of the model: two's complement with as many places as one likes.
-/

namespace Verif.Spec

/-- The binary place `k` of a whole number is 1 (negative numbers: two's complement, continued to the left). -/
def Bit (k : Nat) (n : Int) : Prop := n / 2 ^ k % 2 = 1

instance (k : Nat) (n : Int) : Decidable (Bit k n) := by unfold Bit; infer_instance

/-- `x` is `m / 2^k` without its fraction: the whole number next to it, towards zero. -/
def WholePart (m : Int) (k : Nat) (x : Int) : Prop :=
  (0 ≤ m → x * 2 ^ k ≤ m ∧ m < (x + 1) * 2 ^ k) ∧ (m ≤ 0 → m ≤ x * 2 ^ k ∧ (x - 1) * 2 ^ k < m)

end Verif.Spec
