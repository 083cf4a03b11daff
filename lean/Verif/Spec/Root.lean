/-!
# Square roots: specification

Roots by their squares, in whole numbers only.
-/

namespace Verif.Spec.Root

/-- `R / 2^s` is the number with 53 binary digits nearest to the root of `m / 2^k`: it is `N` units of `2^e / 2^s`, where `N` has
53 binary digits (or is `2^53`), and the root lies between `N - 1/2` and `N + 1/2` of these units. -/
def Nearest (m k R s : Nat) : Prop :=
  ∃ N e, R = N * 2 ^ e ∧ 2 ^ 52 ≤ N ∧ N ≤ 2 ^ 53 ∧
    ((2 * N - 1) * 2 ^ e) ^ 2 * 2 ^ k ≤ 4 * m * 4 ^ s ∧ 4 * m * 4 ^ s ≤ ((2 * N + 1) * 2 ^ e) ^ 2 * 2 ^ k

/-- `A` units of the tenth place are less than one such unit away from the root of the whole number `v`. -/
def Shown (v A : Nat) : Prop := (A - 1) ^ 2 < v * 10 ^ 20 ∧ v * 10 ^ 20 < (A + 1) ^ 2

end Verif.Spec.Root
