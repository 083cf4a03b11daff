import Verif.Spec.Editor

/-!
# Where a click into a text field leads

Independent of the model.
-/

namespace Verif.Spec.Click
open Verif.Spec.Editor

/-- The text has the line `cs` as number `n` (from 0), with `pre` before it and `post` behind it. -/
structure IsLine (l : List Sym) (n : Nat) (pre cs post : List Sym) : Prop where
  parts : l = pre ++ cs ++ post
  plain : .nl ∉ cs
  first : pre = [] ∨ ∃ p, pre = p ++ [.nl]
  last : post = [] ∨ ∃ p, post = .nl :: p
  number : pre.count .nl = n

/-- The distance of two places. -/
def dist (a b : Int) : Nat := (a - b).natAbs

/-- The place after `k` symbols of the line is as near to `x` as any other; `w` says how wide a text is. -/
def Nearest (w : Bytes → Nat) (cs : List Sym) (x : Int) (k : Nat) : Prop :=
  k ≤ cs.length ∧ ∀ j, j ≤ cs.length → dist x (w (bytes (cs.take k))) ≤ dist x (w (bytes (cs.take j)))

/-- The empty text has no width, and no beginning of a text is wider than the text. -/
def Widths (w : Bytes → Nat) : Prop := w [] = 0 ∧ ∀ a b, w a ≤ w (a ++ b)

/-- The bytes between two gaps (blanks and line ends). -/
def Gap (c : UInt8) : Prop := c = 32 ∨ c = 10 ∨ c = 13

/-- The bytes from `b` to `e` are the longest piece without gaps around `i`. -/
structure WordAt (t : Bytes) (i b e : Nat) : Prop where
  here : b ≤ i ∧ i ≤ e ∧ e ≤ t.length
  inside : ∀ k, b ≤ k → k < e → ∃ c, t[k]? = some c ∧ ¬ Gap c
  left : b = 0 ∨ ∃ c, t[b - 1]? = some c ∧ Gap c
  right : e = t.length ∨ ∃ c, t[e]? = some c ∧ Gap c

end Verif.Spec.Click
