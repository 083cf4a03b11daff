import Verif.Basic

/-!
# What a text field shows

Independent of the model: the bytes of a text with the number of their line, and whether they are selected.
-/

namespace Verif.Spec.Render

/-- The bytes of the text from position `i` in line `line` on, each with its line and whether it lies between `b` and `e`;
line ends are not shown. -/
def chars (b e : Nat) : Nat → Nat → List UInt8 → List (Nat × UInt8 × Bool)
  | _, _, [] => []
  | i, line, 13 :: 10 :: r => chars b e (i + 2) (line + 1) r
  | i, line, c :: r => (line, c, decide (b ≤ i ∧ i < e)) :: chars b e (i + 1) line r

/-- A carriage return is always the beginning of a line end. -/
def Normal (t : List UInt8) : Prop := ∀ pre r, t = pre ++ 13 :: r → ∃ r', r = 10 :: r'

end Verif.Spec.Render
