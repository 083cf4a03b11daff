/-!
# What a program may expect of the camera and of animated images
-/

namespace Verif.Spec.Camera

/-- A view that begins at `x` and is `w` wide lies within a level `width` wide; one that is wider than the level begins where
the level begins. -/
def Within (x w width : Int) : Prop := 0 ≤ x ∧ (x + w ≤ width ∨ (width ≤ w ∧ x = 0))

instance (x w width : Int) : Decidable (Within x w width) := by unfold Within; infer_instance

/-- The place `c` is in a view that begins at `x` and is `w` wide. -/
def Sees (x w c : Int) : Prop := x ≤ c ∧ c < x + w

instance (x w c : Int) : Decidable (Sees x w c) := by unfold Sees; infer_instance

/-- A picture of width `w` has `n` pieces of equal width beside each other; this part of it (left, width) is piece `k`. -/
def Piece (w n k x width : Int) : Prop := 0 ≤ k ∧ k < n ∧ x = k * width ∧ n * width ≤ w ∧ w < n * (width + 1)

instance (w n k x width : Int) : Decidable (Piece w n k x width) := by unfold Piece; infer_instance

end Verif.Spec.Camera
