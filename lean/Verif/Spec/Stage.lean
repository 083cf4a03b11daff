/-!
# What a program may expect of images that move

Positions are numbers of pixels times 1048576. The screen is a grid of pixels; an image covers the pixels of its box.
-/

namespace Verif.Spec.Stage

/-- A box of pixels: left, top, width, height. -/
structure Box where
  x : Int
  y : Int
  w : Int
  h : Int
  deriving DecidableEq, Repr

/-- The box covers the pixel. -/
def Box.has (b : Box) (px py : Int) : Prop := b.x ≤ px ∧ px < b.x + b.w ∧ b.y ≤ py ∧ py < b.y + b.h

instance (b : Box) (px py : Int) : Decidable (b.has px py) := by unfold Box.has; infer_instance

/-- There is a pixel that both boxes cover. -/
def Meet (a b : Box) : Prop := ∃ px py, a.has px py ∧ b.has px py

/-- The only pixels that both boxes cover are in the top row of `b`: `a` stands on `b`. -/
def StandsOn (a b : Box) : Prop := ∀ px py, a.has px py → b.has px py → py = b.y

/-- Twice the middle of a box (left to right, top to bottom), up to a half pixel. -/
def Box.midX (b : Box) : Int := b.x + b.w / 2

/-- See `Box.midX`. -/
def Box.midY (b : Box) : Int := b.y + b.h / 2

/-- The box moves from `a` to `b` without its middle passing the middle of `c`, neither across nor up or down. -/
def SameSide (a b c : Box) : Prop :=
  (a.midX < c.midX → b.midX ≤ c.midX) ∧ (c.midX ≤ a.midX → c.midX ≤ b.midX) ∧
  (a.midY < c.midY → b.midY ≤ c.midY) ∧ (c.midY ≤ a.midY → c.midY ≤ b.midY)

instance (a b c : Box) : Decidable (SameSide a b c) := by unfold SameSide; infer_instance

/-- A box that is not larger than another. -/
def Fits (a b : Box) : Prop := a.w ≤ b.w ∧ a.h ≤ b.h

instance (a b : Box) : Decidable (Fits a b) := by unfold Fits; infer_instance

/-- The box lies in a window of this width and height. -/
def Inside (b : Box) (width height : Int) : Prop := 0 ≤ b.x ∧ b.x + b.w ≤ width ∧ 0 ≤ b.y ∧ b.y + b.h ≤ height

instance (b : Box) (width height : Int) : Decidable (Inside b width height) := by unfold Inside; infer_instance

end Verif.Spec.Stage
