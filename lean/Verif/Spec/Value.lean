import Verif.Basic

/-!
# Truth, order and equality: specification
-/

namespace Verif.Spec.Value

/-- What a strict order of things that are all comparable has to satisfy. -/
structure StrictOrder {α : Type} (good : α → Prop) (lt eq : α → α → Bool) : Prop where
  irrefl : ∀ x, good x → lt x x = false
  trans : ∀ x y z, good x → good y → good z → lt x y = true → lt y z = true → lt x z = true
  tri : ∀ x y, good x → good y →
    (lt x y = true ∧ eq x y = false ∧ lt y x = false) ∨
    (lt x y = false ∧ eq x y = true ∧ lt y x = false) ∨
    (lt x y = false ∧ eq x y = false ∧ lt y x = true)
  congr : ∀ x y z, good x → good y → good z → eq x y = true → lt x z = lt y z ∧ lt z x = lt z y

/-- What an equality has to satisfy. -/
structure Equality {α : Type} (good : α → Prop) (eq : α → α → Out Bool) : Prop where
  refl : ∀ x, good x → eq x x = .ok true
  symm : ∀ x y, good x → good y → eq x y = eq y x
  trans : ∀ x y z, good x → good y → good z → eq x y = .ok true → eq y z = .ok true → eq x z = .ok true

end Verif.Spec.Value
