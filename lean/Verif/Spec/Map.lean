/-!
# Specification of maps

A map is a partial function; in addition the bindings have an order of insertion. Independent of the model.
-/

namespace Verif.Spec

variable {κ ν : Type} [DecidableEq κ]

/-- Binding `k` to `v`. -/
def bind (f : κ → Option ν) (k : κ) (v : ν) : κ → Option ν := fun k' => if k' = k then some v else f k'

/-- Removing `k`. -/
def unbind (f : κ → Option ν) (k : κ) : κ → Option ν := fun k' => if k' = k then none else f k'

/-- `n` is the number of bound keys. -/
def CountOf (f : κ → Option ν) (n : Nat) : Prop :=
  ∃ ks : List κ, ks.Nodup ∧ (∀ k, k ∈ ks ↔ (f k).isSome = true) ∧ ks.length = n

/-- Value bound to `k` by the last pair that mentions it. -/
def lastBinding (pairs : List (κ × ν)) (k : κ) : Option ν :=
  (pairs.reverse.find? (fun p => p.1 = k)).map Prod.snd

end Verif.Spec
