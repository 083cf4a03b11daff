/-!
# Sorting: specification
-/

namespace Verif.Spec.Sort

/-- An order in which any two things can be compared; different things may be equal in the order. -/
structure Order {α : Type} (le : α → α → Bool) : Prop where
  total : ∀ a b, le a b = true ∨ le b a = true
  trans : ∀ a b c, le a b = true → le b c = true → le a c = true

/-- The things are in order. -/
def InOrder {α : Type} (le : α → α → Bool) (l : List α) : Prop := l.Pairwise (fun a b => le a b = true)

/-- How two things compare in an order. -/
def verdict {α : Type} (le : α → α → Bool) (a b : α) : Ordering :=
  if le a b then if le b a then .eq else .lt else .gt

/-! ## Sorting procedures

What a library may do to sort `n` things: ask how two of them compare, and go on depending on the answer; in the end tell the
new order by the old positions. -/

/-- A sorting procedure. -/
inductive Plan where
  /-- the new order -/
  | done (p : List Nat)
  /-- compare the things at positions `i` and `j` -/
  | ask (i j : Nat) (lt eq gt : Plan)


/-- The new order if the answers are given by a function. -/
def follow (c : Nat → Nat → Ordering) : Plan → List Nat
  | .done p => p
  | .ask i j lt eq gt =>
    match c i j with
    | .lt => follow c lt
    | .eq => follow c eq
    | .gt => follow c gt

/-- The procedure asks about the first `n` positions only. -/
def Bounded (n : Nat) : Plan → Prop
  | .done _ => True
  | .ask i j lt eq gt => i < n ∧ j < n ∧ Bounded n lt ∧ Bounded n eq ∧ Bounded n gt

/-- Whatever is answered, the result is a rearrangement. -/
def Permutes (n : Nat) : Plan → Prop
  | .done p => p.Perm (List.range n)
  | .ask _ _ lt eq gt => Permutes n lt ∧ Permutes n eq ∧ Permutes n gt

/-- The procedure sorts `n` things, as the C standard demands of `qsort` (ISO C11 7.22.5.2): provided that the answers come from
an order, the things are rearranged and in that order. -/
def Sorts (n : Nat) (p : Plan) : Prop :=
  Bounded n p ∧ ∀ le : Nat → Nat → Bool, Order le →
    (follow (verdict le) p).Perm (List.range n) ∧ InOrder le (follow (verdict le) p)

/-- The procedure never distinguishes "less" and "equal". -/
def OnlyGreater : Plan → Prop
  | .done _ => True
  | .ask _ _ lt eq gt => lt = eq ∧ OnlyGreater lt ∧ OnlyGreater gt

end Verif.Spec.Sort
