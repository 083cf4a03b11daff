/-!
# Specification of sequences

A sequence is a mathematical list.  Nothing here refers to the model.  Positions count from 1 and are
integers because a program may ask for any number.
-/

namespace Verif.Spec

/-- Element at 1-based position `n`, if there is one. -/
def position (l : List α) (n : Int) : Option α :=
  if 1 ≤ n then l[(n - 1).toNat]? else none

/-- The last but one element. -/
def penultimate (l : List α) : Option α :=
  match l.reverse with
  | _ :: b :: _ => some b
  | _ => none

/-- `x` stored at 1-based position `n ≥ 1`, filling up with `d` if the list is too short. -/
def putAt (d : α) (l : List α) (n : Nat) (x : α) : List α :=
  if n ≤ l.length then l.set (n - 1) x
  else l ++ List.replicate (n - 1 - l.length) d ++ [x]

/-- Elements at positions `start .. start+len-1`, `d` where there is none. -/
def slice (d : α) (l : List α) (start : Int) (len : Nat) : List α :=
  (List.range len).map fun (k : Nat) => (position l (start + k)).getD d

/-- Replace `len` elements from position `frm` (both ≥ 1 resp. ≥ 0) by `r`. -/
def splice (l : List α) (frm len : Nat) (r : List α) : List α :=
  l.take (frm - 1) ++ r ++ l.drop (frm - 1 + len)

/-- `m` is an element of `l` that no element is `lt`. -/
def IsFirst {ν : Type} (lt : ν → ν → Prop) (l : List ν) (m : ν) : Prop := m ∈ l ∧ ∀ x ∈ l, ¬ lt x m

end Verif.Spec
