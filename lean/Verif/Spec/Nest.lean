import Verif.Basic

/-!
# Sequences and lists as text: specification

Objects, their nesting depth and their text, without counters and without an order of evaluation.
-/

namespace Verif.Spec.Nest

/-- Bytes. -/
abbrev Text := List UInt8

/-- An object: something with a fixed text, a sequence (`elements[tail..head)`), or a list (`properties`; the keys are texts
or numbers, `collections.c:795`, and are given by their `code`). -/
inductive Node where
  | leaf (code : Text)
  | seq (items : List Nat)
  | map (items : List (Nat × Text))

/-- The objects, by address. -/
abbrev Store := Nat → Node

/-- The words of the language the text is in (`dictionary.h`). -/
structure Words where
  seqNew : Text
  seqPush : Text
  mapNew : Text
  mapPut : Text
  mapAt : Text
  opening : Text
  closing : Text

/-- No path from the object leads through more than `a` sequences or more than `b` lists. -/
inductive Within (σ : Store) : Nat → Nat → Nat → Prop where
  | leaf {a b i t} : σ i = .leaf t → Within σ a b i
  | seq {a b i xs} : σ i = .seq xs → (∀ x ∈ xs, Within σ a b x) → Within σ (a + 1) b i
  | map {a b i xs} : σ i = .map xs → (∀ p ∈ xs, Within σ a b p.1) → Within σ a (b + 1) i

/-- Texts joined by a separator. -/
def joined (sep : Text) (ts : List Text) : Text := (ts.intersperse sep).flatten

mutual
/-- The text of an object: that of its parts between the words of the language. -/
inductive Shows (w : Words) (σ : Store) : Nat → Text → Prop where
  | leaf {i t} : σ i = .leaf t → Shows w σ i t
  | none {i} : σ i = .seq [] → Shows w σ i (w.opening ++ w.seqNew ++ w.closing)
  | seq {i xs ts} : σ i = .seq xs → xs ≠ [] → ShowsAll w σ xs ts →
      Shows w σ i (w.opening ++ (w.seqPush ++ joined [32, 59, 32] ts) ++ w.closing)
  | map {i ps ts} : σ i = .map ps → ShowsPairs w σ ps ts →
      Shows w σ i (w.opening ++ (w.mapNew ++ joined [44, 32] ts) ++ w.closing)

/-- The texts of some objects. -/
inductive ShowsAll (w : Words) (σ : Store) : List Nat → List Text → Prop where
  | nil : ShowsAll w σ [] []
  | cons {x t xs ts} : Shows w σ x t → ShowsAll w σ xs ts → ShowsAll w σ (x :: xs) (t :: ts)

/-- The texts of some entries. -/
inductive ShowsPairs (w : Words) (σ : Store) : List (Nat × Text) → List Text → Prop where
  | nil : ShowsPairs w σ [] []
  | cons {x k t xs ts} : Shows w σ x t → ShowsPairs w σ xs ts →
      ShowsPairs w σ ((x, k) :: xs) ((w.mapPut ++ t ++ w.mapAt ++ k) :: ts)
end

end Verif.Spec.Nest
