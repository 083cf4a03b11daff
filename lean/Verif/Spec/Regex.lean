import Verif.Basic

/-!
# What replacing the matches of a pattern means

Independent of the model of `plugins/regex/regex.c`.
-/

namespace Verif.Spec.Rx

abbrev Bytes := List UInt8

/-- A match in a text: where it starts and ends, and the same for the groups of the pattern, if they took part. -/
structure Hit where
  start : Nat
  stop : Nat
  groups : List (Option (Nat × Nat))
  deriving DecidableEq

/-- A pattern: its first match in the second text, if the first text stands before it. -/
abbrev Pattern := Bytes → Bytes → Option Hit

/-- A part of a text. -/
def part (t : Bytes) (a b : Nat) : Bytes := (t.take b).drop a

/-- The places a match tells are places in the text. -/
def Hit.Within (h : Hit) (t : Bytes) : Prop :=
  h.start ≤ h.stop ∧ h.stop ≤ t.length ∧ ∀ a b, some (a, b) ∈ h.groups → a ≤ b ∧ b ≤ t.length

/-- A pattern whose matches lie in the text. -/
def Pattern.Sound (p : Pattern) : Prop := ∀ b t h, p b t = some h → h.Within t

/-- What the block is handed: the match, then every group; a group that took no part is empty. -/
def handed (t : Bytes) (h : Hit) : List Bytes :=
  part t h.start h.stop :: h.groups.map fun
    | some (a, b) => part t a b
    | none => []

/-- `Replaced p block before rest st out st'`: with `before` behind it, the text `rest` becomes `out`. Every match, from
left to right, is replaced by what the block answers, all else is kept; after an empty match the next byte is kept and the
search goes on behind it. An error ends it. -/
inductive Replaced {σ : Type} (p : Pattern) (block : σ → List Bytes → Bytes × Bool × σ) :
    Bytes → Bytes → σ → Bytes → Bool → σ → Prop where
  | done {before rest st} : p before rest = none → Replaced p block before rest st rest false st
  | hit {before rest st h r st' out e st''} : p before rest = some h → h.start < h.stop →
      block st (handed rest h) = (r, false, st') →
      Replaced p block (before ++ rest.take h.stop) (rest.drop h.stop) st' out e st'' →
      Replaced p block before rest st (rest.take h.start ++ r ++ out) e st''
  | empty {before rest st h r st' c tail out e st''} : p before rest = some h → h.start = h.stop →
      block st (handed rest h) = (r, false, st') → rest.drop h.stop = c :: tail →
      Replaced p block (before ++ rest.take h.stop ++ [c]) tail st' out e st'' →
      Replaced p block before rest st (rest.take h.start ++ r ++ c :: out) e st''
  | last {before rest st h r st'} : p before rest = some h → h.start = h.stop →
      block st (handed rest h) = (r, false, st') → rest.drop h.stop = [] →
      Replaced p block before rest st (rest.take h.start ++ r) false st'
  | fail {before rest st h r st' out} : p before rest = some h → block st (handed rest h) = (r, true, st') →
      Replaced p block before rest st out true st'

/-- A pattern that does not look at what stands before. -/
def Pattern.Blind (p : Pattern) : Prop := ∀ b t, p b t = p [] t

/-- A pattern that never matches the empty text. -/
def Pattern.Filled (p : Pattern) : Prop := ∀ b t h, p b t = some h → h.start < h.stop

/-- A pattern whose groups take part in every match, and which has at most 254 of them. -/
def Pattern.Full (p : Pattern) : Prop := ∀ b t h, p b t = some h → none ∉ h.groups ∧ h.groups.length ≤ 254

/-- A part of the text that was kept, the match behind it, and what the block answered for it. -/
structure Piece where
  kept : Bytes
  found : Bytes
  answer : Bytes

end Verif.Spec.Rx
