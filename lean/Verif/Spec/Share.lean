import Verif.Basic

/-!
# Texts shared with maps, methods and numbers: specification

The program holds texts, each of which it can change. A map, an object or a number that is given a text as key, name or unit keeps
what the text said at that time; a text that it hands out belongs to the program. The flag of a text tells whether it was made by
the program and never given away nor obtained from elsewhere.
-/

namespace Verif.Spec.Share

/-- A text of the program. -/
structure Held (τ : Type) where
  text : τ
  own : Bool

/-- The text `i` gets another ending. -/
def change {τ : Type} (app : τ → τ → τ) (l : List (Held τ)) (i : Nat) (t : τ) : List (Held τ) :=
  l.modify i fun h => { h with text := app h.text t }

/-- The text `i` is given away. -/
def give {τ : Type} (l : List (Held τ)) (i : Nat) : List (Held τ) := l.modify i fun h => { h with own := false }

/-! ### Maps -/

/-- What a program does with a map: a new text, a longer text, storing the value `v` under text `i`, removing, asking for the value,
getting the key of the `n`-th entry, looking at a text. -/
inductive MapOp (τ : Type) where
  | make (t : τ)
  | append (i : Nat) (t : τ)
  | put (v : Nat) (i : Nat)
  | delete (i : Nat)
  | at (i : Nat)
  | key (n : Nat)
  | look (i : Nat)

/-- Answers. -/
inductive Answer (τ : Type) where
  | nothing
  | value (v : Option Nat)
  | text (t : Option τ)
  deriving DecidableEq

/-- The texts of the program and the entries, the newest first. -/
structure MapSt (τ : Type) where
  held : List (Held τ)
  map : List (τ × Nat)

/-- One operation. -/
def mapStep {τ : Type} [DecidableEq τ] (app : τ → τ → τ) (s : MapSt τ) : MapOp τ → Answer τ × MapSt τ
  | .make t => (.nothing, { s with held := s.held ++ [⟨t, true⟩] })
  | .append i t => (.nothing, { s with held := change app s.held i t })
  | .put v i =>
    match s.held[i]? with
    | none => (.nothing, s)
    | some h => (.nothing, { s with map := (h.text, v) :: s.map.filter fun e => e.1 ≠ h.text })
  | .delete i =>
    match s.held[i]? with
    | none => (.nothing, s)
    | some h => (.nothing, { s with map := s.map.filter fun e => e.1 ≠ h.text })
  | .at i =>
    match s.held[i]? with
    | none => (.nothing, s)
    | some h => (.value ((s.map.find? fun e => e.1 = h.text).map (·.2)), s)
  | .key n =>
    match s.map[n]? with
    | none => (.nothing, s)
    | some e => (.nothing, { s with held := s.held ++ [⟨e.1, false⟩] })
  | .look i => (.text ((s.held[i]?).map (·.text)), s)

/-- Several operations. -/
def mapRun {τ : Type} [DecidableEq τ] (app : τ → τ → τ) : MapSt τ → List (MapOp τ) → List (Answer τ)
  | _, [] => []
  | s, op :: l => (mapStep app s op).1 :: mapRun app (mapStep app s op).2 l

/-! ### Names of messages -/

/-- What a program does with the messages of an object: texts as before, `on:do:`, `learn:means:`, asking which code answers. -/
inductive NameOp (τ : Type) where
  | make (t : τ)
  | append (i : Nat) (t : τ)
  | define (i : Nat) (m : Nat)
  | learn (i : Nat) (j : Nat)
  | code (i : Nat)

/-- The texts of the program and the code of each message. -/
structure NameSt (τ : Type) where
  held : List (Held τ)
  code : τ → Option Nat

/-- One operation. -/
def nameStep {τ : Type} [DecidableEq τ] (app : τ → τ → τ) (s : NameSt τ) : NameOp τ → Answer τ × NameSt τ
  | .make t => (.nothing, { s with held := s.held ++ [⟨t, true⟩] })
  | .append i t => (.nothing, { s with held := change app s.held i t })
  | .define i m =>
    match s.held[i]? with
    | none => (.nothing, s)
    | some h => (.nothing, { held := give s.held i, code := fun t => if t = h.text then some m else s.code t })
  | .learn i j =>
    match s.held[i]?, s.held[j]? with
    | some h, some h' =>
      match s.code h'.text with
      | none => (.nothing, s)
      | some m => (.nothing, { held := give s.held i, code := fun t => if t = h.text then some m else s.code t })
    | _, _ => (.nothing, s)
  | .code i =>
    match s.held[i]? with
    | none => (.nothing, s)
    | some h => (.value (s.code h.text), s)

/-- Several operations. -/
def nameRun {τ : Type} [DecidableEq τ] (app : τ → τ → τ) : NameSt τ → List (NameOp τ) → List (Answer τ)
  | _, [] => []
  | s, op :: l => (nameStep app s op).1 :: nameRun app (nameStep app s op).2 l

/-! ### Numbers -/

/-- What a program does with numbers: a new number, another name for the same number, a copy, changing number `i` by number `j`, a
calculation, texts as before, giving number `i` the unit in text `k`, asking for the unit, looking at a number with its unit. -/
inductive NumOp (τ δ : Type) where
  | number (x : δ)
  | same (i : Nat)
  | copy (i : Nat)
  | change (f : δ → δ → δ) (i j : Nat)
  | calc (f : δ → δ → δ) (i j : Nat)
  | make (t : τ)
  | append (k : Nat) (t : τ)
  | qualify (i k : Nat)
  | unit (i : Nat)
  | look (i : Nat)

/-- The texts, the numbers with their units, and the number that each variable stands for. -/
structure NumSt (τ δ : Type) where
  held : List (Held τ)
  cells : List (δ × Option τ)
  vars : List Nat

/-- The number of a variable. -/
def NumSt.cell {τ δ : Type} (s : NumSt τ δ) (i : Nat) : Option (Nat × (δ × Option τ)) :=
  (s.vars[i]?).bind fun c => (s.cells[c]?).map fun x => (c, x)

/-- One operation. -/
def numStep {τ δ : Type} (app : τ → τ → τ) (s : NumSt τ δ) : NumOp τ δ → Option (δ × Option τ) × NumSt τ δ
  | .number x => (none, { s with cells := s.cells ++ [(x, none)], vars := s.vars ++ [s.cells.length] })
  | .same i =>
    match s.cell i with
    | none => (none, s)
    | some (c, _) => (none, { s with vars := s.vars ++ [c] })
  | .copy i =>
    match s.cell i with
    | none => (none, s)
    | some (_, x) => (none, { s with cells := s.cells ++ [x], vars := s.vars ++ [s.cells.length] })
  | .change f i j =>
    match s.cell i, s.cell j with
    | some (c, x), some (_, y) => (none, { s with cells := s.cells.set c (f x.1 y.1, x.2) })
    | _, _ => (none, s)
  | .calc f i j =>
    match s.cell i, s.cell j with
    | some (_, x), some (_, y) => (none, { s with cells := s.cells ++ [(f x.1 y.1, none)], vars := s.vars ++ [s.cells.length] })
    | _, _ => (none, s)
  | .make t => (none, { s with held := s.held ++ [⟨t, true⟩] })
  | .append k t => (none, { s with held := change app s.held k t })
  | .qualify i k =>
    match s.cell i, s.held[k]? with
    | some (c, x), some h => (none, { s with cells := s.cells.set c (x.1, some h.text), held := give s.held k })
    | _, _ => (none, s)
  | .unit i =>
    match s.cell i with
    | some (_, (_, some q)) => (none, { s with held := s.held ++ [⟨q, false⟩] })
    | _ => (none, s)
  | .look i => ((s.cell i).map (·.2), s)

/-- Several operations. -/
def numRun {τ δ : Type} (app : τ → τ → τ) : NumSt τ δ → List (NumOp τ δ) → List (Option (δ × Option τ))
  | _, [] => []
  | s, op :: l => (numStep app s op).1 :: numRun app (numStep app s op).2 l

end Verif.Spec.Share
