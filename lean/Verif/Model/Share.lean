import Verif.Model.Num
import Verif.Model.Text
import Verif.Spec.Share

/-!
# Texts shared with maps, methods and numbers (`collections.c`, `world.c`, `base.c`)

Text objects are in a list; their place is their identity. The program has text objects through `held`. Lists of entries are modelled
as lists, the newest first (the linked lists are the subject of `Model/Map.lean`).
-/

namespace Verif.Model.Share

open Verif.Model Verif.Model.Num
open Verif.Spec.Share (MapOp NameOp NumOp Answer)

/-- The text objects, and those the program has. -/
structure Heap where
  texts : List Text
  held : List Nat

/-- The content of the text object `k`. -/
def Heap.text (h : Heap) (k : Nat) : Text := h.texts[k]?.getD []

/-- `ctr_build_string`, `base.c:1618-1627`: a new text object. -/
def Heap.build (h : Heap) (t : Text) : Nat × Heap := (h.texts.length, { h with texts := h.texts ++ [t] })

/-- A text literal; the program has it. -/
def Heap.make (h : Heap) (t : Text) : Heap :=
  let r := h.build t
  { r.2 with held := h.held ++ [r.1] }

/-- `ctr_string_append`, `base.c:1794-1813`, changes the text object. -/
def Heap.append (h : Heap) (i : Nat) (t : Text) : Heap :=
  match h.held[i]? with
  | none => h
  | some k => { h with texts := h.texts.modify k fun u => u ++ t }

/-! ### Maps -/

/-- `ctr_mapitem`, `citrine.h:171-178`: the hash, the text object of the key, and the value. -/
structure Entry where
  hash : Nat
  key : Nat
  val : Nat

/-- A map and the texts. -/
structure MapSt where
  heap : Heap
  items : List Entry

/-- The test in `ctr_internal_object_find_property` and `ctr_internal_object_delete_property`, `world.c:149`, `world.c:180`. -/
def hit (hash : Text → Nat) (h : Heap) (t : Text) (e : Entry) : Bool := hash t == e.hash && h.text e.key == t

/-- `ctr_internal_object_find_property`, `world.c:133-155`. -/
def lookup (hash : Text → Nat) (h : Heap) (t : Text) : List Entry → Option Nat
  | [] => none
  | e :: l => if hit hash h t e then some e.val else lookup hash h t l

/-- `ctr_internal_object_delete_property`, `world.c:165-215`: the first entry found. -/
def remove (hash : Text → Nat) (h : Heap) (t : Text) : List Entry → List Entry
  | [] => []
  | e :: l => if hit hash h t e then l else e :: remove hash h t l

/-- `ctr_map_put` (`collections.c:785-808`; the key is copied), `ctr_map_delete` (`collections.c:845-848`), `ctr_map_get`
(`collections.c:912-935`), and a message to the `n`-th element of `ctr_map_keys` (`collections.c:859-873`), which is the key itself. -/
def mapStep (hash : Text → Nat) (s : MapSt) : MapOp Text → Answer Text × MapSt
  | .make t => (.nothing, { s with heap := s.heap.make t })
  | .append i t => (.nothing, { s with heap := s.heap.append i t })
  | .put v i =>
    match s.heap.held[i]? with
    | none => (.nothing, s)
    | some k =>
      let t := s.heap.text k
      let r := s.heap.build t
      (.nothing, { heap := r.2, items := ⟨hash t, r.1, v⟩ :: remove hash s.heap t s.items })
  | .delete i =>
    match s.heap.held[i]? with
    | none => (.nothing, s)
    | some k => (.nothing, { s with items := remove hash s.heap (s.heap.text k) s.items })
  | .at i =>
    match s.heap.held[i]? with
    | none => (.nothing, s)
    | some k => (.value (lookup hash s.heap (s.heap.text k) s.items), s)
  | .key n =>
    match s.items[n]? with
    | none => (.nothing, s)
    | some e => (.nothing, { s with heap := { s.heap with held := s.heap.held ++ [e.key] } })
  | .look i => (.text ((s.heap.held[i]?).map s.heap.text), s)

/-- Several operations. -/
def mapRun (hash : Text → Nat) : MapSt → List (MapOp Text) → List (Answer Text)
  | _, [] => []
  | s, op :: l => (mapStep hash s op).1 :: mapRun hash (mapStep hash s op).2 l

/-! ### Names of messages -/

/-- The search of `ctr_object_learn_meaning`, `base.c:582-593`: same length and `strncmp`. -/
def meaning (h : Heap) (t : Text) : List Entry → Out (Option Nat)
  | [] => .ok none
  | e :: l =>
    if (h.text e.key).length = t.length then
      (Txt.strncmp (h.text e.key) t (h.text e.key).length).bind fun r =>
        if r == .eq then .ok (some e.val) else meaning h t l
    else meaning h t l

/-- `ctr_object_on_do` (`base.c:485-502`) and `ctr_object_learn_meaning` (`base.c:573-595`): the name is the text object of the
argument itself. Only methods of the object itself are considered. -/
def nameStep (hash : Text → Nat) (s : MapSt) : NameOp Text → Out (Answer Text × MapSt)
  | .make t => .ok (.nothing, { s with heap := s.heap.make t })
  | .append i t => .ok (.nothing, { s with heap := s.heap.append i t })
  | .define i m =>
    match s.heap.held[i]? with
    | none => .ok (.nothing, s)
    | some k => .ok (.nothing, { s with items := ⟨hash (s.heap.text k), k, m⟩ :: s.items })
  | .learn i j =>
    match s.heap.held[i]?, s.heap.held[j]? with
    | some k, some k' =>
      (meaning s.heap (s.heap.text k') s.items).bind fun r =>
        match r with
        | none => .ok (.nothing, s)
        | some m => .ok (.nothing, { s with items := ⟨hash (s.heap.text k), k, m⟩ :: s.items })
    | _, _ => .ok (.nothing, s)
  | .code i =>
    match s.heap.held[i]? with
    | none => .ok (.nothing, s)
    | some k => .ok (.value (lookup hash s.heap (s.heap.text k) s.items), s)

/-- Several operations. -/
def nameRun (hash : Text → Nat) : MapSt → List (NameOp Text) → Out (List (Answer Text))
  | _, [] => .ok []
  | s, op :: l => (nameStep hash s op).bind fun r => (nameRun hash r.2 l).bind fun q => .ok (r.1 :: q)

/-! ### Numbers -/

/-- The texts, the number objects with the text object of their unit, and the object each variable stands for. -/
structure NumSt where
  heap : Heap
  cells : List (Dbl × Option Nat)
  vars : List Nat

/-- The number object of a variable. -/
def NumSt.cell (s : NumSt) (i : Nat) : Option (Nat × (Dbl × Option Nat)) :=
  (s.vars[i]?).bind fun c => (s.cells[c]?).map fun x => (c, x)

/-- `ctr_build_number_from_float` (`base.c:910-915`), assignment (`world.c:1161-1204`: the object is not copied), `ctr_number_copy`
(`base.c:364-371`), `ctr_number_inc`, `ctr_number_dec`, `ctr_number_mul` (`base.c:1108-1112`, `1139-1143`, `1232-1236`),
`ctr_number_add`, `ctr_number_minus`, `ctr_number_multiply` with numbers (`base.c:1077-1097`, `1123-1128`, `1153-1161`),
`ctr_number_qualify` (`base.c:1355-1358`), `ctr_number_qualification` (`base.c:1368-1372`). -/
def numStep (s : NumSt) : NumOp Text Dbl → Option (Dbl × Option Text) × NumSt
  | .number x => (none, { s with cells := s.cells ++ [(x, none)], vars := s.vars ++ [s.cells.length] })
  | .same i =>
    match s.cell i with
    | none => (none, s)
    | some (c, _) => (none, { s with vars := s.vars ++ [c] })
  | .copy i =>
    match s.cell i with
    | none => (none, s)
    | some (_, x) => (none, { s with cells := s.cells ++ [(x.1, x.2)], vars := s.vars ++ [s.cells.length] })
  | .change f i j =>
    match s.cell i, s.cell j with
    | some (c, x), some (_, y) => (none, { s with cells := s.cells.set c (f x.1 y.1, x.2) })
    | _, _ => (none, s)
  | .calc f i j =>
    match s.cell i, s.cell j with
    | some (_, x), some (_, y) => (none, { s with cells := s.cells ++ [(f x.1 y.1, none)], vars := s.vars ++ [s.cells.length] })
    | _, _ => (none, s)
  | .make t => (none, { s with heap := s.heap.make t })
  | .append k t => (none, { s with heap := s.heap.append k t })
  | .qualify i k =>
    match s.cell i, s.heap.held[k]? with
    | some (c, x), some q => (none, { s with cells := s.cells.set c (x.1, some q) })
    | _, _ => (none, s)
  | .unit i =>
    match s.cell i with
    | some (_, (_, some q)) => (none, { s with heap := { s.heap with held := s.heap.held ++ [q] } })
    | _ => (none, s)
  | .look i => ((s.cell i).map fun r => (r.2.1, r.2.2.map s.heap.text), s)

/-- Several operations. -/
def numRun : NumSt → List (NumOp Text Dbl) → List (Option (Dbl × Option Text))
  | _, [] => []
  | s, op :: l => (numStep s op).1 :: numRun (numStep s op).2 l

end Verif.Model.Share
