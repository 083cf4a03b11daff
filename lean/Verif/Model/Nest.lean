import Verif.Basic
import Verif.Model.Text
import Verif.Spec.Nest

/-!
# Sequences and lists as text (`collections.c`, `base.c`)

`ctr_array_to_string`, `ctr_map_to_string` and `ctr_object_to_code`, on object graphs of any shape, cyclic ones included.
The functions call each other through messages; here they call each other directly (objects with own meanings for these
messages are not modelled). Elements that are neither sequences nor lists answer a fixed text to `code`. Memory is unlimited
and garbage collection does not interfere.
-/

namespace Verif.Model.Nest

open Verif.Spec.Nest (Node Store Words)

/-- What survives a conversion: the two static counters (`collections.c:662`, `1062`; `uint8_t`), and whether an error is
pending (`CtrStdFlow`). -/
structure St where
  seqDepth : UInt8
  mapDepth : UInt8
  flow : Bool
  deriving DecidableEq

/-- A conversion: the text and the new state. `none` if the number of nested calls is used up. -/
abbrev Conv := St → Option (Text × St)

/-- The loop over the elements, `collections.c:678-686`. -/
def seqItems (code : Nat → Conv) : List Nat → Text → Conv
  | [], acc, s => some (acc, s)
  | x :: xs, acc, s =>
    match code x s with
    | none => none
    | some (t, s) => seqItems code xs (acc ++ t ++ (if xs = [] then [] else [32, 59, 32])) s

/-- `ctr_array_to_string`, `collections.c:658-691`. -/
def seqText (w : Words) (code : Nat → Conv) (items : List Nat) : Conv := fun s =>
  let s := { s with seqDepth := s.seqDepth + 1 }
  if s.seqDepth > 99 then some ([], { s with flow := true })
  else
    match seqItems code items (if items = [] then w.seqNew else w.seqPush) s with
    | none => none
    | some (t, s) => some (t, { s with seqDepth := s.seqDepth - 1 })

/-- `ctr_send_message` of `code` to a key, `collections.c:1078`; nothing is sent while an error is pending (`world.c:1069`),
and the missing text becomes `?` (`world.c:465-468`). -/
def keyCode (k : Text) (s : St) : Text := if s.flow then [63] else k

/-- The loop over the entries, `collections.c:1071-1086`. -/
def mapItems (w : Words) (code : Nat → Conv) : List (Nat × Text) → Text → Conv
  | [], acc, s => some (acc, s)
  | (x, k) :: xs, acc, s =>
    match code x s with
    | none => none
    | some (t, s) =>
      mapItems w code xs (acc ++ w.mapPut ++ t ++ w.mapAt ++ keyCode k s ++ (if xs = [] then [] else [44, 32])) s

/-- `ctr_map_to_string`, `collections.c:1058-1090`. -/
def mapText (w : Words) (code : Nat → Conv) (items : List (Nat × Text)) : Conv := fun s =>
  let s := { s with mapDepth := s.mapDepth + 1 }
  if s.mapDepth > 99 then some ([], { s with flow := true })
  else
    match mapItems w code items w.mapNew s with
    | none => none
    | some (t, s) => some (t, { s with mapDepth := s.mapDepth - 1 })

/-- `ctr_object_to_code`, `base.c:196-208`: the text between parentheses. -/
def between (w : Words) (r : Option (Text × St)) : Option (Text × St) :=
  match r with
  | none => none
  | some (t, s) => some (w.opening ++ t ++ w.closing, s)

/-- The message `code` to an object (`world.c:1052-1151`, `base.c:196-208`). The first argument bounds the nesting of the
calls. -/
def codeOf (w : Words) (σ : Store) : Nat → Nat → Conv
  | 0, _, _ => none
  | f + 1, i, s =>
    if s.flow then some ([63], s)
    else
      match σ i with
      | .leaf t => some (t, s)
      | .seq items => between w (seqText w (codeOf w σ f) items s)
      | .map items => between w (mapText w (codeOf w σ f) items s)

/-- Conversions one after the other; errors are caught in between (`CtrStdFlow` is set to `NULL`, `base.c:2480-2500`). -/
def history (w : Words) (f : Nat) : List (Store × Nat) → St → Option St
  | [], s => some s
  | (σ, i) :: l, s =>
    match codeOf w σ f i s with
    | none => none
    | some (_, s) => history w f l { s with flow := false }

/-- The state at the start of the process. -/
def init : St := ⟨0, 0, false⟩

end Verif.Model.Nest
