import Verif.Model.Map
import Verif.Model.Text

/-!
# Words that maps and texts do not know (`world.c:1100-1122`, `collections.c:823-833`, `base.c:2063-2074`)

`a name: 3` for a map stores, `a name` asks; for a text, `t name: ‘x’` fills in. `known` says which words are messages of the
receiver; those are modelled elsewhere.
-/

namespace Verif.Model.Respond
open Verif.Model

/-- The four messages that stand for words that are not understood. -/
inductive Handler where
  | respond | respondAnd | respondAndAnd | respondAndAndAnd
  deriving DecidableEq

/-- The message that is sent instead of one with `args` arguments, `world.c:1100-1118`. The list of arguments has an
empty one at its end (`walker.c:138-148`, one link more than there are arguments), so its links are counted. -/
def handler (args : Nat) : Handler :=
  let count := if args < 4 then args else 4
  if count = 0 ∨ count > 3 then .respond
  else if count = 1 then .respondAnd
  else if count = 2 then .respondAndAnd
  else .respondAndAndAnd

/-- The key in `ctr_map_key_value`, `collections.c:826-829`: without its last byte. -/
def keyOf (w : Text) : Text := if w.length > 1 then w.dropLast else w

variable {ν : Type}

/-- A message to a map: `ctr_map_key_value`, `collections.c:823-833`, is registered for `respond:and:` and `ctr_map_get`,
`collections.c:912-936`, for `respond:` (`world.c:908-909`); the other two answer the map itself (`ctr_object_respond_and_and`, `ctr_object_respond_and_and_and`, `base.c:546-552`).
`none` if the word is a message of maps. -/
def mapSend (known : Text → Bool) (hash : Text → Nat) (m : PMap Text ν) (w : Text) (args : List ν) :
    Option (Out (PMap Text ν × MapReply ν)) :=
  if known w then none
  else some (match handler args.length, args with
    | .respond, _ => do let r ← m.find hash w; .ok (m, .val r)
    | .respondAnd, v :: _ => do let m ← m.put hash (keyOf w) v; .ok (m, .self)
    | _, _ => .ok (m, .self))

/-- Several messages to a map. -/
def mapRun (known : Text → Bool) (hash : Text → Nat) (m : PMap Text ν) : List (Text × List ν) →
    Option (Out (PMap Text ν × List (MapReply ν)))
  | [] => some (.ok (m, []))
  | (w, args) :: l =>
    match mapSend known hash m w args with
    | none => none
    | some .ub => some .ub
    | some .exit => some .exit
    | some (.ok (m, r)) =>
      match mapRun known hash m l with
      | none => none
      | some o => some (do let (m, rs) ← o; .ok (m, r :: rs))

/-- `ctr_string_fill_in`, `base.c:2063-2074`: a message that ends with `sign` (`ctr_clex_param_prefix_char`) stands for the
text without it. Of an empty message the byte before the text would be read. -/
def fillIn (sign : UInt8) (t w v : Text) : Out Text :=
  match w.getLast? with
  | none => .ub
  | some c => if c = sign then Txt.replace t w.dropLast v else Txt.replace t w v

/-- A message to a text, with the new contents of the text: `ctr_string_fill_in` is registered for `respond:and:`
(`world.c:825`); otherwise the text answers itself (`ctr_object_respond`, `base.c:515-517`, and `base.c:546-552`). `none` if the word is a message of texts.
The argument is given as the text it is converted to. -/
def textSend (known : Text → Bool) (sign : UInt8) (t w : Text) (args : List Text) : Option (Out Text) :=
  if known w then none
  else some (match handler args.length, args with
    | .respondAnd, v :: _ => fillIn sign t w v
    | _, _ => .ok t)

end Verif.Model.Respond
