import Verif.Model.Num
import Verif.Spec.Json

/-!
# The JSON plugin (`plugins/jsmn/jsmn.c`, `plugins/jsmn/jsmn/jsmn.c`)

The plugin is built with `JSMN_STRICT` and `JSMN_PARENT_LINKS` (`plugins/jsmn/makefile:21-31`). Texts are shorter than 2^31 bytes,
otherwise the outcome is `.ub` here (`int` is used for positions and counts). The depth of the C stack is not modelled.
-/

namespace Verif.Model.Json
open Verif.Spec.Json (V)
open Verif.Model.Num (Seps)

/-- The C library: `atof` and `snprintf(.., 99, "%.10f", ..)`. -/
structure Floats (D : Type) where
  read : Text → D
  print : D → Text

/-! ## Escapes -/

/-- `isControlChar`, `plugins/jsmn/jsmn.c:66-81`: tabulator, carriage return, line feed, backspace. -/
def isControl (c : UInt8) : Bool := c = 9 || c = 13 || c = 10 || c = 8

/-- `characterDescription`, `plugins/jsmn/jsmn.c:66-81`, `163-180`; a form feed has none. -/
def describe (c : UInt8) : UInt8 :=
  if c = 9 then 116 else if c = 13 then 114 else if c = 10 then 110 else if c = 8 then 98 else c

/-- A buffer of `size` bytes, filled with zero bytes (`ctr_heap_allocate`), to which `t` is written from the start on. -/
def fill (size : Int) (t : Text) : Out Text :=
  if (t.length : Int) ≤ size then .ok (t ++ List.replicate (size.toNat - t.length) 0) else .ub

/-- `ctr_string_escape`, `plugins/jsmn/jsmn.c:23-101`: the size is counted first (lines 45-58), then the buffer is written. -/
def escape (chars t : Text) : Out Text :=
  if chars.length < 1 then .ok t
  else
    let size : Nat := t.length + (chars.map fun q => t.countP (· = q)).sum
    fill size (t.flatMap fun c => if c ∈ chars then [92, if isControl c then describe c else c] else [c])

/-- How often a backslash is followed by a byte, `plugins/jsmn/jsmn.c:151-155`; overlapping pairs count. -/
def pairs (d : UInt8) : Text → Nat
  | a :: b :: r => (if a = 92 ∧ b = d then 1 else 0) + pairs d (b :: r)
  | _ => 0

/-- The loop over the characters, `plugins/jsmn/jsmn.c:161-201`: `rest` is the text from index `i` on. The loop goes on after a
match, with the next index. The letters `n`, `r`, `t`, `b` give the control character. -/
def unescapeAt : Text → Text → Text → Bool → Text × Text × Bool
  | [], rest, out, flag => (rest, out, flag)
  | q :: qs, rest, out, flag =>
    match rest with
    | 92 :: d :: r =>
      if d = describe q then unescapeAt qs (d :: r) (out ++ [if isControl q then q else d]) true
      else unescapeAt qs (92 :: d :: r) out flag
    | _ => unescapeAt qs rest out flag

/-- The loop over the text, `plugins/jsmn/jsmn.c:159-205`; `fuel` is at least the number of bytes left. -/
def unescapeLoop (chars : Text) : Nat → Text → Text → Text
  | 0, _, out => out
  | fuel + 1, rest, out =>
    match rest with
    | [] => out
    | c :: r =>
      match unescapeAt chars (c :: r) out false with
      | (rest', out', true) => unescapeLoop chars fuel rest'.tail out'
      | (rest', out', false) => unescapeLoop chars fuel rest'.tail (out' ++ rest'.take 1)

/-- `ctr_string_unescape`, `plugins/jsmn/jsmn.c:109-212`. -/
def unescape (chars t : Text) : Out Text :=
  if chars.length < 1 then .ok t
  else fill ((t.length : Int) - (chars.map fun q => pairs (describe q) t).sum) (unescapeLoop chars t.length t [])

/-! ## The tokenizer -/

/-- `jsmntype_t`, `plugins/jsmn/jsmn/jsmn.h:17-23`; `none` is `JSMN_UNDEFINED`, the value in fresh memory. -/
inductive Kind where
  | undef
  | obj
  | arr
  | str
  | prim
  deriving DecidableEq

/-- `jsmntok_t`, `plugins/jsmn/jsmn/jsmn.h:40-48`; `fin` and `parent` are `none` for -1. -/
structure Tok where
  kind : Kind
  start : Nat
  fin : Option Nat
  size : Nat
  parent : Option Nat
  deriving DecidableEq

/-- A token in fresh memory. -/
def Tok.fresh : Tok := ⟨.undef, 0, some 0, 0, some 0⟩

/-- `jsmn_parser`, `plugins/jsmn/jsmn/jsmn.h:54-58`: the tokens allocated so far (`toknext` is their number), `toksuper`
(`none` for -1), and the local variable `count`. -/
structure St where
  pos : Nat
  toks : List Tok
  super : Option Nat
  count : Nat

/-- `jsmn_alloc_token` and `jsmn_fill_token`, `plugins/jsmn/jsmn/jsmn.c:6-30`; `cap` is the number of tokens there is room for.
`none` is `JSMN_ERROR_NOMEM`. -/
def alloc (cap : Nat) (s : St) (t : Tok) : Option St :=
  if s.toks.length ≥ cap then none else some { s with toks := s.toks ++ [t] }

/-- `tokens[i].size++`. -/
def bump (s : St) (i : Nat) : Out St :=
  match s.toks[i]? with
  | none => .ub
  | some t => .ok { s with toks := s.toks.set i { t with size := t.size + 1 } }

/-- `if (parser->toksuper != -1 && tokens != NULL) tokens[parser->toksuper].size++`. -/
def bumpSuper (cap : Option Nat) (s : St) : Out St :=
  match cap, s.super with
  | some _, some i => bump s i
  | _, _ => .ok s

/-- The loop of `jsmn_parse_primitive`, `plugins/jsmn/jsmn/jsmn.c:42-56`: the number of bytes of the primitive; `none` is an error
(an invalid byte, or the end of the text, `JSMN_STRICT`). -/
def primLength : Text → Option Nat
  | [] => none
  | c :: r =>
    if c ∈ ([9, 13, 10, 32, 44, 93, 125] : List UInt8) then some 0
    else if c.toNat < 32 ∨ c.toNat ≥ 127 then none
    else (primLength r).map (· + 1)

/-- `jsmn_parse_primitive`, `plugins/jsmn/jsmn/jsmn.c:35-79`; `rest` is the text from `pos` on. -/
def parsePrimitive (cap : Option Nat) (rest : Text) (s : St) : Option St :=
  match primLength rest with
  | none => none
  | some n =>
    match cap with
    | none => some { s with pos := s.pos + n - 1 }
    | some k => (alloc k s ⟨.prim, s.pos, some (s.pos + n), 0, s.super⟩).map ({ · with pos := s.pos + n - 1 })

/-- The loop of `jsmn_parse_string`, `plugins/jsmn/jsmn/jsmn.c:93-143`: the number of bytes before the closing quote; `h` is the
number of hexadecimal digits that are expected. `none` is an error. -/
def stringLength : Nat → Text → Option Nat
  | _, [] => none
  | h + 1, c :: r =>
    if (48 ≤ c.toNat ∧ c.toNat ≤ 57) ∨ (65 ≤ c.toNat ∧ c.toNat ≤ 70) ∨ (97 ≤ c.toNat ∧ c.toNat ≤ 102) then
      (stringLength h r).map (· + 1)
    else none
  | 0, c :: r =>
    if c = 34 then some 0
    else if c = 92 then
      match r with
      | [] => none
      | e :: r' =>
        if e ∈ ([34, 47, 92, 98, 102, 114, 110, 116] : List UInt8) then (stringLength 0 r').map (· + 2)
        else if e = 117 then (stringLength 4 r').map (· + 2)
        else none
    else (stringLength 0 r).map (· + 1)

/-- `jsmn_parse_string`, `plugins/jsmn/jsmn/jsmn.c:84-146`; `rest` is the text from the opening quote on. -/
def parseString (cap : Option Nat) (rest : Text) (s : St) : Option St :=
  match stringLength 0 (rest.drop 1) with
  | none => none
  | some n =>
    match cap with
    | none => some { s with pos := s.pos + 1 + n }
    | some k => (alloc k s ⟨.str, s.pos + 1, some (s.pos + 1 + n), 0, s.super⟩).map ({ · with pos := s.pos + 1 + n })

/-- The loop for a closing bracket, `plugins/jsmn/jsmn/jsmn.c:190-207`, from token `i` on. Fuel: a parent comes before its
children, so the number of tokens is enough. -/
def close (kind : Kind) (s : St) : Nat → Nat → Out (Option St)
  | 0, _ => .ub
  | fuel + 1, i =>
    match s.toks[i]? with
    | none => .ub
    | some t =>
      if t.fin = none then
        if t.kind ≠ kind then .ok none
        else .ok (some { s with toks := s.toks.set i { t with fin := some (s.pos + 1) }, super := t.parent })
      else
        match t.parent with
        | none => if t.kind ≠ kind ∨ s.super = none then .ok none else .ok (some s)
        | some j => close kind s fuel j

/-- A primitive must not be a key of an object, nor a second value for a key, `plugins/jsmn/jsmn/jsmn.c:266-273`. -/
def misplaced (cap : Option Nat) (s : St) : Out Bool :=
  match cap, s.super with
  | some _, some i =>
    match s.toks[i]? with
    | none => .ub
    | some t => .ok (decide (t.kind = .obj ∨ (t.kind = .str ∧ t.size ≠ 0)))
  | _, _ => .ok false

/-- One round of `jsmn_parse`, `plugins/jsmn/jsmn/jsmn.c:162-290`, without `pos++`; `c` is the byte at `pos`. `.ok none` is an
error. -/
def round (cap : Option Nat) (c : UInt8) (rest : Text) (s : St) : Out (Option St) :=
  if c = 123 ∨ c = 91 then
    let s := { s with count := s.count + 1 }
    match cap with
    | none => .ok (some s)
    | some k =>
      match alloc k s ⟨if c = 123 then .obj else .arr, s.pos, none, 0, s.super⟩ with
      | none => .ok none
      | some s' => do
        let s' ← bumpSuper cap s'
        .ok (some { s' with super := some (s'.toks.length - 1) })
  else if c = 125 ∨ c = 93 then
    match cap with
    | none => .ok (some s)
    | some _ =>
      if s.toks.length < 1 then .ok none
      else close (if c = 125 then .obj else .arr) s s.toks.length (s.toks.length - 1)
  else if c = 34 then
    match parseString cap rest s with
    | none => .ok none
    | some s' => do
      let s' ← bumpSuper cap { s' with count := s'.count + 1 }
      .ok (some s')
  else if c = 9 ∨ c = 13 ∨ c = 10 ∨ c = 32 then .ok (some s)
  else if c = 58 then
    .ok (some { s with super := if s.toks.length = 0 then none else some (s.toks.length - 1) })
  else if c = 44 then
    match cap, s.super with
    | some _, some i =>
      match s.toks[i]? with
      | none => .ub
      | some t => if t.kind ≠ .arr ∧ t.kind ≠ .obj then .ok (some { s with super := t.parent }) else .ok (some s)
    | _, _ => .ok (some s)
  else if c = 45 ∨ (48 ≤ c.toNat ∧ c.toNat ≤ 57) ∨ c = 116 ∨ c = 102 ∨ c = 110 then do
    let bad ← misplaced cap s
    if bad then .ok none
    else
      match parsePrimitive cap rest s with
      | none => .ok none
      | some s' => do
        let s' ← bumpSuper cap { s' with count := s'.count + 1 }
        .ok (some s')
  else .ok none

/-- `jsmn_parse`, `plugins/jsmn/jsmn/jsmn.c:151-303`: `cap` is `none` if the tokens are only counted. The tokens, and whether
there was no error; `js` has no zero byte. Fuel: `pos` grows in every round. -/
def tokenize (cap : Option Nat) (js : Text) : Nat → St → Out (St × Bool)
  | 0, s => .ok (s, false)
  | fuel + 1, s =>
    match js.drop s.pos with
    | [] => .ok (s, cap = none || s.toks.all (fun t => t.fin ≠ none))
    | c :: rest => do
      match ← round cap c (c :: rest) s with
      | none => .ok (s, false)
      | some s' => tokenize cap js fuel { s' with pos := s'.pos + 1 }

/-- `jsmn_init`, `plugins/jsmn/jsmn/jsmn.c:309-313`. -/
def start : St := ⟨0, [], none, 0⟩

/-! ## From tokens to values -/

/-- `t = *tt` and what is read from it: beyond the `cap` tokens of the buffer the behaviour is undefined; tokens that were not
filled are fresh memory. -/
def tokAt (cap : Nat) (toks : List Tok) (i : Nat) : Out Tok := if i < cap then .ok (toks.getD i .fresh) else .ub

/-- The characters for unescaping, `plugins/jsmn/jsmn.c:255`. -/
def unescapes : Text := [34, 9, 8, 10, 13, 12, 92]

/-- The items of a sequence, `plugins/jsmn/jsmn.c:279-283`. -/
def dumpItems {D : Type} (dump : Nat → Bool → Out (V D × Nat × Bool)) : Nat → Nat → Bool → List (V D) →
    Out (List (V D) × Nat × Bool)
  | 0, i, err, acc => .ok (acc, i, err)
  | n + 1, i, err, acc => do
    let (v, i, err) ← dump i err
    dumpItems dump n i err (acc ++ [v])

/-- The entries of a list, `plugins/jsmn/jsmn.c:291-299`; `key` is the text of an object used as a key (`collections.c:795-799`). -/
def dumpEntries {D : Type} (key : V D → Out Text) (dump : Nat → Bool → Out (V D × Nat × Bool)) : Nat → Nat → Bool →
    List (Text × V D) → Out (List (Text × V D) × Nat × Bool)
  | 0, i, err, acc => .ok (acc, i, err)
  | n + 1, i, err, acc => do
    let (p, i, err) ← dump i err
    let (v, i, err) ← dump i err
    if err then .ok (acc, i, err)
    else do
      let k ← key p
      dumpEntries key dump n i err (Spec.Json.enter acc k v)

/-- The text of an object used as a key (`collections.c:795-799`); `other` is the text of anything but a text. -/
def keyOf {D : Type} (other : V D → Out Text) : V D → Out Text
  | .text t => .ok t
  | v => other v

/-- `ctr_jsmn_dump`, `plugins/jsmn/jsmn.c:231-308`: the value, the next token, whether an error is pending. Fuel: every call but
those with an error uses a token before it calls itself, so one more than the number of tokens is enough. -/
def dump {D : Type} (fl : Floats D) (sp : Seps) (other : V D → Out Text) (data : Text) (cap : Nat) (toks : List Tok) :
    Nat → Nat → Bool → Out (V D × Nat × Bool)
  | 0, _, _ => .ub
  | fuel + 1, i, err =>
    if err then .ok (.nil, i, true)
    else do
      let t ← tokAt cap toks i
      match t.fin with
      | none => .ok (.nil, i, true)
      | some e =>
        if t.start ≥ data.length ∨ e < t.start ∨ e - t.start > data.length then .ok (.nil, i, true)
        else
          let raw := (data.drop t.start).take (e - t.start)
          match t.kind with
          | .str => do
            let v ← unescape unescapes raw
            .ok (.text v, i + 1, false)
          | .prim =>
            let c := data.getD t.start 0
            if c = 116 then .ok (.bool true, i + 1, false)
            else if c = 102 then .ok (.bool false, i + 1, false)
            else if c = 110 then .ok (.nil, i + 1, false)
            else if c = 45 ∨ (48 ≤ c.toNat ∧ c.toNat ≤ 57) then
              .ok (.num (fl.read (Num.numberFromText sp raw)) none, i + 1, false)
            else .ok (.nil, i + 1, false)
          | .arr => do
            let (l, j, err) ← dumpItems (dump fl sp other data cap toks fuel) t.size (i + 1) false []
            .ok (.seq l, j, err)
          | .obj => do
            let (es, j, err) ← dumpEntries (keyOf other) (dump fl sp other data cap toks fuel) t.size (i + 1) false []
            .ok (.map es, j, err)
          | .undef => .ok (.nil, i, true)

/-- `ctr_json_parse`, `plugins/jsmn/jsmn.c:323-357`: the answer and whether an error is pending afterwards (none is before).
`ctr_heap_allocate_cstring` (`memory.c:264-281`) leaves out zero bytes. An error of the second pass is a negative `int`, which
becomes a large number in the comparison with `size` (line 347) and goes unnoticed. -/
def parse {D : Type} (fl : Floats D) (sp : Seps) (other : V D → Out Text) (text : Text) : Out (V D × Bool) :=
  let js := text.filter (· ≠ 0)
  if js.length ≥ 2 ^ 31 then .ub
  else do
    let (s, good) ← tokenize none js (js.length + 1) start
    if good = false ∨ s.count = 0 then .ok (.nil, true)
    else do
      let size := s.count
      let (s', good) ← tokenize (some size) js (js.length + 1) start
      if (good ∧ s'.count < size) ∨ (s'.toks.getD 0 .fresh).kind ≠ .obj then .ok (.nil, true)
      else do
        let (v, _, err) ← dump fl sp other js size s'.toks (size + 1) 0 false
        .ok (v, err)

/-! ## From values to JSON -/

/-- The characters for escaping, `plugins/jsmn/jsmn.c:392`, `419`. -/
def escapes : Text := [34, 10, 8, 13, 9, 12, 92]

mutual
/-- `ctr_json_jsonify`, `plugins/jsmn/jsmn.c:365-485`, for the value of an entry (lines 400-474). Anything but Nil, Booleans,
numbers, texts and sequences is written as its own entries (line 472). All keys are texts (`collections.c:785-809`), so the
branches for other keys (lines 373-388) are not modelled. -/
def jsonValue {D : Type} (fl : Floats D) (sp : Seps) : V D → Out Text
  | .bool true => .ok [116, 114, 117, 101]
  | .bool false => .ok [102, 97, 108, 115, 101]
  | .nil => .ok [110, 117, 108, 108]
  | .num x unit => Num.numberToString sp (fl.print x) unit
  | .text t => do
    let e ← escape escapes t
    .ok (34 :: e ++ [34])
  | .seq l => do
    let b ← jsonItems fl sp true l
    .ok (91 :: b ++ [93])
  | .map es => do
    let b ← jsonEntries fl sp es
    .ok (123 :: b ++ [125])
/-- The items of a sequence, lines 431-466: in texts only quotes are escaped (the argument of line 454 is still in place);
anything but Nil, Booleans, numbers and texts is written as its own entries, a sequence has none. -/
def jsonItems {D : Type} (fl : Floats D) (sp : Seps) (first : Bool) : List (V D) → Out Text
  | [] => .ok []
  | v :: l => do
    let b ← (match v with
      | .bool true => Out.ok [116, 114, 117, 101]
      | .bool false => .ok [102, 97, 108, 115, 101]
      | .nil => .ok [110, 117, 108, 108]
      | .num x unit => Num.numberToString sp (fl.print x) unit
      | .text t => do
        let e ← escape [34] t
        .ok (34 :: e ++ [34])
      | .seq _ => .ok [123, 125]
      | .map es => do
        let b ← jsonEntries fl sp es
        .ok (123 :: b ++ [125]))
    let r ← jsonItems fl sp false l
    .ok ((if first then [] else [44]) ++ b ++ r)
/-- The entries of a list, lines 372-480, without the brackets. -/
def jsonEntries {D : Type} (fl : Floats D) (sp : Seps) : List (Text × V D) → Out Text
  | [] => .ok []
  | (k, v) :: es => do
    let e ← escape escapes k
    let b ← jsonValue fl sp v
    let r ← jsonEntries fl sp es
    .ok (34 :: e ++ [34, 58] ++ b ++ (if es.isEmpty then [] else [44, 32]) ++ r)
end

/-- `ctr_json_jsonify`, `plugins/jsmn/jsmn.c:365-485`, for a list. -/
def jsonify {D : Type} (fl : Floats D) (sp : Seps) (es : List (Text × V D)) : Out Text := do
  let b ← jsonEntries fl sp es
  .ok (123 :: b ++ [125])

end Verif.Model.Json
