import Verif.Basic
import Verif.Model.Text

/-!
# Translating programs (`translator.c`): the dictionary and its use

Simplifications common to this file: the texts of messages to the user are left out (ending the program with an error
is the outcome `exit`, a mere warning is nothing); opening the file and allocation succeed.
-/

namespace Verif.Model.Trans
open Verif.Model

/-- `CTR_TRANSLATE_MAX_WORD_LEN`, `translator.c:3`. -/
def maxWord : Nat := 180

/-- Size of the buffers for reading a line, `translator.c:289-290`. -/
def lineBuf : Nat := 5000

/-- `struct ctr_dict`, `translator.c:13-20`. The list is represented by a list of entries. -/
structure Entry where
  type : UInt8
  word : Text
  tr : Text
  deriving DecidableEq

/-- State of `ctr_translate_load_dictionary`: the list `previousEntry`, the list that would be answered (`entry`), the two
separators, the translation of the parameter sign, the contents of the two buffers, and how far the pointer
`translation` has been moved into its buffer (`translator.c:324`). -/
structure LS where
  ents : List Entry
  ret : List Entry
  dec : Option Entry
  tho : Option Entry
  pc : UInt8
  word : Text
  tr : Text
  shift : Nat

/-- `strlen`: the text up to the first NUL byte. -/
def cstr (t : Text) : Text := t.takeWhile (· != 0)

/-- White space directives of `fscanf`. -/
def ws (t : Text) : Text := t.dropWhile Txt.isspace

/-- A literal quote in the format of `fscanf`. -/
def quote (t : Text) : Option Text :=
  match t with
  | c :: r => if c = 34 then some r else none
  | [] => none

/-- `%4999[^"]`: at least one byte, at most 4999, no quote. -/
def field (t : Text) : Option (Text × Text) :=
  let f := (t.take 4999).takeWhile (· != 34)
  if f = [] then none else some (f, t.drop f.length)

/-- One call of `fscanf`, `translator.c:300`: the type, and the new contents of the two buffers (`none`: as they
were), and the rest of the file. A format that does not match leaves the remaining buffers as they were; the number of
conversions is at least one. -/
def line (c : UInt8) (r : Text) : UInt8 × Option Text × Option Text × Text :=
  match quote (ws r) with
  | none => (c, none, none, ws r)
  | some r =>
    match field r with
    | none => (c, none, none, r)
    | some (w, r) =>
      match quote r with
      | none => (c, some w, none, r)
      | some r =>
        match quote (ws r) with
        | none => (c, some w, none, ws r)
        | some r =>
          match field r with
          | none => (c, some w, none, r)
          | some (t, r) =>
            match quote r with
            | none => (c, some w, some t, r)
            | some r => (c, some w, some t, ws r)

/-- What stands behind the first `#`, and how many bytes come before. -/
def modifier (t : Text) : Option (Text × Nat) :=
  match t.dropWhile (· != 35) with
  | [] => none
  | _ :: r => some (r, (t.takeWhile (· != 35)).length + 1)

/-- An entry of type `t` or `s`, `translator.c:341-369`. The first byte of the word is looked at even if there is none
(`translator.c:341`), the one of the translation if the word starts with the parameter sign. -/
def add (prefix' : UInt8) (e : Entry) (modified : Bool) (s : LS) : Out LS :=
  match e.word with
  | [] => .ub
  | c :: _ =>
    if c = prefix' ∧ e.tr = [] then .ub
    else if s.ents.any (fun o => o.type = e.type && (o.word = e.word || (o.tr = e.tr && !modified))) then .exit
    else .ok { s with ents := e :: s.ents, ret := e :: s.ents, pc := if c = prefix' then e.tr.headD 0 else s.pc }

/-- Body of the loop of `ctr_translate_load_dictionary`, `translator.c:301-370`. -/
def enter (prefix' : UInt8) (ty : UInt8) (s : LS) : Out LS :=
  if ty ≠ 116 ∧ ty ≠ 115 ∧ ty ≠ 100 ∧ ty ≠ 120 then .exit
  else
    let w := cstr s.word
    if 35 ∈ w then .exit
    else
      let (t, n, m) := match modifier (cstr s.tr) with
        | some (t, n) => (t, n, true)
        | none => (cstr s.tr, 0, false)
      let s := { s with tr := t, shift := s.shift + n }
      if ty ≠ 115 ∧ (w.length > maxWord ∨ t.length > maxWord) then .exit
      else
        let e : Entry := ⟨ty, w, t⟩
        if ty = 100 then .ok { s with dec := some e, ret := [e] }
        else if ty = 120 then .ok { s with tho := some e, ret := [e] }
        else add prefix' e m s

/-- Storing what `fscanf` read; the pointer for the translation may point into the middle of its buffer. -/
def store (w t : Option Text) (s : LS) : Out LS :=
  match t with
  | none => .ok { s with word := w.getD s.word }
  | some t => if s.shift + t.length + 1 > lineBuf then .ub else .ok { s with word := w.getD s.word, tr := t }

/-- The loop of `ctr_translate_load_dictionary`, `translator.c:300-371`; every round takes at least one byte, the number
of rounds is bounded by the length of the file. -/
def loadLoop (prefix' : UInt8) : Nat → Text → LS → Out LS
  | 0, _, s => .ok s
  | _ + 1, [], s => .ok s
  | n + 1, c :: r, s =>
    match line c r with
    | (ty, w, t, rest) => (store w t s).bind fun s => (enter prefix' ty s).bind fun s => loadLoop prefix' n rest s

/-- A loaded dictionary: the list answered, the two separators, and the translation of the parameter sign. -/
structure Loaded where
  dict : List Entry
  dec : Entry
  tho : Entry
  pc : UInt8

/-- `ctr_translate_load_dictionary`, `translator.c:283-383`, applied to the contents of the file. `prefix'` is the first
byte of `CTR_DICT_PARAMETER_PREFIX`. The answer is the entry that was read last. -/
def load (prefix' : UInt8) (file : Text) : Out Loaded :=
  (loadLoop prefix' file.length file ⟨[], [], none, none, 0, [], [], 0⟩).bind fun s =>
    match s.dec, s.tho with
    | some d, some x => .ok ⟨s.ret, d, x, s.pc⟩
    | _, _ => .exit

/-- What `ctr_translate_translate` does: the bytes printed, the bytes left for the parts that follow, and its answer. -/
structure Tr where
  out : Text
  rem : Text
  found : Bool
  deriving DecidableEq

/-- Number of parameter signs after the first byte, `translator.c:427-433`. -/
def signs (p : UInt8) (t : Text) : Nat := (t.drop 1).count p

/-- The loop of `translator.c:437-446`: the bytes up to the first parameter sign that is not the first byte, and what
follows it. -/
def cut (p : UInt8) (t : Text) : Text × Text :=
  let n := 1 + ((t.drop 1).takeWhile (· != p)).length + 1
  (t.take n, t.drop n)

/-- `ctr_translate_translate`, `translator.c:415-474`. `room` is the size of the buffer that holds the word, `into` tells
whether there is a buffer for the remainder. The copy of line 459 takes one byte more than the word has. -/
def translate (src pc : UInt8) (dict : List Entry) (ctx : UInt8) (v : Text) (room : Nat) (into : Bool) : Out Tr :=
  match dict.find? (fun e => v.length = e.word.length ∧ ctx = e.type ∧ e.word = v) with
  | some e =>
    if ctx = 116 then
      if signs src e.word ≠ signs pc e.tr then .exit
      else
        let (a, b) := cut pc e.tr
        if b = [] then .ok ⟨a, [], true⟩
        else if b.length + 1 > maxWord then .exit
        else if into then .ok ⟨a, b, true⟩ else .ub
    else .ok ⟨e.tr, [], true⟩
  | none =>
    if ctx = 116 ∧ src ∈ v then
      let a := v.takeWhile (· != src)
      if into ∧ v.length + 1 ≤ room then .ok ⟨a ++ [src], v.drop (a.length + 1), true⟩ else .ub
    else .ok ⟨[], [], false⟩

/-- `ctr_translate_number`, `translator.c:622-646`: `skip` counts the bytes of a separator that are still to be passed
over. -/
def number (dec tho : Entry) : Nat → Text → Text
  | _, [] => []
  | skip + 1, _ :: r => number dec tho skip r
  | 0, c :: r =>
    if dec.word.isPrefixOf (c :: r) then dec.tr ++ number dec tho (dec.word.length - 1) r
    else if tho.word.isPrefixOf (c :: r) then tho.tr ++ number dec tho (tho.word.length - 1) r
    else c :: number dec tho 0 r

end Verif.Model.Trans
