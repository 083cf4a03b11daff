import Verif.Model.Translator

/-!
# Making a dictionary from the headers of two languages (`translator.c:206-268`)

Simplifications: opening the files and allocation succeed (`translator.c:207-216`); the text of the error message is left
out (`translator.c:232-235`).
-/

namespace Verif.Model.Gen
open Verif.Model Verif.Model.Trans

/-- Literal bytes in the format of `fscanf`: whether all of them were there, and what is left. Bytes that agree are taken
even if a later one does not. -/
def literal : Text → Text → Bool × Text
  | [], t => (true, t)
  | _ :: _, [] => (false, [])
  | l :: ls, c :: t => if c = l then literal ls t else (false, c :: t)

/-- `%180s`: white space is skipped, then at least one and at most 180 bytes that are no white space. -/
def word (t : Text) : Option (Text × Text) :=
  let f := ((ws t).take 180).takeWhile (fun c => !Txt.isspace c)
  if f = [] then none else some (f, (ws t).drop f.length)

/-- `%180[^"]`: at least one and at most 180 bytes, no quote. -/
def quoted (t : Text) : Option (Text × Text) :=
  let f := (t.take 180).takeWhile (· != 34)
  if f = [] then none else some (f, t.drop f.length)

/-- Storing a field and its NUL byte in a buffer of `CTR_TRANSLATE_MAX_WORD_LEN` bytes (`translator.c:212-216`). -/
def keep (f : Text) : Out Text := if f.length + 1 > maxWord then .ub else .ok f

/-- What a call of `fscanf` wrote into the buffers for the key, the word and the modifier (`none`: nothing, they keep
their contents), and what is left of the file. -/
structure Scan where
  key : Option Text
  text : Option Text
  note : Option Text
  rest : Text

/-- `#define` in the formats, `translator.c:223-226`. -/
def define : Text := [35, 100, 101, 102, 105, 110, 101]

/-- What follows the key and the text in the format at `translator.c:225`: ` //%180s\n`. -/
def scanNote (k t r : Text) : Out Scan :=
  match literal [47, 47] (ws r) with
  | (false, r) => .ok ⟨some k, some t, none, r⟩
  | (true, r) =>
    match word r with
    | none => .ok ⟨some k, some t, none, ws r⟩
    | some (n, r) => (keep n).bind fun n => .ok ⟨some k, some t, some n, ws r⟩

/-- What follows the key in the formats: ` "%180[^"]"`, then the end of the line (`translator.c:223` and `226`) or a
note (`translator.c:225`). -/
def scanText (notes : Bool) (k r : Text) : Out Scan :=
  match quote (ws r) with
  | none => .ok ⟨some k, none, none, ws r⟩
  | some r =>
    match quoted r with
    | none => .ok ⟨some k, none, none, r⟩
    | some (t, r) =>
      (keep t).bind fun t =>
        match quote r with
        | none => .ok ⟨some k, some t, none, r⟩
        | some r => if notes then scanNote k t r else .ok ⟨some k, some t, none, ws r⟩

/-- A call of `fscanf`, `translator.c:223`, `225` and `226`: with or without the note. A key was read if and only if the
answer of `fscanf` is greater than 0. -/
def scan (notes : Bool) (file : Text) : Out Scan :=
  match literal define file with
  | (false, r) => .ok ⟨none, none, none, r⟩
  | (true, r) =>
    match word r with
    | none => .ok ⟨none, none, none, ws r⟩
    | some (k, r) => (keep k).bind fun k => scanText notes k r

/-- The two calls for the second file, `translator.c:225-226`. -/
def scanSecond (file : Text) : Out Scan :=
  (scan true file).bind fun s => match s.key with
    | some _ => .ok s
    | none => scan false s.rest

/-- State of the loop: the rest of the two files, the contents of the buffers, the contents of the environment variable
`STRINGKEYS`, and what was printed. -/
structure St where
  one : Text
  two : Text
  key1 : Text
  word : Text
  key2 : Text
  tr : Text
  note : Text
  keys : Option Text
  out : Text

/-- `strstr(h, n) != NULL`. -/
def occurs (n : Text) : Text → Bool
  | [] => n.isPrefixOf []
  | c :: h => n.isPrefixOf (c :: h) || occurs n h

/-- `_CODEGEN_`, `translator.c:230`. -/
def codegen : Text := [95, 67, 79, 68, 69, 71, 69, 78, 95]

/-- `CTR_DICT_NUM_DEC_SEP`, `translator.c:237`. -/
def decKey : Text := [67, 84, 82, 95, 68, 73, 67, 84, 95, 78, 85, 77, 95, 68, 69, 67, 95, 83, 69, 80]

/-- `CTR_DICT_NUM_THO_SEP`, `translator.c:240`. -/
def thoKey : Text := [67, 84, 82, 95, 68, 73, 67, 84, 95, 78, 85, 77, 95, 84, 72, 79, 95, 83, 69, 80]

/-- `printf("t \"%s\" \"%s%s\"\n", …)`, `translator.c:238`, `241`, `244`, `246` and `252`. -/
def entry (ty : UInt8) (w m t : Text) : Text := [ty, 32, 34] ++ w ++ [34, 32, 34] ++ m ++ t ++ [34, 10]

/-- `strtok(keys, ",")` up to where `strtok(NULL, ",")` answers NULL: the parts between the commas. -/
def parts : Text → List Text
  | [] => []
  | c :: r =>
    if c = 44 then parts r
    else (c :: r).takeWhile (· != 44) :: parts (r.dropWhile (· != 44))
  termination_by t => t.length
  decreasing_by
    all_goals
      simp only [List.length_cons]
      try have := (List.dropWhile_sublist (· != 44) (l := r)).length_le
      omega

/-- What `strtok` leaves of the environment variable: it ends the first part with a NUL byte. Later calls overwrite
bytes behind it. -/
def leftOf (keys : Text) : Text :=
  keys.takeWhile (· == 44) ++ (keys.dropWhile (· == 44)).takeWhile (· != 44)

/-- Lines for words and texts, `translator.c:243-256`. -/
def printWord (s : St) : St :=
  let w := cstr s.word
  let t := cstr s.tr
  let out := s.out ++ entry 116 w (cstr s.note) t
  match s.keys with
  | none => { s with out := out }
  | some ks =>
    { s with
      out := if (parts ks).any (fun k => occurs k (cstr s.key1)) then out ++ entry 115 w [] t else out
      keys := some (leftOf ks) }

/-- Body of the loop, `translator.c:229-260`, with the buffers filled. -/
def body (s : St) : Out St :=
  let k1 := cstr s.key1
  let k2 := cstr s.key2
  if occurs codegen k1 || occurs codegen k2 then .ok s
  else if k1 ≠ k2 then .exit
  else
    let s :=
      if decKey.isPrefixOf k1 then { s with out := s.out ++ entry 100 (cstr s.word) [] (cstr s.tr) }
      else if thoKey.isPrefixOf k1 then { s with out := s.out ++ entry 120 (cstr s.word) [] (cstr s.tr) }
      else printWord s
    .ok { s with note := [] }

/-- One evaluation of the condition of the loop, `translator.c:222-228`: `none` if the loop ends. -/
def fetch (s : St) : Out (Option St) :=
  (scan false s.one).bind fun a => match a.key with
    | none => .ok none
    | some k1 =>
      (scanSecond s.two).bind fun b => match b.key with
        | none => .ok none
        | some k2 =>
          .ok (some { s with
            one := a.rest
            two := b.rest
            key1 := k1
            word := a.text.getD s.word
            key2 := k2
            tr := b.text.getD s.tr
            note := b.note.getD s.note })

/-- The loop, `translator.c:222-260`; every round takes at least one byte of the first file. -/
def loop : Nat → St → Out St
  | 0, _ => .ub
  | n + 1, s => (fetch s).bind fun
    | none => .ok s
    | some s => (body s).bind (loop n)

/-- `ctr_translate_generate_dicts`, `translator.c:206-268`: what is printed for the contents of two headers and the value
of `STRINGKEYS`. -/
def generate (keys : Option Text) (one two : Text) : Out Text :=
  (loop (one.length + 1) ⟨one, two, [], [], [], [], [], keys, []⟩).bind fun s => .ok s.out

end Verif.Model.Gen
