import Verif.Model.Lexer
import Verif.Model.Translator

/-!
# Translating whole programs (`translator.c:51-213`, `478-714`; `lexer.c:508-590`)

Pointers into the program are represented by the bytes that remain from there (`p`, `e`), or by their number; what is
printed is the answer.

Simplifications common to this file: the warnings about words without a translation go to the error output
(`util.c:166-172`) and are left out; `CTR_DICT_PARAMETER_PREFIX` is one byte and `CTR_DICT_PAREN_CLOSE` is `)` (both true
of all dictionaries); allocation succeeds; the counters of nested parentheses and blocks do not overflow; the dictionary
has been loaded (`Verif.Model.Trans.load`).
-/

namespace Verif.Model.TransProg
open Verif.Model Verif.Model.Trans
open Verif.Spec (Dict)
open Verif.Model.Lexer (isDigit digitAt scan skip readstr Tok)

/-! ## Notes -/

/-- `struct ctr_note`, `translator.c:33-38`: the place in the program it is attached to (number of bytes from there to
the end; `none` is `NULL`), its mark (`none` is -1), and the text attached to it. -/
structure Note where
  place : Option Nat
  mark : Option Nat
  text : Text
  deriving DecidableEq

/-- The notebook: the linked list from `firstNote` to `previousNote`. -/
abbrev Book := List Note

/-- `ctr_notebook_add(ctr_note_create(pointer), mark)`, `translator.c:54-79`. -/
def addNote (b : Book) (place mark : Nat) : Book := b ++ [⟨some place, some mark, []⟩]

/-- `ctr_notebook_remove`, `translator.c:88-97`: the marked notes are detached. -/
def removeMarked (b : Book) : Book := b.map fun n => if n.mark.isSome then ⟨none, none, n.text⟩ else n

/-- `ctr_notebook_clear_marks`, `translator.c:106-112`. -/
def clearMarks (b : Book) : Book := b.map fun n => { n with mark := none }

/-- `ctr_notebook_search`, `translator.c:137-145`. -/
def searchNote (b : Book) (place : Nat) : Option Note := b.find? (fun n => n.place = some place)

/-- `ctr_note_attach(ctr_note_grab(mark), buffer)`, `translator.c:121-127`, `155-167`: the text is copied over the one that
was there. -/
def attach : Book → Nat → Text → Out Book
  | [], _, _ => .exit
  | n :: b, k, t =>
    if n.mark = some k then .ok ({ n with mark := none, text := t ++ n.text.drop t.length } :: b)
    else (attach b k t).bind fun b => .ok (n :: b)

/-- `ctr_note_collect`, `translator.c:180-202`: each part of the remainder, up to and including the parameter sign of the
other language, is attached to the next mark. The remainder ends at the first NUL (`strlen`). -/
def collect (pc : UInt8) : Nat → Text → Text → Book → Out Book
  | _, _, [], b => .ok b
  | k, part, c :: r, b =>
    if c = 0 then .ok b
    else if c = pc then (attach b k (part ++ [c])).bind fun b => collect pc (k + 1) [] r b
    else collect pc k (part ++ [c]) r b

/-! ## Looking ahead -/

/-- State of `ctr_clex_forward_scan`. The flag `escape` is reset before it is looked at (`lexer.c:534`), so it has no
effect and is left out. -/
structure FS where
  nest : Nat
  blocks : Nat
  quote : Bool
  num : Bool

/-- `lexer.c:521-525`, `527-531`: a separator that keeps a number going; the byte looked at is the second one after the
separator. -/
def sepGoes (K code : Text) : Bool :=
  decide (K.length + 1 < code.length) && K.isPrefixOf code && digitAt (code.drop (K.length + 1))

/-- `lexer.c:519-533`: does the flag `number` survive at these bytes? -/
def stillNumber (d : Dict) (code : Text) : Bool :=
  digitAt code || sepGoes d.dec code || sepGoes d.tho code

/-- `ctr_clex_forward_scan`, `lexer.c:508-571`: the bytes from the place that was found. -/
def forward (d : Dict) : FS → Text → Option Text
  | _, [] => none
  | st, c :: r =>
    let num := st.num && stillNumber d (c :: r)
    if st.quote = false ∧ c = 40 then forward d { st with nest := st.nest + 1, num := num } r
    else if st.quote = false ∧ 0 < st.nest ∧ c = 41 then forward d { st with nest := st.nest - 1, num := num } r
    else if st.quote = false ∧ c = 123 then forward d { st with blocks := st.blocks + 1, num := num } r
    else if st.quote = false ∧ 0 < st.blocks ∧ c = 125 then forward d { st with blocks := st.blocks - 1, num := num } r
    else if st.quote = false ∧ d.qo.isPrefixOf (c :: r) = true then forward d { st with quote := true, num := num } r
    else if st.quote = true ∧ d.qc.isPrefixOf (c :: r) = true then forward d { st with quote := false, num := num } r
    else if st.quote = true ∧ c = 92 then forward d { st with num := num } r
    else if num = false ∧ isDigit c = true then forward d { st with num := true } r
    else if st.nest = 0 ∧ st.quote = false ∧ st.blocks = 0 ∧ num = false ∧
        (d.chain.isPrefixOf (c :: r) = true ∨ d.eol.isPrefixOf (c :: r) = true ∨ c = 41 ∨ c = d.param) then some (c :: r)
    else forward d { st with num := num } r

/-- `ctr_clex_backward_scan`, `lexer.c:573-590`, on the bytes from the given place backwards: the distance to the nearest
of five bytes, if it is less than the limit of `CTR_TRANSLATE_MAX_WORD_LEN` (`translator.c:536`). -/
def backward : Nat → Text → Option Nat
  | _, [] => none
  | q, c :: r =>
    if maxWord ≤ q then none
    else if c = 10 ∨ c = 9 ∨ c = 32 ∨ c = 41 ∨ c = 125 then some q
    else backward (q + 1) r

/-- What `ctr_translate_ref` finds out about a message: the notes, their number, the name of the message. -/
structure Msg where
  book : Book
  count : Nat
  name : Text

/-- The loop of `translator.c:525-547`, from the place `code` in the program `prg`. The number bounds the rounds: each one
takes at least one byte. -/
def gather (d : Dict) (prg : Text) : Nat → Text → Msg → Out Msg
  | 0, _, m => .ok m
  | n + 1, code, m =>
    match forward d ⟨0, 0, false, false⟩ code with
    | none => .ok m
    | some s =>
      if (d.eol.length < s.length ∧ d.eol.isPrefixOf s = true) ∨ (d.chain.length < s.length ∧ d.chain.isPrefixOf s = true) ∨
          s.head? = some 41 then .ok m
      else if s.head? = some d.param then
        match backward 0 (prg.take (prg.length - s.length + 1)).reverse with
        | none => .exit
        | some q =>
          if m.name.length + q > maxWord then .exit
          else gather d prg n (s.drop 1) ⟨addNote m.book s.length m.count, m.count + 1,
            m.name ++ (prg.drop (prg.length - s.length + 1 - q)).take q⟩
      else gather d prg n (s.drop 1) m

/-! ## The tokens -/

/-- `fwrite(p, q - p, 1, stdout)` where `q` has `n` remaining bytes; a negative length is an enormous one. -/
def upTo (p : Text) (n : Nat) : Out Text := if p.length < n then .ub else .ok (p.take (p.length - n))

/-- A symbol of the language, which is given as a C string, `translator.c:478-615`: printed in translation if it has one. -/
def symbol (d : Dict) (L : Loaded) (w : Text) : Out Text :=
  (translate d.param L.pc L.dict 116 w (w.length + 1) false).bind fun r => .ok r.out

/-- `ctr_translate_string`, `translator.c:478-497`. `e` is the code pointer after the opening quote. Answers what is printed
and the new code pointer. -/
def string (d : Dict) (L : Loaded) (p e : Text) : Out (Text × Text) :=
  (upTo p (e.length + d.qo.length)).bind fun lead =>
  (readstr d true e).bind fun (s, e) =>
  (symbol d L d.qo).bind fun o =>
  (if s.length > 100 then .ok s
    else (translate d.param L.pc L.dict 115 s (s.length + 1) false).bind fun r => .ok (if r.found then r.out else s)).bind
    fun t =>
  (symbol d L d.qc).bind fun c => .ok (lead ++ o ++ t ++ c, e)

/-- The end of `ctr_translate_ref`, `translator.c:550-565`: `raw` is the word as it stands in the program, `name` what is
looked up, `count` the number of notes made. Answers what is printed, whether the parameter sign is skipped, and the
notes. -/
def say (d : Dict) (L : Loaded) (raw : Text) (place : Nat) (key : Bool) (name : Text) (room count : Nat) (book : Book) :
    Out (Text × Bool × Book) :=
  match searchNote book place with
  | some n => .ok (n.text, key, book)
  | none =>
    (translate d.param L.pc L.dict 116 name room true).bind fun r =>
    if r.found then
      if count > 0 then (collect L.pc 0 [] r.rem book).bind fun book => .ok (r.out, key, book) else .ok (r.out, key, book)
    else .ok (raw, false, removeMarked book)

/-- `ctr_translate_ref`, `translator.c:502-566`. `e` is the code pointer after the word, `v` the value of the token.
Answers what is printed, whether the parameter sign is skipped, and the notes. -/
def ref (d : Dict) (L : Loaded) (prg p e v : Text) (book : Book) : Out (Text × Bool × Book) :=
  (upTo p (e.length + v.length)).bind fun lead =>
  let raw := (p.drop lead.length).take v.length
  (if e.head? = some d.param then
    if v.length + 1 > maxWord then .exit
    else
      (gather d prg e.length (e.drop 1) ⟨clearMarks book, 0, raw ++ [d.param]⟩).bind fun m =>
      say d L raw e.length true m.name maxWord m.count m.book
  else say d L raw e.length false v Lexer.bflmt 0 book).bind fun (o, sk, book) =>
  .ok (lead ++ o, sk, book)

/-- The loop of `ctr_translate_program`, `translator.c:674-712`: `p` is what remains to be printed, `code` what remains to
be read. The number bounds the rounds: each one reads at least one byte, or is the last. -/
def loop (d : Dict) (L : Loaded) (prg : Text) : Nat → Text → Text → Book → Out Text
  | 0, _, _, _ => .ub
  | n + 1, p, code, book =>
    (scan d (skip false code)).bind fun (t, v, e) =>
    let go (out p e : Text) (book : Book) : Out Text := (loop d L prg n p e book).bind fun o => .ok (out ++ o)
    match t with
    | .fin => upTo p e.length
    | .ret => (symbol d L d.ret).bind fun o => go (32 :: o) e e book
    | .quote => (string d L p e).bind fun (o, e) => go o e e book
    | .ref => (ref d L prg p e v book).bind fun (o, sk, book) => go o (if sk then e.drop 1 else e) e book
    | .dot => (symbol d L d.eol).bind fun o => go o e e book
    | .assign => (symbol d L d.assign).bind fun o => go (32 :: o) e e book
    | .chain => (symbol d L d.chain).bind fun o => go o e e book
    | .colon =>
      if prg.length ≤ p.length then .ub
      else if prg[prg.length - p.length - 1]? ≠ some d.param then
        (symbol d L [d.param]).bind fun o => go (32 :: o) e e book
      else go [] p e book
    | .number => go (number L.dec L.tho 0 (p.take (p.length - e.length))) e e book
    | .parOpen | .parClose | .blockOpen | .blockClose => (upTo p e.length).bind fun o => go o e e book

/-- `ctr_translate_program`, `translator.c:665-714`, with the dictionary loaded: what is printed. -/
def program (d : Dict) (L : Loaded) (prg : Text) : Out Text := loop d L prg (prg.length + 1) prg prg []

end Verif.Model.TransProg
