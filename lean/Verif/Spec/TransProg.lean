import Verif.Spec.Parser
import Verif.Spec.Translator

/-!
# What translating a program means

A translation of the words of a language gives a translation of syntax trees; a program that is laid out in a regular
way has an expected translation, byte by byte. Nothing here refers to the model of the translator, the lexer or the
parser.
-/

namespace Verif.Spec.Retell
open Verif.Spec (Dict Node DLine)
open Verif.Spec.Lexer Verif.Spec.Parser

/-! ## Translating trees -/

/-- A translation: of words, of the parts of a message, of texts. -/
structure Say where
  word : List UInt8 → List UInt8
  msg : List (List UInt8) → List (List UInt8)
  text : List UInt8 → List UInt8

mutual
/-- The tree in the other language: the same tree with other words. -/
def trNode (W : Say) : Node → Node
  | .ref m n => .ref m (W.word n)
  | .num v => .num v
  | .str v => .str (W.text v)
  | .block ps b => .block (ps.map W.word) (trNodes W b)
  | .nested e => .nested (trNode W e)
  | .assign r e => .assign (trNode W r) (trNode W e)
  | .msg r ms => .msg (trNode W r) (trNodes W ms)
  | .ret e => .ret (trNode W e)
  | .una n => .una (W.word n)
  | .bin o a => .bin (W.word o) (trNode W a)
  | .kw ps as => .kw (W.msg ps) (trNodes W as)
/-- The trees in the other language. -/
def trNodes (W : Say) : List Node → List Node
  | [] => []
  | e :: es => trNode W e :: trNodes W es
end

/-! ## The translation given by the lines of a dictionary -/

/-- The name of a message: its parts, each followed by the parameter sign. -/
def joined (p : UInt8) (ps : List (List UInt8)) : List UInt8 := ps.flatMap (· ++ [p])

/-- The parts of the name of a message. -/
def parts (p : UInt8) (t : List UInt8) : List (List UInt8) := t.splitOn p |>.dropLast

/-- The translation of a word or text according to the lines of the dictionary. -/
def inDict (ty : UInt8) (ls : List DLine) (w : List UInt8) : Option (List UInt8) :=
  (ls.find? (fun l => l.ty = ty && l.word = w)).map (·.tr)

/-- The translation given by a dictionary: words, messages and texts it does not have stay as they are; texts of more
than 100 bytes are not translated (the translator says so). -/
def sayOf (p q : UInt8) (ls : List DLine) : Say where
  word w := (inDict 116 ls w).getD w
  msg ps := ((inDict 116 ls (joined p ps)).map (parts q)).getD ps
  text t := if t.length > 100 then t else (inDict 115 ls t).getD t

/-! ## Programs, piece by piece -/

mutual
/-- The messages with parameters in a tree, each with its parts. -/
def names : Node → List (List (List UInt8))
  | .block _ b => namesOf b
  | .nested e => names e
  | .assign r e => names r ++ names e
  | .msg r ms => names r ++ namesOf ms
  | .ret e => names e
  | .bin _ a => names a
  | .kw ps as => ps :: namesOf as
  | _ => []
/-- The messages with parameters in some trees. -/
def namesOf : List Node → List (List (List UInt8))
  | [] => []
  | e :: es => names e ++ namesOf es
end

/-- The pieces of a program. A number knows whether it stands (outside parentheses) in an argument of a message with
parameters; `key` is a part of such a message, with its translation, and knows whether it is the first one; `sign` is the
parameter sign after such a part, `param` the one in front of a parameter of a block. -/
inductive Cell where
  | word (w : List UInt8)
  | num (arg : Bool) (v : List UInt8)
  | lit (t : List UInt8)
  | popen | pclose | bopen | bclose | eol | chain | assign | ret
  | key (first : Bool) (w w' : List UInt8)
  | sign
  | param
  deriving DecidableEq

mutual
/-- The pieces of a tree. -/
def cells (d : Dict) (W : Say) (k : Bool) : Node → List Cell
  | .ref m n => (if m = 0 then [] else if m = 1 then [.word d.my] else [.word d.var]) ++ [.word n]
  | .num v => [.num k v]
  | .str v => [.lit v]
  | .block ps b => .bopen :: ps.flatMap (fun p => [.param, .word p]) ++ cellStmts d W b ++ [.bclose]
  | .nested e => .popen :: cells d W false e ++ [.pclose]
  | .assign r e => cells d W k r ++ .assign :: cells d W k e
  | .msg r ms => cells d W k r ++ cellMsgs d W k false ms
  | .ret e => .ret :: cells d W k e
  | .una n => [.word n]
  | .bin o a => .word o :: cells d W k a
  | .kw ps as => cellArgs d W true ps (W.msg ps) as
/-- The pieces of statements. -/
def cellStmts (d : Dict) (W : Say) : List Node → List Cell
  | [] => []
  | e :: es => cells d W false e ++ .eol :: cellStmts d W es
/-- The pieces of messages. -/
def cellMsgs (d : Dict) (W : Say) (k kw : Bool) : List Node → List Cell
  | [] => []
  | m :: ms => (if kw then [.chain] else []) ++ cells d W k m ++ cellMsgs d W k (isKw m) ms
/-- The pieces of the parts of a message. -/
def cellArgs (d : Dict) (W : Say) (first : Bool) : List (List UInt8) → List (List UInt8) → List Node → List Cell
  | w :: ws, w' :: ws', a :: as => .key first w w' :: .sign :: cells d W true a ++ cellArgs d W false ws ws' as
  | _, _, _ => []
end

/-- The lexeme of a piece. -/
def Cell.lexeme : Cell → Lexeme
  | .word w => .word w
  | .num _ v => .num v
  | .lit t => .lit t
  | .popen => .popen
  | .pclose => .pclose
  | .bopen => .bopen
  | .bclose => .bclose
  | .eol => .eol
  | .chain => .chain
  | .assign => .assign
  | .ret => .ret
  | .key _ w _ => .word w
  | .sign => .colon
  | .param => .colon

/-- The lexeme of a piece in the other language. -/
def Cell.lexeme' (W : Say) : Cell → Lexeme
  | .word w => .word (W.word w)
  | .lit t => .lit (W.text t)
  | .key _ _ w' => .word w'
  | c => c.lexeme

/-- A piece as it stands in the program: the blanks in front of it, the bytes, and the bytes in the other language. -/
structure Piece where
  gap : List UInt8
  cell : Cell
  bytes : List UInt8
  new : List UInt8

/-- The program text, followed by `rest`. -/
def source : List Piece → List UInt8 → List UInt8
  | [], rest => rest
  | p :: ps, rest => p.gap ++ p.bytes ++ source ps rest

/-- The blanks in front of a piece in the translation: they are kept in front of words, numbers, texts, parentheses and
blocks, and standardised in front of symbols. -/
def Piece.gap' (p : Piece) : List UInt8 :=
  match p.cell with
  | .eol | .chain | .sign => []
  | .assign | .ret | .param => [32]
  | _ => p.gap

/-- The text of the translation, followed by `rest`. -/
def target : List Piece → List UInt8 → List UInt8
  | [], rest => rest
  | p :: ps, rest => p.gap' ++ p.new ++ target ps rest

/-- The bytes of a piece in the other language. -/
def New (d' : Dict) (W : Say) (d : Dict) : Cell → (b new : List UInt8) → Prop
  | .word w, _, new => new = W.word w
  | .num .., b, new => ∃ (sign : List UInt8) (gs : List (List UInt8)) (f : List UInt8),
      (sign = [] ∨ sign = [45]) ∧ (∀ g ∈ gs, ∀ c ∈ g, digit c = true) ∧ (∀ c ∈ f, digit c = true) ∧
      b = sign ++ d.tho.intercalate gs ++ fraction d.dec f ∧ new = sign ++ d'.tho.intercalate gs ++ fraction d'.dec f
  | .lit t, _, new => new = d'.qo ++ W.text t ++ d'.qc
  | .popen, _, new => new = [40]
  | .pclose, _, new => new = [41]
  | .bopen, _, new => new = [123]
  | .bclose, _, new => new = [125]
  | .eol, _, new => new = d'.eol
  | .chain, _, new => new = d'.chain
  | .assign, _, new => new = d'.assign
  | .ret, _, new => new = d'.ret
  | .key _ _ w', _, new => new = w'
  | .sign, _, new => new = [d'.param]
  | .param, _, new => new = [d'.param]

/-! ## Regular layout -/

/-- None of the parentheses and braces. -/
def flat (c : UInt8) : Bool := c ∉ ([40, 41, 123, 125] : List UInt8)

/-- No symbol a message could end at, no parenthesis or brace and no quote stands in `b`, which is followed by `rest`. -/
def Quiet (d : Dict) (b rest : List UInt8) : Prop :=
  ∀ i < b.length, (∀ c ∈ (b.drop i).take 1, flat c = true ∧ c ≠ d.param) ∧
    startsNone [d.eol, d.chain, d.qo] (b.drop i ++ rest) = true

/-- A number cannot be thought to go on at these bytes: not a digit, nor a separator with a digit at the second place after
it. -/
def Calm (d : Dict) (rest : List UInt8) : Prop :=
  startsDigit rest = false ∧ ∀ K ∈ [d.dec, d.tho], K <+: rest → startsDigit (rest.drop (K.length + 1)) = false

/-- Regular layout of a piece `g`, `b` (gap and bytes), followed by `rest`. -/
def Regular (d : Dict) : Cell → (g b rest : List UInt8) → Prop
  | .word w, _, _, rest => (∀ c ∈ w, flat c = true) ∧ Calm d rest ∧ rest.head? ≠ some d.param
  | .num arg _, _, b, rest => (∀ c ∈ b, flat c = true) ∧ Calm d rest ∧ (∀ i < b.length, startsNone [d.qo] (b.drop i ++ rest) = true) ∧
      (arg = true → Quiet d b rest)
  | .lit t, _, _, rest => Calm d rest ∧ Quiet d (d.qc.drop 1) rest ∧ (∀ c ∈ t, c ≠ 92) ∧
      (∀ i < t.length, startsNone [d.qo, d.qc] (t.drop i ++ d.qc ++ rest) = true) ∧
      (∀ i < d.qo.length, 0 < i → startsNone [d.qc] (d.qo.drop i ++ t ++ d.qc ++ rest) = true)
  | .key first w _, g, _, rest => (∀ c ∈ w, flat c = true) ∧ Calm d rest ∧
      (first = false → ∃ c ∈ g.getLast?, c = 10 ∨ c = 9 ∨ c = 32)
  | .eol, _, _, rest => rest ≠ []
  | .chain, _, _, rest => rest ≠ []
  | .sign, g, _, _ => g = []
  | _, _, _, _ => True

/-- The pieces are laid out regularly in the program, and their translations are right. -/
def Laid (d d' : Dict) (W : Say) : List Piece → List UInt8 → Prop
  | [], _ => True
  | p :: ps, rest =>
    (∀ c ∈ p.gap, blank c = true) ∧ Written d p.cell.lexeme p.bytes (source ps rest) ∧
    Regular d p.cell p.gap p.bytes (source ps rest) ∧ New d' W d p.cell p.bytes p.new ∧ Laid d d' W ps rest

/-- The symbols of the dictionary are such that looking ahead past them works: they contain no digits, parentheses and
braces, and no quote. -/
def CalmDict (d : Dict) : Prop :=
  ∀ K ∈ [d.eol, d.chain, d.assign, d.ret, [58, 61]], (∀ c ∈ K, flat c = true ∧ digit c = false) ∧
    ∀ i < K.length, apart d.qo (K.drop i) = true

instance (d : Dict) : Decidable (CalmDict d) := by unfold CalmDict; infer_instance

/-- Separators that can be told from each other, and from what numbers and the blanks in front of them are made of. -/
def GoodSeps (d : Dict) : Prop :=
  d.dec ≠ [] ∧ d.tho ≠ [] ∧ apart d.dec d.tho = true ∧
    ∀ c ∈ d.dec.take 1 ++ d.tho.take 1, blank c = false ∧ digit c = false ∧ c ≠ 45

instance (d : Dict) : Decidable (GoodSeps d) := by unfold GoodSeps; infer_instance

/-- The pieces of the translation can be recognised where they stand, in the other language. -/
def Relaid (d' : Dict) (W : Say) : List Piece → List UInt8 → Prop
  | [], _ => True
  | p :: ps, rest => Written d' (p.cell.lexeme' W) p.new (target ps rest) ∧ Relaid d' W ps rest

/-! ## Suitable dictionaries -/

/-- The symbols of the first language, with those of the second one. -/
def symbols (d d' : Dict) : List (List UInt8 × List UInt8) :=
  [(d.eol, d'.eol), (d.chain, d'.chain), (d.assign, d'.assign), (d.ret, d'.ret), (d.qo, d'.qo), (d.qc, d'.qc),
    ([d.param], [d'.param])]

/-- The dictionary is written in the documented form, ends with the translation of a word, and translates the symbols and
the separators. Words and translations have equally many parameter signs, and the last line that starts with the parameter
sign translates it to the parameter sign. -/
structure Covers (d d' : Dict) (ls : List DLine) : Prop where
  plain : ∀ l ∈ ls, l.Plain
  notes : NotesFit ls
  last : EndsWithWord ls
  sign : ∃ l, (ls.filter (fun l => l.isWord && l.word.head? = some d.param)).getLast? = some l ∧ l.tr.head? = some d'.param
  balanced : ∀ l ∈ ls, l.ty = 116 → Balanced d.param d'.param l
  symbols : ∀ K ∈ symbols d d', (∃ l ∈ ls, l.ty = 116 ∧ l.word = K.1 ∧ l.tr = K.2) ∧ d'.param ∉ K.2.drop 1
  dec : ∃ l, lastOf 100 ls = some l ∧ l.word = d.dec ∧ l.tr = d'.dec
  tho : ∃ l, lastOf 120 ls = some l ∧ l.word = d.tho ∧ l.tr = d'.tho

/-- A message that is not too long for the translator, and that the dictionary translates by a message with equally many
parts; or that the dictionary does not have, if both languages have the same parameter sign. -/
def Matched (p q : UInt8) (ls : List DLine) (ps : List (List UInt8)) : Prop :=
  (joined p ps).length < 180 ∧
  ((∃ ws', inDict 116 ls (joined p ps) = some (joined q ws') ∧ ws'.length = ps.length ∧ ∀ w ∈ ws', w ≠ [] ∧ q ∉ w) ∨
    (inDict 116 ls (joined p ps) = none ∧ p = q ∧ ∀ w ∈ ps, p ∉ w ∧ 0 ∉ w))

end Verif.Spec.Retell
