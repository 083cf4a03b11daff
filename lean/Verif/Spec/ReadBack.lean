import Verif.Spec.Parser
import Verif.Spec.Nest

/-!
# Values and their text: specification

Values made of Nil, Booleans, whole numbers, texts, sequences and lists; the words a language uses for them; what it takes
for these words to be read as words again. Nothing here refers to the lexer, the parser or the interpreter.
-/

namespace Verif.Spec.ReadBack
open Verif.Spec (Dict encode)
open Verif.Spec.Lexer (blank digit startsNone quoteAt Survives)

/-- A value. A list has its entries in the order in which they are shown. -/
inductive V where
  | nil
  | bool (b : Bool)
  | num (n : Int)
  | text (t : List UInt8)
  | seq (items : List V)
  | map (entries : List (List UInt8 × V))

mutual
/-- The same value with the entries of all lists in the opposite order. -/
def mirror : V → V
  | .nil => .nil
  | .bool b => .bool b
  | .num n => .num n
  | .text t => .text t
  | .seq l => .seq (mirrorAll l)
  | .map es => .map (mirrorPairs es)
/-- The items of a sequence keep their order. -/
def mirrorAll : List V → List V
  | [] => []
  | v :: l => mirror v :: mirrorAll l
/-- The entries of a list are reversed. -/
def mirrorPairs : List (List UInt8 × V) → List (List UInt8 × V)
  | [] => []
  | (k, v) :: es => mirrorPairs es ++ [(k, mirror v)]
end

/-- Digits of a natural number. -/
def digits (n : Nat) : List UInt8 :=
  if n < 10 then [UInt8.ofNat (48 + n)] else digits (n / 10) ++ [UInt8.ofNat (48 + n % 10)]
decreasing_by omega

/-- Sign and digits of a whole number. -/
def decimal (n : Int) : List UInt8 := (if n < 0 then [45] else []) ++ digits n.natAbs

/-- The words for values in a language; `gap1` and `gap2` are the blanks after an empty sequence and an empty list. -/
structure Names where
  seq : List UInt8
  new : List UInt8
  arrow : List UInt8
  list : List UInt8
  put : List UInt8
  «at» : List UInt8
  none : List UInt8
  true : List UInt8
  false : List UInt8
  gap1 : List UInt8
  gap2 : List UInt8

/-- The sign that adds an item to a sequence, `;`. -/
def semicolon : List UInt8 := [59]

/-- The words as they are put together in the texts of sequences and lists. -/
def wordsOf (d : Dict) (W : Names) : Nest.Words where
  seqNew := W.seq ++ 32 :: W.new ++ W.gap1
  seqPush := W.seq ++ 32 :: W.arrow ++ [32]
  mapNew := 40 :: W.list ++ 32 :: W.new ++ 41 :: W.gap2
  mapPut := W.put ++ [d.param]
  mapAt := 32 :: W.at ++ [d.param]
  opening := [40]
  closing := [41]

/-- The word is a word on its own: valid UTF-8, at most 255 bytes, without blanks, NUL and the bytes with a meaning of their
own; and no symbol of the language begins in it. -/
def Solid (d : Dict) (w : List UInt8) : Prop :=
  w ≠ [] ∧ w.length ≤ 255 ∧ (∃ cs : List Char, w = encode cs) ∧
  (∀ c ∈ w, c ∉ [0, 35, 40, 41, d.param] ∧ blank c = false) ∧
  (∀ c ∈ w.take 1, c ∉ ([45, 123, 125] : List UInt8) ∧ digit c = false) ∧
  (∀ i < w.length, ∀ K ∈ [d.eol, d.qo, d.assign, d.chain, [58, 61]],
    K.isPrefixOf (w.drop i) = false ∧ (w.drop i).isPrefixOf K = false) ∧
  (d.ret ++ [32]).isPrefixOf w = false ∧ w.isPrefixOf (d.ret ++ [32]) = false

/-- The first bytes of values. -/
def starts (d : Dict) (W : Names) : List UInt8 :=
  [40, 45, 48, 49, 50, 51, 52, 53, 54, 55, 56, 57] ++ d.qo.take 1 ++ W.none.take 1 ++ W.true.take 1 ++ W.false.take 1

/-- The symbols of the language do not get in the way of values: the chain symbol is the comma that is written between
entries, no symbol starts like a number, a parameter sign followed by a value is not taken for a symbol, the separators in
numbers are single bytes. -/
def Clear (d : Dict) (W : Names) : Prop :=
  d.chain = [44] ∧
  (∀ K ∈ [d.eol, d.chain, d.assign, [58, 61], d.ret, d.qo], ∀ c ∈ K.take 1, c ≠ 45 ∧ digit c = false) ∧
  (∀ K ∈ [d.eol, d.chain, d.assign, [58, 61]], ∀ c ∈ starts d W,
    K.isPrefixOf [d.param, c] = false ∧ [d.param, c].isPrefixOf K = false) ∧
  (d.tho.length = 1 ∧ d.dec.length = 1 ∧ d.tho ≠ d.dec ∧
    ∀ c ∈ d.tho ++ d.dec, c ≠ 0 ∧ c ≠ 45 ∧ digit c = false ∧ c ∉ ([32, 41] : List UInt8)) ∧
  d.param ≠ 0

instance (d : Dict) (W : Names) : Decidable (Clear d W) := by unfold Clear; infer_instance

/-- Is the word one character? -/
def oneChar (w : List UInt8) : Bool := Parser.charCount w == 1

/-- The language can write values down: its words are words, the sign for a new sequence and the semicolon are single
characters, `new` is not; the names for Nil, the Booleans and the two kinds of collections are not the words with a special
meaning. -/
def Fits (d : Dict) (W : Names) : Prop :=
  Parser.GoodDict d ∧ Clear d W ∧
  (∀ w ∈ [W.seq, W.new, W.arrow, W.list, W.put, W.at, W.none, W.true, W.false, semicolon], Solid d w) ∧
  (∀ w ∈ [W.seq, W.list, W.none, W.true, W.false], w ∉ [d.my, d.var, [62, 62]]) ∧
  oneChar W.arrow = Bool.true ∧ oneChar W.new = Bool.false ∧ W.put.length + W.at.length ≤ 253 ∧
  (∀ c ∈ W.gap1 ++ W.gap2, c = 32)

/-- A text that survives and contains no quotes. -/
def Plain (d : Dict) (t : List UInt8) : Prop := Survives d t ∧ ∀ i < t.length, quoteAt d t i = Bool.false

instance (d : Dict) (t : List UInt8) : Decidable (Plain d t) := by unfold Plain; infer_instance

mutual
/-- Values that are read back: texts are plain, numbers have at most 21 digits. -/
def Fine (d : Dict) : V → Prop
  | .nil => True
  | .bool _ => True
  | .num n => (digits n.natAbs).length ≤ 21
  | .text t => Plain d t
  | .seq l => FineAll d l
  | .map es => (es.map (·.1)).Nodup ∧ FinePairs d es
/-- All items are. -/
def FineAll (d : Dict) : List V → Prop
  | [] => True
  | v :: l => Fine d v ∧ FineAll d l
/-- All entries are. -/
def FinePairs (d : Dict) : List (List UInt8 × V) → Prop
  | [] => True
  | (k, v) :: es => Plain d k ∧ Fine d v ∧ FinePairs d es
end

mutual
/-- No path leads through more than `a` sequences or more than `b` lists. -/
def Shallow (a b : Nat) : V → Prop
  | .nil => True
  | .bool _ => True
  | .num _ => True
  | .text _ => True
  | .seq l => 0 < a ∧ ShallowAll (a - 1) b l
  | .map es => 0 < b ∧ ShallowPairs a (b - 1) es
/-- All items. -/
def ShallowAll (a b : Nat) : List V → Prop
  | [] => True
  | v :: l => Shallow a b v ∧ ShallowAll a b l
/-- All entries. -/
def ShallowPairs (a b : Nat) : List (List UInt8 × V) → Prop
  | [] => True
  | (_, v) :: es => Shallow a b v ∧ ShallowPairs a b es
end

/-- What a list has under a key. -/
def lookup (es : List (List UInt8 × V)) (k : List UInt8) : Option V := (es.find? (·.1 = k)).map (·.2)

end Verif.Spec.ReadBack
