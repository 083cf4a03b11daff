import Verif.Spec.Ast
import Verif.Spec.Text
import Verif.Spec.Lexer

/-!
# Specification of the grammar

How a syntax tree is written down as a sequence of lexemes, how lexemes are laid out as program text, and which trees
conform to the grammar. Nothing here refers to the lexer or the parser.

The grammar is the one of the manual: a unary message (a word) binds tighter than a binary message (a one-character
word with one argument), which binds tighter than a keyword message; messages of equal rank are sent from left to
right; after a keyword message the chain symbol sends a further message to its answer; parentheses override all this.
-/

namespace Verif.Spec.Parser
open Verif.Spec (Dict Node encode)
open Verif.Spec.Lexer

/-- The words and symbols a program is made of. -/
inductive Lexeme where
  | word (w : List UInt8)
  | num (v : List UInt8)
  | lit (t : List UInt8)
  | popen | pclose | bopen | bclose | eol | chain | assign | colon | ret
  deriving DecidableEq

/-! ## Writing a tree down -/

/-- Is the node a keyword message? -/
def isKw : Node → Bool
  | .kw .. => true
  | _ => false

mutual
/-- The lexemes of a tree, in the order in which they are written. -/
def lexemes (d : Dict) : Node → List Lexeme
  | .ref m n => (if m = 0 then [] else if m = 1 then [.word d.my] else [.word d.var]) ++ [.word n]
  | .num v => [.num v]
  | .str v => [.lit v]
  | .block ps b => .bopen :: ps.flatMap (fun p => [.colon, .word p]) ++ lexStmts d b ++ [.bclose]
  | .nested e => .popen :: lexemes d e ++ [.pclose]
  | .assign r e => lexemes d r ++ .assign :: lexemes d e
  | .msg r ms => lexemes d r ++ lexMsgs d false ms
  | .ret e => .ret :: lexemes d e
  | .una n => [.word n]
  | .bin o a => .word o :: lexemes d a
  | .kw ps as => lexArgs d ps as
/-- Statements, each ended by the end-of-statement symbol. -/
def lexStmts (d : Dict) : List Node → List Lexeme
  | [] => []
  | e :: es => lexemes d e ++ .eol :: lexStmts d es
/-- Messages; the flag tells whether the message before is a keyword message, which is followed by the chain symbol. -/
def lexMsgs (d : Dict) (kw : Bool) : List Node → List Lexeme
  | [] => []
  | m :: ms => (if kw then [.chain] else []) ++ lexemes d m ++ lexMsgs d (isKw m) ms
/-- The parts of a keyword message, each with the parameter sign and its argument. -/
def lexArgs (d : Dict) : List (List UInt8) → List Node → List Lexeme
  | p :: ps, a :: as => .word p :: .colon :: lexemes d a ++ lexArgs d ps as
  | _, _ => []
end

/-! ## Layout -/

/-- What ends a word: the end of the program, one of the symbols, a parenthesis, the parameter sign or a blank. -/
def endsWord (d : Dict) (rest : List UInt8) : Bool :=
  rest = [] || [d.eol, d.qo, d.assign, d.chain].any (·.isPrefixOf rest) ||
  rest.head?.any (fun c => c ∈ [40, 41, d.param] || blank c)

/-- The bytes start with a digit. -/
def startsDigit (code : List UInt8) : Bool := code.head?.any digit

/-- A number is not continued by the bytes that follow it. -/
def endsNumber (d : Dict) (rest : List UInt8) : Bool :=
  !startsDigit rest && [d.tho, d.dec].all (fun K => !(K.isPrefixOf rest && startsDigit (rest.drop K.length)))

/-- A word: its bytes are the UTF-8 encoding of some characters; it has at most 255 bytes; it contains no blank, no
`#`, no parenthesis, no parameter sign and (together with what follows) no symbol; it does not start like a block or
a number; what follows ends it. -/
def Word (d : Dict) (w rest : List UInt8) : Prop :=
  w ≠ [] ∧ w.length ≤ 255 ∧ (∃ cs : List Char, w = encode cs) ∧
  (∀ c ∈ w, c ∉ [35, 40, 41, d.param] ∧ blank c = false) ∧
  (∀ c ∈ w.take 1, c ∉ ([123, 125] : List UInt8) ∧ digit c = false) ∧ (w.take 1 = [45] → startsDigit (w.drop 1 ++ rest) = false) ∧
  (∀ i < w.length, startsNone [d.eol, d.qo, d.assign, d.chain, [58, 61]] (w.drop i ++ rest) = true) ∧
  startsNone [d.ret ++ [32]] (w ++ rest) = true ∧ endsWord d rest = true

/-- The bytes `b`, followed by `rest`, are a way of writing the lexeme. A number may be written with thousands
separators, and with the decimal separator of the language. -/
def Written (d : Dict) : Lexeme → (b rest : List UInt8) → Prop
  | .popen, b, _ => b = [40]
  | .pclose, b, _ => b = [41]
  | .bopen, b, _ => b = [123]
  | .bclose, b, _ => b = [125]
  | .eol, b, _ => b = d.eol
  | .chain, b, _ => b = d.chain
  | .assign, b, _ => b = d.assign ∨ b = [58, 61]
  | .colon, b, rest => b = [d.param] ∧ startsNone [d.eol, d.chain, d.assign, [58, 61]] (b ++ rest) = true
  | .ret, b, rest => b = d.ret ∧ rest.head? = some 32
  | .lit t, b, rest => b = d.qo ++ t ++ d.qc ∧ Nested d t (d.qc ++ rest)
  | .word w, b, rest => b = w ∧ Word d w rest
  | .num v, b, rest => ∃ (sign : List UInt8) (gs : List (List UInt8)) (f : List UInt8),
      b = sign ++ d.tho.intercalate gs ++ fraction d.dec f ∧ v = sign ++ gs.flatten ++ fraction [46] f ∧
      (sign = [] ∨ sign = [45]) ∧ gs ≠ [] ∧ (∀ g ∈ gs, g ≠ [] ∧ ∀ c ∈ g, digit c = true) ∧
      (∀ c ∈ f, digit c = true) ∧ v.length ≤ 255 ∧ endsNumber d rest = true ∧
      startsNone [d.eol, d.chain, d.assign, [58, 61], d.ret ++ [32], d.qo] (b ++ rest) = true

/-- The program text consists of the lexemes, with blanks and comments between them. -/
inductive Lay (d : Dict) : List Lexeme → List UInt8 → Prop where
  | done {g : List UInt8} : Gap g [] → Lay d [] g
  | next {l : Lexeme} {ls : List Lexeme} {g b rest : List UInt8} :
      Gap g (b ++ rest) → Written d l b rest → Lay d ls rest → Lay d (l :: ls) (g ++ b ++ rest)

/-- Neither is the beginning of the other. -/
def apart (A B : List UInt8) : Bool := !A.isPrefixOf B && !B.isPrefixOf A

/-- The dictionary can be used for writing programs: see `Usable`, `GoodQuotes`, `ApartQuotes`; moreover no symbol
starts like a blank, a comment, a parenthesis or a block, the symbols cannot be mistaken for one another, and
neither can the two keywords in front of names; the separators used in numbers are different and contain no digits,
and the decimal separator is one byte. -/
def GoodDict (d : Dict) : Prop :=
  Usable d ∧ GoodQuotes d ∧ ApartQuotes d ∧
  (∀ K ∈ [d.eol, d.chain, d.assign, d.ret, [d.param]], ∀ c ∈ K.take 1,
    c ∉ ([35, 40, 41, 123, 125] : List UInt8) ∧ blank c = false) ∧
  ([d.chain, d.assign, [58, 61], d.ret].all (apart d.eol) = true) ∧
  ([d.assign, [58, 61], d.ret].all (apart d.chain) = true) ∧
  (apart d.assign d.ret = true) ∧ (apart [58, 61] d.ret = true) ∧ (d.assign = [58, 61] ∨ apart d.assign [58, 61] = true) ∧
  d.param ∉ d.ret.take 1 ∧ digit d.param = false ∧ d.param ≠ 45 ∧
  d.my ≠ d.var ∧ d.dec.length = 1 ∧ d.tho ≠ d.dec ∧ (∀ c ∈ d.tho ++ d.dec ++ d.eol, digit c = false)

instance (d : Dict) : Decidable (GoodDict d) := by unfold GoodDict; infer_instance

/-! ## The grammar -/

/-- The number of characters of an encoded text is the number of bytes that do not continue a character. -/
def charCount (w : List UInt8) : Nat := w.countP (fun b => decide (b.toNat / 64 ≠ 2))

/-- What a message can be sent to directly. -/
def prim : Node → Bool
  | .ref .. | .num _ | .str _ | .block .. | .nested _ => true
  | _ => false

mutual
/-- Trees that conform to the grammar. The rank tells where the expression stands: 0 on its own, 1 as argument of a
keyword message (no keyword messages unless in parentheses), 2 as argument of a binary message (unary messages only).
The name of a variable is none of the three words with a special meaning. -/
def gram (d : Dict) : Nat → Node → Bool
  | _, .ref m n => decide (m ≤ 2) && decide (n ∉ [d.my, d.var, [62, 62]])
  | _, .num _ => true
  | _, .str _ => true
  | _, .block ps b => !(ps.isEmpty && b.isEmpty) && gramStmts d b
  | _, .nested e => gram d 0 e
  | k, .assign r e => k == 0 && (match r with | .ref .. => true | _ => false) && gram d 0 r && gram d 0 e
  | k, .msg r ms => prim r && gram d 0 r && !ms.isEmpty && gramMsgs d k false ms
  | _, _ => false
/-- Statements: expressions, or a return sign followed by an expression. -/
def gramStmts (d : Dict) : List Node → Bool
  | [] => true
  | .ret e :: es => gram d 0 e && gramStmts d es
  | e :: es => gram d 0 e && gramStmts d es
/-- Messages allowed at the given rank. The flag tells whether the message before is binary: then a unary message
would belong to its argument. -/
def gramMsgs (d : Dict) (k : Nat) (bin : Bool) : List Node → Bool
  | [] => true
  | .una n :: ms => !bin && charCount n != 1 && gramMsgs d k false ms
  | .bin o a :: ms => decide (k ≤ 1) && charCount o == 1 && gram d 2 a && gramMsgs d k true ms
  | .kw ps as :: ms => k == 0 && ps.length == as.length && !ps.isEmpty && decide ((ps.map (·.length + 1)).sum ≤ 255) &&
      gramArgs d as && gramMsgs d k false ms
  | _ => false
/-- Arguments of a keyword message. -/
def gramArgs (d : Dict) : List Node → Bool
  | [] => true
  | a :: as => gram d 1 a && gramArgs d as
end

/-! ## Ranks only

What is said of the tree of any accepted program, however it is written. -/

mutual
/-- Messages are sent to primary expressions; the argument of a binary message has unary messages only; the arguments
of a keyword message have unary and binary messages only. An assignment may stand anywhere, and its right hand side
extends as far as possible. -/
def ranked : Nat → Node → Bool
  | _, .ref m _ => decide (m ≤ 2)
  | _, .num _ => true
  | _, .str _ => true
  | _, .block _ b => rankedStmts b
  | _, .nested e => ranked 0 e
  | _, .assign r e => (match r with | .ref .. => true | _ => false) && ranked 0 e
  | k, .msg r ms => prim r && ranked 0 r && !ms.isEmpty && rankedMsgs k ms
  | _, _ => false
/-- Statements. -/
def rankedStmts : List Node → Bool
  | [] => true
  | .ret e :: es => ranked 0 e && rankedStmts es
  | e :: es => ranked 0 e && rankedStmts es
/-- Messages. -/
def rankedMsgs (k : Nat) : List Node → Bool
  | [] => true
  | .una _ :: ms => rankedMsgs k ms
  | .bin _ a :: ms => decide (k ≤ 1) && ranked 2 a && rankedMsgs k ms
  | .kw ps as :: ms => k == 0 && !ps.isEmpty && decide (ps.length ≤ as.length) &&
      decide ((ps.map (·.length + 1)).sum ≤ 255) && rankedArgs as && rankedMsgs k ms
  | _ => false
/-- Arguments of a keyword message. -/
def rankedArgs : List Node → Bool
  | [] => true
  | a :: as => ranked 1 a && rankedArgs as
end

end Verif.Spec.Parser
