import Verif.Spec.Dict

/-!
# Specification of the lexical properties

Notions of program text that do not refer to the lexer.
-/

namespace Verif.Spec.Lexer
open Verif.Spec (Dict)

/-- The bytes treated as blanks. -/
def blank (c : UInt8) : Bool := c ∈ [32, 9, 13, 10]

/-- No 256 consecutive bytes of the program are free of blanks. -/
def ShortWords (p : List UInt8) : Prop :=
  ∀ i < p.length, i + 256 ≤ p.length → ((p.drop i).take 256).any blank = true

instance (p : List UInt8) : Decidable (ShortWords p) := by unfold ShortWords; infer_instance

/-- What may stand between tokens: blanks and comments, a comment running from `#` to the end of the line (or of
the program, when nothing follows). -/
inductive Gap : (pre after : List UInt8) → Prop where
  | none (after : List UInt8) : Gap [] after
  | blank {c : UInt8} {pre after : List UInt8} : blank c = true → Gap pre after → Gap (c :: pre) after
  | comment {b pre after : List UInt8} : (∀ c ∈ b, c ≠ 10) → Gap pre after → Gap (35 :: b ++ 10 :: pre) after
  | last {b : List UInt8} : (∀ c ∈ b, c ≠ 10) → Gap (35 :: b) []

/-- The keywords of the dictionary are not empty, and the assignment symbol has at least two bytes. -/
def Usable (d : Dict) : Prop :=
  d.eol ≠ [] ∧ d.chain ≠ [] ∧ 2 ≤ d.assign.length ∧ d.ret ≠ [] ∧ d.qo ≠ [] ∧ d.qc ≠ []

instance (d : Dict) : Decidable (Usable d) := by unfold Usable; infer_instance

/-- The separators used in numbers contain no blanks (true of all dictionaries; the thousands separator of `i18n/cs`
is the three bytes of a thin space). -/
def SolidSeparators (d : Dict) : Prop := d.tho.any blank = false ∧ d.dec.any blank = false

instance (d : Dict) : Decidable (SolidSeparators d) := by unfold SolidSeparators; infer_instance

/-- The quotes of the dictionary: the opening quote is recognised as such at the start of a token (nothing the lexer
looks for earlier fits), and the quotes contain neither a backslash nor NUL and do not start with a byte that has
a meaning after a backslash. -/
def GoodQuotes (d : Dict) : Prop :=
  (∀ c ∈ d.qo ++ d.qc, c ≠ 92 ∧ c ≠ 0) ∧
  (∀ c ∈ d.qo.take 1 ++ d.qc.take 1, c ∉ ([110, 114, 116, 118, 98, 97, 102, 48] : List UInt8)) ∧
  (∀ c ∈ d.qo.take 1, blank c = false ∧ c ∉ ([35, 40, 41, 123, 125, 58, d.param] : List UInt8)) ∧
  (∀ K ∈ [d.eol, d.chain, d.assign, d.ret], K.isPrefixOf d.qo = false ∧ d.qo.isPrefixOf K = false) ∧
  d.qo.length ≤ 10 ∧ d.qc.length ≤ 10

instance (d : Dict) : Decidable (GoodQuotes d) := by unfold GoodQuotes; infer_instance

/-- Positions of `t` at which an opening or closing quote stands. -/
def quoteAt (d : Dict) (t : List UInt8) (i : Nat) : Bool :=
  d.qo.isPrefixOf (t.drop i) || d.qc.isPrefixOf (t.drop i)

/-- Texts that survive `code`: no NUL, no backslash, none of the symbols for line break and tabulator (not even the
first bytes of one at the end), no part of a quote at the end, and quotes only among the first 128 bytes. -/
def Survives (d : Dict) (t : List UInt8) : Prop :=
  (∀ c ∈ t, c ≠ 0 ∧ c ≠ 92) ∧
  (∀ i < t.length, ∀ S ∈ ([[0xe2, 0x86, 0xb5], [0xe2, 0x87, 0xbf]] : List (List UInt8)),
    S.isPrefixOf (t.drop i) = false ∧ (t.drop i).isPrefixOf S = false) ∧
  (∀ i < t.length, ∀ K ∈ [d.qo, d.qc], (t.drop i).isPrefixOf K = true → t.drop i = K) ∧
  (∀ i < t.length, quoteAt d t i = true → i < 128)

instance (d : Dict) (t : List UInt8) : Decidable (Survives d t) := by unfold Survives; infer_instance

/-- The bytes start with something that ends a word. -/
def Stops (d : Dict) (code : List UInt8) : Prop :=
  code = [] ∨ (∃ K ∈ [d.eol, d.qo, d.assign, d.chain, [58, 61]], K <+: code) ∨
  (∃ c r, code = c :: r ∧ (c ∈ [40, 41, d.param] ∨ blank c = true))

/-- A byte is an ASCII digit. -/
def digit (c : UInt8) : Bool := c ∈ ([48, 49, 50, 51, 52, 53, 54, 55, 56, 57] : List UInt8)

/-- Digits after a separator; nothing at all without digits. -/
def fraction (sep ds : List UInt8) : List UInt8 := if ds = [] then [] else sep ++ ds

/-- None of the given symbols stands at the start of the bytes. -/
def startsNone (Ks : List (List UInt8)) (code : List UInt8) : Bool := Ks.all (fun K => !K.isPrefixOf code)

/-- `body` (followed by `after`) is free of backslashes and of the symbols for line break and tabulator, and the quotes
in it are properly nested. -/
inductive Nested (d : Dict) : (body after : List UInt8) → Prop where
  | nil (after : List UInt8) : Nested d [] after
  | byte {c : UInt8} {body after : List UInt8} : c ≠ 92 →
      startsNone [d.qo, d.qc, [0xe2, 0x86, 0xb5], [0xe2, 0x87, 0xbf]] (c :: body ++ after) = true →
      Nested d body after → Nested d (c :: body) after
  | quoted {b rest after : List UInt8} : Nested d b (d.qc ++ rest ++ after) → Nested d rest after →
      Nested d (d.qo ++ b ++ d.qc ++ rest) after

/-- The two quotes cannot be mistaken for one another nor for the symbols for line break and tabulator. -/
def ApartQuotes (d : Dict) : Prop :=
  d.qo.isPrefixOf d.qc = false ∧ d.qc.isPrefixOf d.qo = false ∧
  ∀ S ∈ ([[0xe2, 0x86, 0xb5], [0xe2, 0x87, 0xbf]] : List (List UInt8)), ∀ K ∈ [d.qo, d.qc],
    S.isPrefixOf K = false ∧ K.isPrefixOf S = false

instance (d : Dict) : Decidable (ApartQuotes d) := by unfold ApartQuotes; infer_instance

end Verif.Spec.Lexer
