import Verif.Basic

/-!
# What a dictionary file means

Independent of the model of `translator.c`.
-/

namespace Verif.Spec

/-- A line of a dictionary: its type, a word, an optional note (a line whose translation was used before is marked by a
note and `#`), and the translation. -/
structure DLine where
  ty : UInt8
  word : List UInt8
  note : Option (List UInt8)
  tr : List UInt8
  deriving DecidableEq

namespace DLine

/-- Lines of type `t` and `s` translate words, the lines of type `d` and `x` the separators of numbers. -/
def isWord (l : DLine) : Bool := l.ty = 116 || l.ty = 115

/-- The text between the second pair of quotes. -/
def field (l : DLine) : List UInt8 :=
  match l.note with
  | none => l.tr
  | some n => n ++ 35 :: l.tr

/-- Bytes of the note. -/
def extra (l : DLine) : Nat :=
  match l.note with
  | none => 0
  | some n => n.length + 1

/-- The line as it stands in the file. -/
def render (l : DLine) : List UInt8 :=
  [l.ty, 32, 34] ++ l.word ++ [34, 32, 34] ++ l.field ++ [34, 10]

/-- A line that is written in the documented form. -/
structure Plain (l : DLine) : Prop where
  ty : l.ty = 116 ∨ l.ty = 115 ∨ l.ty = 100 ∨ l.ty = 120
  word : l.word ≠ []
  tr : l.tr ≠ []
  wordBytes : ∀ c ∈ l.word, c ≠ 0 ∧ c ≠ 34 ∧ c ≠ 35
  trBytes : ∀ c ∈ l.tr, c ≠ 0 ∧ c ≠ 34 ∧ c ≠ 35
  noteBytes : ∀ n, l.note = some n → ∀ c ∈ n, c ≠ 0 ∧ c ≠ 34 ∧ c ≠ 35
  short : l.ty ≠ 115 → l.word.length ≤ 180 ∧ l.tr.length ≤ 180
  fits : l.word.length ≤ 4999

/-- The line of the dictionary for the way back. -/
def mirror (l : DLine) : DLine := ⟨l.ty, l.tr, none, l.word⟩

end DLine

/-- The contents of a dictionary file. -/
def dictFile (ls : List DLine) : List UInt8 := ls.flatMap DLine.render

/-- The notes take so little room that every translation fits behind them. -/
def NotesFit (ls : List DLine) : Prop := ∀ l ∈ ls, (ls.map DLine.extra).sum + l.tr.length + 1 ≤ 5000

/-- The later of two lines does not contradict the earlier one. -/
def Agree (a b : DLine) : Prop :=
  a.isWord = true → b.isWord = true → a.ty = b.ty → a.word ≠ b.word ∧ (b.note = none → a.tr ≠ b.tr)

/-- No word has two translations, and no translation two words unless there is a note. -/
def Consistent (ls : List DLine) : Prop := ls.Pairwise Agree

/-- Both separators are there. -/
def Complete (ls : List DLine) : Prop := (∃ l ∈ ls, l.ty = 100) ∧ (∃ l ∈ ls, l.ty = 120)

/-- The last line of a type. -/
def lastOf (ty : UInt8) (ls : List DLine) : Option DLine := (ls.filter (fun l => l.ty = ty)).getLast?

/-- The dictionary for the way back. -/
def mirrored (ls : List DLine) : List DLine := ls.map DLine.mirror

/-- Word and translation have equally many parameter signs after the first byte. -/
def Balanced (p q : UInt8) (l : DLine) : Prop := (l.word.drop 1).count p = (l.tr.drop 1).count q

/-- The sign `p` is translated by `q`, wherever a word or a translation starts with one of them. -/
def SignPair (p q : UInt8) (ls : List DLine) : Prop :=
  (∃ l ∈ ls, l.isWord = true ∧ l.word.head? = some p) ∧
    ∀ l ∈ ls, l.isWord = true → (l.word.head? = some p ↔ l.tr.head? = some q)

/-- The last line translates a word. -/
def EndsWithWord (ls : List DLine) : Prop := ∃ l, ls.getLast? = some l ∧ l.isWord = true

/-- `a` and `b` are the first part of a message, including its parameter sign, and the parts that follow. -/
def SplitAtSign (q : UInt8) (t a b : List UInt8) : Prop :=
  a ++ b = t ∧ q ∉ a.dropLast.drop 1 ∧ (b ≠ [] → 2 ≤ a.length ∧ a.getLast? = some q)

/-- The pieces of a written number. -/
inductive NumPiece where
  | byte (c : UInt8)
  | dec
  | tho
  deriving DecidableEq

/-- A number written with the separators `d` and `x`. -/
def numText (d x : List UInt8) : List NumPiece → List UInt8
  | [] => []
  | .byte c :: r => c :: numText d x r
  | .dec :: r => d ++ numText d x r
  | .tho :: r => x ++ numText d x r

/-- Separators that can be told from each other and from the other bytes of the number. -/
structure Separators (d x : List UInt8) (ps : List NumPiece) : Prop where
  dec : d ≠ []
  tho : x ≠ []
  apart : ¬ d <+: x ∧ ¬ x <+: d
  bytes : ∀ c, NumPiece.byte c ∈ ps → d.head? ≠ some c ∧ x.head? ≠ some c

end Verif.Spec
