import Verif.Spec.Translator

/-!
# What the dictionary made from two headers has to contain

Independent of the model of `translator.c`.
-/

namespace Verif.Spec

/-- White space. -/
def Blank (c : UInt8) : Prop := c = 32 ∨ (9 ≤ c ∧ c ≤ 13)

instance (c : UInt8) : Decidable (Blank c) := by unfold Blank; infer_instance

/-- A line of the header of a language: the name of a word, white space, the word, and an optional note. -/
structure HLine where
  key : List UInt8
  gap : List UInt8
  word : List UInt8
  note : Option (List UInt8)
  deriving DecidableEq

namespace HLine

/-- The note at the end of the line: `//`, the note, and `#`. -/
def tail (l : HLine) : List UInt8 :=
  match l.note with
  | none => []
  | some n => [32, 47, 47] ++ n ++ [35]

/-- The line as it stands in the header: `#define KEY "word"`. -/
def render (l : HLine) : List UInt8 :=
  [35, 100, 101, 102, 105, 110, 101, 32] ++ l.key ++ l.gap ++ [34] ++ l.word ++ [34] ++ l.tail ++ [10]

/-- A line that is written in the usual form, with words shorter than 180 bytes. -/
structure Plain (l : HLine) : Prop where
  key : l.key ≠ []
  keyBytes : ∀ c ∈ l.key, c ≠ 0 ∧ ¬ Blank c
  keyShort : l.key.length < 180
  gap : l.gap ≠ []
  gapBytes : ∀ c ∈ l.gap, Blank c
  word : l.word ≠ []
  wordBytes : ∀ c ∈ l.word, c ≠ 0 ∧ c ≠ 34
  wordShort : l.word.length < 180
  noteBytes : ∀ n, l.note = some n → n.length < 179 ∧ ∀ c ∈ n, c ≠ 0 ∧ ¬ Blank c

/-- Lines that are used for making program texts only: their name contains `_CODEGEN_`. -/
def Code (l : HLine) : Prop := [95, 67, 79, 68, 69, 71, 69, 78, 95] <:+: l.key

/-- The separator of decimals. -/
def Decimal (l : HLine) : Prop :=
  [67, 84, 82, 95, 68, 73, 67, 84, 95, 78, 85, 77, 95, 68, 69, 67, 95, 83, 69, 80] <+: l.key

/-- The separator of thousands. -/
def Thousand (l : HLine) : Prop :=
  [67, 84, 82, 95, 68, 73, 67, 84, 95, 78, 85, 77, 95, 84, 72, 79, 95, 83, 69, 80] <+: l.key

/-- The name of the line contains one of the given names. -/
def Named (names : List (List UInt8)) (l : HLine) : Prop := ∃ n ∈ names, n <:+: l.key

instance (l : HLine) : Decidable l.Code := by unfold Code; infer_instance
instance (l : HLine) : Decidable l.Decimal := by unfold Decimal; infer_instance
instance (l : HLine) : Decidable l.Thousand := by unfold Thousand; infer_instance
instance (names : List (List UInt8)) (l : HLine) : Decidable (l.Named names) := by unfold Named; infer_instance

end HLine

/-- The contents of a header. -/
def header (ls : List HLine) : List UInt8 := ls.flatMap HLine.render

/-- The lines of the dictionary for a line of the first header and the line of the second header for the same name: none
for code; one for a separator; for a word one, and another one for texts if the name is one of those asked for. -/
def dictLines (names : List (List UInt8)) (a b : HLine) : List DLine :=
  if a.Code ∨ b.Code then []
  else if a.Decimal then [⟨100, a.word, none, b.word⟩]
  else if a.Thousand then [⟨120, a.word, none, b.word⟩]
  else ⟨116, a.word, b.note, b.word⟩ :: if a.Named names then [⟨115, a.word, none, b.word⟩] else []

/-- The dictionary for two headers. -/
def dictOf (names : List (List UInt8)) : List HLine → List HLine → List DLine
  | a :: as, b :: bs => dictLines names a b ++ dictOf names as bs
  | _, _ => []

/-- Two headers agree: line by line they are about the same name, lines for code aside. -/
def SameKeys : List HLine → List HLine → Prop
  | a :: as, b :: bs => (a.Code ∨ b.Code ∨ a.key = b.key) ∧ SameKeys as bs
  | _, _ => True

/-- Lines for code carry no note. -/
def NoCodeNotes : List HLine → List HLine → Prop
  | a :: as, b :: bs => (a.Code ∨ b.Code → b.note = none) ∧ NoCodeNotes as bs
  | _, _ => True

instance : ∀ as bs, Decidable (SameKeys as bs)
  | [], _ => isTrue trivial
  | _ :: _, [] => isTrue trivial
  | _ :: as, _ :: bs => by
    unfold SameKeys
    have := instDecidableSameKeys as bs
    infer_instance

instance : ∀ as bs, Decidable (NoCodeNotes as bs)
  | [], _ => isTrue trivial
  | _ :: _, [] => isTrue trivial
  | _ :: as, _ :: bs => by
    unfold NoCodeNotes
    have := instDecidableNoCodeNotes as bs
    infer_instance

/-- A list of names, separated by commas. -/
def commas : List (List UInt8) → List UInt8
  | [] => []
  | [n] => n
  | n :: m :: r => n ++ 44 :: commas (m :: r)

/-- No 180 consecutive bytes without white space, and none without a quote. -/
def Airy (file : List UInt8) : Prop :=
  ∀ t, t <:+: file → (∀ c ∈ t, ¬ Blank c) ∨ (∀ c ∈ t, c ≠ 34) → t.length < 180

end Verif.Spec
