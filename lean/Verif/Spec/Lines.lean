/-!
# Specification of line ends

Nothing here refers to the model. A text is divided into lines by line feeds, carriage returns, or both in the usual order
(a carriage return and a line feed behind it end one line, not two).
-/

namespace Verif.Spec.Lines

/-- The bytes of a text. -/
abbrev Bytes := List UInt8

/-- Put a byte in front of the first line. -/
def onto (c : UInt8) : List Bytes → List Bytes
  | [] => [[c]]
  | l :: ls => (c :: l) :: ls

/-- The lines of a text. There is always at least one. -/
def lines : Bytes → List Bytes
  | [] => [[]]
  | 13 :: 10 :: t => [] :: lines t
  | c :: t => if c = 13 ∨ c = 10 then [] :: lines t else onto c (lines t)

/-- Lines, one behind the other, with a carriage return and a line feed between any two. -/
def joined : List Bytes → Bytes
  | [] => []
  | [l] => l
  | l :: ls => l ++ 13 :: 10 :: joined ls

/-- A tab becomes one blank. -/
def blank (c : UInt8) : UInt8 := if c = 9 then 32 else c

/-- The text ends with a carriage return. -/
def EndsCr (t : Bytes) : Prop := t.getLast? = some 13

end Verif.Spec.Lines
