import Verif.Basic

/-!
# The program and its surroundings: specification

Settings, input, words that form a text, included programs and the command line, without reference to the implementation.
-/

namespace Verif.Spec.System

/-- Bytes. -/
abbrev Text := List UInt8

/-! ## Settings -/

/-- The value of a setting, given its first value and what was set since, the latest first: the last value given to this
name (`none` for removal). -/
def setting (first : Text → Option Text) : List (Text × Option Text) → Text → Option Text
  | [], n => first n
  | (m, v) :: past, n => if m = n then v else setting first past n

/-! ## Input -/

/-- A text without one final line end. -/
def unterminated (t : Text) : Text := if t.getLast? = some 10 then t.dropLast else t

/-! ## Words that form a text -/

/-- A message in words: its name (with the signs that announce arguments) and its arguments. -/
abbrev Message := Text × List Text

/-- The words of a message without arguments, or with one: the name, without the sign, and the argument. -/
def wordsOf (sign : UInt8) : Message → List Text
  | (n, []) => [n]
  | (n, a :: _) => [if n.getLast? = some sign then n.dropLast else n, a]

/-- All words with glue in between. -/
def joined (glue : Text) (sign : UInt8) (l : List Message) : Text := glue.intercalate (l.flatMap (wordsOf sign))

/-! ## Included programs -/

/-- What a program does, as far as including goes: include a file, fail, or anything else. -/
inductive Act where
  | use (file : Text)
  | fail
  | other
  deriving DecidableEq

/-- Folders and files: where a path leads from a folder, and the program that a path names, seen from a folder (if there is
such a file, and if it is a program at all). -/
structure Place (Dir : Type) where
  go : Dir → Text → Option Dir
  program : Dir → Text → Option (Option (List Act))

/-- Which files a program reads, each with the folder in which its name is looked up, and whether it ended by failing. A
program that stands in the folder `d` looks up all names there; an included program looks up its names in its own folder
(`inner` says what it reads). `none` if a file or folder is missing. -/
def readsWith {Dir : Type} (pl : Place Dir) (folder : Text → Text)
    (inner : Dir → List Act → Option (List (Dir × Text) × Bool)) (d : Dir) : List Act → Option (List (Dir × Text) × Bool)
  | [] => some ([], false)
  | .fail :: _ => some ([], true)
  | .other :: l => readsWith pl folder inner d l
  | .use f :: l =>
    match pl.program d f, pl.go d (folder f) with
    | some none, _ => some ([(d, f)], true)
    | some (some p), some e =>
      match inner e p with
      | some (t, true) => some ((d, f) :: t, true)
      | some (t, false) => (readsWith pl folder inner d l).map fun r => ((d, f) :: t ++ r.1, r.2)
      | none => none
    | _, _ => none

/-- The same for programs that include each other at most `depth` deep; `none` if that is not enough. -/
def reads {Dir : Type} (pl : Place Dir) (folder : Text → Text) : Nat → Dir → List Act → Option (List (Dir × Text) × Bool)
  | 0 => readsWith pl folder fun _ _ => none
  | depth + 1 => readsWith pl folder (reads pl folder depth)

/-! ## The command line -/

/-- What a user asks for on the command line. -/
inductive Request where
  | welcome
  | run (file : Text)
  | sandbox (file : Text)
  | tree (file : Text)
  | translate (dictionary file : Text)
  | dictionary (from_ to : Text)
  deriving DecidableEq

/-- The words that a user gives, after the name of the program, for a request (`-s`, `-x`, `-t`, `-g`). -/
def words : Request → List Text
  | .welcome => []
  | .run f => [f]
  | .sandbox f => [[45, 115], f]
  | .tree f => [[45, 120], f]
  | .translate d f => [[45, 116], d, f]
  | .dictionary a b => [[45, 103], a, b]

/-- The files named in a request. -/
def files : Request → List Text
  | .welcome => []
  | .run f => [f]
  | .sandbox f => [f]
  | .tree f => [f]
  | .translate d f => [d, f]
  | .dictionary a b => [a, b]

end Verif.Spec.System
