/-!
# Specification of packages

Nothing here refers to the model. A package is a list of files with names, in the order in which they were added.
-/

namespace Verif.Spec.Package

/-- The bytes of a file. -/
abbrev Bytes := List UInt8

/-- A file: its name and what it contains. -/
abbrev Item := Bytes × Bytes

/-- The contents of the first file of that name. -/
def first (items : List Item) (name : Bytes) : Option Bytes :=
  match items with
  | [] => none
  | (n, c) :: l => if n = name then some c else first l name

/-- What a user expects: the contents of the file of that name that was added last. -/
def last (items : List Item) (name : Bytes) : Option Bytes := first items.reverse name

/-- A name that an operating system accepts: it is not empty and has no NUL byte. -/
def Name (n : Bytes) : Prop := n ≠ [] ∧ ∀ c ∈ n, c ≠ 0

/-- The number of bytes that a package with these files needs: 9 for each file besides its name and contents. -/
def size (items : List Item) : Nat := (items.map fun x => x.1.length + 9 + x.2.length).sum

end Verif.Spec.Package
