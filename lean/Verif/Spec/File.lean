import Verif.Basic

/-!
# Files: specification

What a file contains, from the history of messages alone.
-/

namespace Verif.Spec.File

/-- Bytes. -/
abbrev Text := List UInt8

/-- What can be asked of a file. -/
inductive Ask where
  | read | write (t : Text) | append (t : Text) | isThere | delete | size

/-- Answers. -/
inductive Answer where
  | done | text (t : Text) | bool (b : Bool) | number (n : Int) | error
  deriving DecidableEq

/-- What the file `p` contains, given what files contained at first and what happened since, the latest first: the last text
written and all texts appended since. -/
def contents (first : Text → Option Text) : List (Text × Ask) → Text → Option Text
  | [], p => first p
  | (q, a) :: past, p =>
    if q ≠ p then contents first past p
    else
      match a with
      | .write t => some t
      | .append t => some ((contents first past p).getD [] ++ t)
      | .delete => none
      | _ => contents first past p

/-- The answer of the file `p`, given what it contains. -/
def answer (now : Option Text) : Ask → Answer
  | .read => match now with | none => .error | some t => .text t
  | .write _ => .done
  | .append _ => .done
  | .isThere => .bool now.isSome
  | .delete => if now.isSome then .done else .error
  | .size => .number (now.getD []).length

end Verif.Spec.File
