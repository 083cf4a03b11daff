import Verif.Model.Interp

/-!
# Asking the program what there is: specification

What a program experiences when it uses a name or sends a message.
-/

namespace Verif.Spec.Exists
open Verif.Model.Interp

/-- The object or one of those it was made from has a method for the message. -/
inductive Understands (obj : Nat → Obj) (m : Name) : Nat → Prop
  | own {o f : Nat} : (m, f) ∈ (obj o).meths → Understands obj m o
  | made {o p : Nat} : (obj o).link = some p → Understands obj m p → Understands obj m o

/-- The name can be used: some statement that consists of the name ends, with the object `o`, and no error is pending. -/
def Usable (env : Env) (s : St) (k : Name) (o : Nat) : Prop :=
  ∃ n s' q, exec env n (.expr (.ref false k)) s = .ok (s', o, q) ∧ s'.flow = none

end Verif.Spec.Exists
