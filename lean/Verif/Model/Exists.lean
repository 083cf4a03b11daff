import Verif.Model.Interp

/-!
# Asking the program what there is (`system.c`)

Names of `Verif.Model.Interp` stand for texts; two names are equal exactly when the texts are. The arguments are texts (other
objects are converted before). `bare` stands for what the code does with the text of the object: `none` for the empty text, the text
without its last byte if that is the sign in front of parameters, else the text itself.
-/

namespace Verif.Model.Interp

/-- `ctr_program_object_exists`, `system.c:432-437`: `Program find:`. -/
def objectExists (s : St) (k : Name) : Bool := (getp (s.obj worldO).props k).isSome

/-- `ctr_program_object_message_exists`, `system.c:447-466`: `Program [object]: [message]`. -/
def messageExists (bare : Name → Option Name) (s : St) (o m : Name) : Bool :=
  match bare o with
  | none => false
  | some o =>
    match getp (s.obj worldO).props o with
    | none => false
    | some r => (getp (s.obj r).meths m).isSome

end Verif.Model.Interp
