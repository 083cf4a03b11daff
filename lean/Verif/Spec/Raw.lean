import Verif.Spec.Float

/-!
# Amounts without a language
-/

namespace Verif.Spec.Raw
open Verif.Spec.Float
open Verif.Spec.ReadBack (digits)

/-- An amount without its sign: its digits, and the decimal places without zeros at the end after a point. -/
def bare (n : Nat) : List UInt8 := digits (n / one) ++ fraction 46 (places 10 (n % one))

end Verif.Spec.Raw
