/-!
# Specification of blobs

Nothing here refers to the model. A blob is a list of small numbers.
-/

namespace Verif.Spec.Blob

/-- A number that fits into a `char` with a sign. -/
def Fits (v : Int) : Prop := -128 ≤ v ∧ v ≤ 127

instance (v : Int) : Decidable (Fits v) := inferInstanceAs (Decidable (_ ∧ _))

/-- Filling replaces the first numbers and leaves the others. -/
def filled (m l : List Int) : List Int := l ++ m.drop l.length

/-- Filling several times. -/
def filledAll (m : List Int) (ls : List (List Int)) : List Int := ls.foldl filled m

/-- So many numbers from the `p`-th on (counted from 1). -/
def part (m : List Int) (p k : Nat) : List Int := (m.drop (p - 1)).take k

end Verif.Spec.Blob
