import Verif.Basic

/-!
# Naming things with words

Independent of the model: a thing that can be told a value for a word, and asked for it.
-/

namespace Verif.Spec

/-- Telling a value for a word, or asking for it. -/
inductive Said (ν : Type) where
  | tell (w : List UInt8) (v : ν)
  | ask (w : List UInt8)

/-- The word. -/
def Said.word {ν : Type} : Said ν → List UInt8
  | .tell w _ => w
  | .ask w => w

/-- What was told last for a word, if anything. -/
def told {ν : Type} (w : List UInt8) : List (Said ν) → Option ν
  | [] => none
  | .tell w' v :: l => match told w l with
    | some x => some x
    | none => if w' = w then some v else none
  | .ask _ :: l => told w l

/-- The answers to the questions: each is what was told last before. -/
def answers {ν : Type} (before : List (Said ν)) : List (Said ν) → List (Option ν)
  | [] => []
  | .tell w v :: l => answers (before ++ [.tell w v]) l
  | .ask w :: l => told w before :: answers (before ++ [.ask w]) l

end Verif.Spec
