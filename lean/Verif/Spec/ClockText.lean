import Verif.Spec.Calendar

/-!
# Dates as texts, and weeks

Independent of the model of moments.
-/

namespace Verif.Spec

/-- The parts of a written date and time, and bytes between them. -/
inductive Field where
  | year | month | day | hour | hour12 | minute | second | half
  | byte (c : UInt8)
  deriving DecidableEq

/-- A number written with two decimal digits. -/
def TwoDigits (n : Int) (t : List UInt8) : Prop :=
  ∃ x y : Nat, x < 10 ∧ y < 10 ∧ n = 10 * x + y ∧ t = [UInt8.ofNat (48 + x), UInt8.ofNat (48 + y)]

/-- A text is how a part of a date is written, where years are written with `yr`. Hours of a half day are counted from
1 to 12; `AM` is the half before noon. -/
def DateTime.Shows (yr : Int → List UInt8) (d : DateTime) : Field → List UInt8 → Prop
  | .year, t => t = yr d.year
  | .month, t => TwoDigits d.month t
  | .day, t => TwoDigits d.day t
  | .hour, t => TwoDigits d.hour t
  | .hour12, t => ∃ h : Int, 1 ≤ h ∧ h ≤ 12 ∧ 12 ∣ d.hour - h ∧ TwoDigits h t
  | .minute, t => TwoDigits d.minute t
  | .second, t => TwoDigits d.second t
  | .half, t => (d.hour < 12 ∧ t = [65, 77]) ∨ (12 ≤ d.hour ∧ t = [80, 77])
  | .byte c, t => t = [c]

/-- A text is how a date is written in a given form. -/
inductive DateTime.Writes (yr : Int → List UInt8) (d : DateTime) : List Field → List UInt8 → Prop
  | nil : d.Writes yr [] []
  | cons {f fs a b} : d.Shows yr f a → d.Writes yr fs b → d.Writes yr (f :: fs) (a ++ b)

/-- A form that mentions every part of a date and time, and the year only once. -/
def AllParts (fs : List Field) : Prop :=
  fs.count .year = 1 ∧ .month ∈ fs ∧ .day ∈ fs ∧ .minute ∈ fs ∧ .second ∈ fs ∧
    (.hour ∈ fs ∨ (.hour12 ∈ fs ∧ .half ∈ fs))

instance (fs : List Field) : Decidable (AllParts fs) := by unfold AllParts; infer_instance

/-- The number of Mondays (2) among the days of the year up to the day of second `t`, where `f` shows the date and `w` the
day of the week. -/
def mondays (f : Int → DateTime) (w : Int → Int) (t : Int) : Nat :=
  ((List.range ((f t).daysOver.toNat + 1)).filter (fun (i : Nat) => decide (w (t - 86400 * (i : Int)) = 2))).length

end Verif.Spec
