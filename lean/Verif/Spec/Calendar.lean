import Verif.Basic

/-!
# The Gregorian calendar

Independent of the model of moments: a date, the lengths of the months, and the day after a date.
-/

namespace Verif.Spec

/-- Every fourth year is a leap year, but of the full centuries only every fourth. -/
def LeapYear (y : Int) : Prop := (400 ∣ y) ∨ (4 ∣ y ∧ ¬ 100 ∣ y)

instance (y : Int) : Decidable (LeapYear y) := by unfold LeapYear; infer_instance

/-- Days of a month (1 to 12). -/
def monthLength (y m : Int) : Int :=
  if m = 2 then (if LeapYear y then 29 else 28)
  else if m = 4 ∨ m = 6 ∨ m = 9 ∨ m = 11 then 30
  else 31

/-- A date and a time of day. -/
structure DateTime where
  year : Int
  month : Int
  day : Int
  hour : Int
  minute : Int
  second : Int
  deriving DecidableEq

/-- A date that exists, and a time of day. -/
structure DateTime.Valid (d : DateTime) : Prop where
  month : 1 ≤ d.month ∧ d.month ≤ 12
  day : 1 ≤ d.day ∧ d.day ≤ monthLength d.year d.month
  hour : 0 ≤ d.hour ∧ d.hour < 24
  minute : 0 ≤ d.minute ∧ d.minute < 60
  second : 0 ≤ d.second ∧ d.second < 60

/-- The next second, as a clock and a calendar show it. -/
def DateTime.tick (d : DateTime) : DateTime :=
  if d.second < 59 then { d with second := d.second + 1 }
  else if d.minute < 59 then { d with minute := d.minute + 1, second := 0 }
  else if d.hour < 23 then { d with hour := d.hour + 1, minute := 0, second := 0 }
  else if d.day < monthLength d.year d.month then { d with day := d.day + 1, hour := 0, minute := 0, second := 0 }
  else if d.month < 12 then { d with month := d.month + 1, day := 1, hour := 0, minute := 0, second := 0 }
  else ⟨d.year + 1, 1, 1, 0, 0, 0⟩

/-- The beginning of 1970. -/
def epoch : DateTime := ⟨1970, 1, 1, 0, 0, 0⟩

/-- What a clock shows: it shows the epoch at second 0, and proceeds from second to second. -/
structure ClockFace (f : Int → DateTime) : Prop where
  zero : f 0 = epoch
  next : ∀ t, f (t + 1) = (f t).tick
  valid : ∀ t, (f t).Valid

/-- The parts of a date, from the largest to the smallest. -/
inductive DatePart where
  | year | month | day | hour | minute | second
  deriving DecidableEq

/-- A date with one part set; the smaller parts start again. -/
def DateTime.put (d : DateTime) (p : DatePart) (v : Int) : DateTime :=
  match p with
  | .year => ⟨v, 1, 1, 0, 0, 0⟩
  | .month => ⟨d.year, v, 1, 0, 0, 0⟩
  | .day => ⟨d.year, d.month, v, 0, 0, 0⟩
  | .hour => ⟨d.year, d.month, d.day, v, 0, 0⟩
  | .minute => ⟨d.year, d.month, d.day, d.hour, v, 0⟩
  | .second => ⟨d.year, d.month, d.day, d.hour, d.minute, v⟩

/-- A part of a date. -/
def DateTime.part (d : DateTime) (p : DatePart) : Int :=
  match p with
  | .year => d.year
  | .month => d.month
  | .day => d.day
  | .hour => d.hour
  | .minute => d.minute
  | .second => d.second

/-- The same day and time of day some months later (or earlier); it need not exist. -/
def DateTime.plusMonths (d : DateTime) (n : Int) : DateTime :=
  { d with year := (12 * d.year + (d.month - 1) + n) / 12, month := (12 * d.year + (d.month - 1) + n) % 12 + 1 }

/-- The number of days of the year that are over on a date. -/
def DateTime.daysOver (d : DateTime) : Int :=
  ((List.range (d.month - 1).toNat).map (fun (k : Nat) => monthLength d.year ((k : Int) + 1))).sum + (d.day - 1)

/-- What a calendar shows as day of the week, 1 for Sunday: the epoch was a Thursday, and the name changes with every
new day. -/
structure WeekdayOf (f : Int → DateTime) (w : Int → Int) : Prop where
  zero : w 0 = 5
  range : ∀ t, 1 ≤ w t ∧ w t ≤ 7
  same : ∀ t, (f (t + 1)).day = (f t).day → w (t + 1) = w t
  next : ∀ t, (f (t + 1)).day ≠ (f t).day → w (t + 1) = (if w t = 7 then 1 else w t + 1)

end Verif.Spec
