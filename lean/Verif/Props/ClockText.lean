import Verif.Lemmas.ClockText
import Verif.Props.Clock

/-!
# Moments as texts and numbers (C105), weeks (C57)
-/

namespace Verif.Props.ClockText
open Verif Verif.Model Verif.Model.Clock Verif.Spec Verif.Lemmas.Clock Verif.Lemmas.ClockText Verif.Props.Clock

/-- The forms of dates in the languages: the different values of `CTR_STDDATEFRMT` in `i18n/*/msg.h`. -/
def forms : List (List Field) := [
  [.year, .byte 45, .month, .byte 45, .day, .byte 32, .hour, .byte 58, .minute, .byte 58, .second],
  [.hour, .byte 58, .minute, .byte 58, .second, .byte 32, .day, .byte 46, .month, .byte 46, .year],
  [.day, .byte 45, .month, .byte 45, .year, .byte 32, .hour, .byte 46, .minute, .byte 58, .second],
  [.day, .byte 47, .month, .byte 47, .year, .byte 32, .hour, .byte 58, .minute, .byte 58, .second],
  [.day, .byte 46, .byte 32, .month, .byte 46, .byte 32, .year, .byte 46, .byte 32, .hour, .byte 46, .minute, .byte 46, .second],
  [.year, .byte 45, .month, .byte 45, .day, .byte 32, .hour, .byte 46, .minute, .byte 46, .second],
  [.month, .byte 47, .day, .byte 47, .year, .byte 32, .hour12, .byte 58, .minute, .byte 58, .second, .byte 32, .half]]

/-- Every language writes all parts of a date and time. -/
theorem C105_forms : ∀ fs ∈ forms, AllParts fs := by decide

example : forms.length = 7 := by decide

/-- **C105**: the text of a moment is the date and time that the moment shows, written in the form of the language. -/
theorem C105_text (z : Zones) (yr : Int → Text) (fs : List Field) (m : Moment) (d : DateTime) (hr : Reads z m d) :
    ∃ t, d.Writes yr fs t ∧ (t.length < 40 → ∀ tz, toText z yr (fs.map toPiece) m tz = .ok (t, utc)) := by
  obtain ⟨hi, rfl⟩ := reads_iff.1 hr
  refine ⟨_, writes_pieces yr (breakDown (m.time + z m.zone)) (face_valid _) fs, fun hl tz => ?_⟩
  unfold toText strftime
  rw [localtime_ok hi]
  dsimp only [Out.bind]
  rw [if_pos hl]

/-- Years in the common way: four digits. (For this example only.) -/
def fourDigits (y : Int) : Text := two (y / 100) ++ two (y % 100)

/-- A moment at an offset of one hour shows 2023-11-14 23:13:20. -/
example : Reads (fun _ => 3600) ⟨1700000000, [65]⟩ ⟨2023, 11, 14, 23, 13, 20⟩ ∧
    toText (fun _ => 3600) fourDigits ((forms.headD []).map toPiece) ⟨1700000000, [65]⟩ [66] =
      .ok ([50, 48, 50, 51, 45, 49, 49, 45, 49, 52, 32, 50, 51, 58, 49, 51, 58, 50, 48], utc) :=
  ⟨reads_iff.2 (by decide +kernel), by decide +kernel⟩

theorem shows_short {yr : Int → Text} {d : DateTime} {f : Field} {a : Text} (hf : f ≠ .year) (h : d.Shows yr f a) :
    a.length ≤ 2 := by
  cases f with
  | year => exact absurd rfl hf
  | byte c => rw [show a = [c] from h]; exact Nat.le_succ 1
  | half => rcases h with ⟨_, rfl⟩ | ⟨_, rfl⟩ <;> decide
  | hour12 =>
    obtain ⟨_, _, _, _, h⟩ := h
    rw [two_digits_length h]
    exact Nat.le_refl 2
  | _ =>
    rw [two_digits_length h]
    exact Nat.le_refl 2

/-- The room that a part of a date takes at most, years apart. -/
def room : Field → Nat
  | .year => 0
  | .byte _ => 1
  | _ => 2

theorem writes_short {yr : Int → Text} {d : DateTime} : ∀ {fs : List Field} {t : Text}, d.Writes yr fs t →
    t.length ≤ (fs.map room).sum + fs.count .year * (yr d.year).length := by
  intro fs t h
  induction h with
  | nil => exact Nat.zero_le _
  | @cons f fs a b s w ih =>
    rw [List.length_append, List.map_cons, List.sum_cons]
    by_cases hf : f = .year
    · subst hf
      rw [List.count_cons_self, Nat.add_mul, Nat.one_mul]
      have : a.length = (yr d.year).length := by rw [show a = yr d.year from s]
      have : room .year = 0 := rfl
      omega
    · have hc : (f :: fs).count .year = fs.count .year := List.count_cons_of_ne hf
      have ha : a.length ≤ room f := by
        cases f with
        | year => exact absurd rfl hf
        | byte c => rw [show a = [c] from s]; exact Nat.le_refl 1
        | _ => exact shows_short hf s
      rw [hc]
      omega

theorem forms_short : ∀ fs ∈ forms, (fs.map room).sum ≤ 20 ∧ fs.count .year = 1 := by decide

/-- **C105** for the languages: as soon as years take at most eleven characters (every `int` does), every moment that
shows a date has the text of that date, in every language. -/
theorem C105_languages (z : Zones) (yr : Int → Text) (fs : List Field) (hf : fs ∈ forms) (m : Moment) (d : DateTime)
    (hr : Reads z m d) (hy : (yr d.year).length ≤ 11) :
    ∃ t, d.Writes yr fs t ∧ ∀ tz, toText z yr (fs.map toPiece) m tz = .ok (t, utc) := by
  obtain ⟨t, hw, ht⟩ := C105_text z yr fs m d hr
  refine ⟨t, hw, ht ?_⟩
  have h1 := writes_short hw
  obtain ⟨h2, h3⟩ := forms_short fs hf
  rw [h3] at h1
  omega

example : Reads (fun _ => 3600) ⟨1700000000, [65]⟩ ⟨2023, 11, 14, 23, 13, 20⟩ ∧ (fourDigits 2023).length ≤ 11 :=
  ⟨reads_iff.2 (by decide +kernel), by decide⟩

/-- **C105**: in every form that mentions all parts, two moments of zones with the same offset that have the same text are
the same point in time, if different years are written differently. -/
theorem C105_apart (z : Zones) (yr : Int → Text) (hy : ∀ a b, yr a = yr b → a = b) (fs : List Field) (hc : AllParts fs)
    (m o : Moment) (hz : z m.zone = z o.zone) (t tz tz' tz1 tz2 : Text)
    (h1 : toText z yr (fs.map toPiece) m tz = .ok (t, tz1)) (h2 : toText z yr (fs.map toPiece) o tz' = .ok (t, tz2)) :
    m.time = o.time := by
  have key : ∀ (x : Moment) (tz tz1 : Text), toText z yr (fs.map toPiece) x tz = .ok (t, tz1) →
      (face (x.time + z x.zone)).Writes yr fs t := by
    intro x tz tz1 h
    unfold toText at h
    obtain ⟨d, hd, h⟩ := Out.bind_eq_ok.1 h
    have hb : d = breakDown (x.time + z x.zone) := by
      unfold localtime at hd
      dsimp only at hd
      split at hd
      · injection hd with hd; exact hd.symm
      · cases hd
    obtain ⟨s, hs, h⟩ := Out.bind_eq_ok.1 h
    injection h with h
    injection h with h _
    unfold strftime at hs
    dsimp only at hs
    split at hs
    · injection hs with hs
      rw [← h, ← hs, hb]
      exact writes_pieces yr _ (face_valid _) fs
    · cases hs
  have := written_apart hy hc (face_valid _) (face_valid _) (key m tz tz1 h1) (key o tz' tz2 h2)
  have := congrArg (fun d => seconds (ofDate d)) this
  rw [seconds_face, seconds_face] at this
  omega

/-- A writing of years that tells all years apart: a sign and as many marks as the year, but only one mark for 1970. (For
the next example only.) -/
def marks (y : Int) : Text :=
  if y = 1970 then [49] else if 0 ≤ y then 43 :: List.replicate y.toNat 49 else 45 :: List.replicate (-y).toNat 49

theorem marks_inj (a b : Int) (h : marks a = marks b) : a = b := by
  unfold marks at h
  repeat' split at h
  all_goals
    first
      | omega
      | (injection h with h _; exact absurd h (by decide))
      | (injection h with _ h
         have := congrArg List.length h
         rw [List.length_replicate, List.length_replicate] at this
         omega)

example : (∀ a b, marks a = marks b → a = b) ∧ (∀ m ∈ [(⟨0, [65]⟩ : Moment), ⟨0, [66]⟩],
    toText (fun _ => 0) marks ((forms.headD []).map toPiece) m [66] =
      .ok ([49, 45, 48, 49, 45, 48, 49, 32, 48, 48, 58, 48, 48, 58, 48, 48], utc)) :=
  ⟨marks_inj, by decide +kernel⟩

/-- **C105**: a moment made from a number has that number as its time, in the zone of the language; and a moment made from
the time of another one is at the same point in time. -/
theorem C105_new (now : Int) (std : Text) (n : Int) :
    time (newSet now std n) = n ∧ zone (newSet now std n) = std ∧ time (new now std) = now ∧ zone (new now std) = std :=
  ⟨rfl, rfl, rfl, rfl⟩

/-- A moment made from the time of another one shows the same date in the same zone. -/
theorem C105_again (z : Zones) (now : Int) (std : Text) (m : Moment) (d : DateTime) (h : Reads z m d) :
    Reads z (setZone (zone m) (newSet now std (time m))) d := h

example : Reads (fun _ => 3600) ⟨1700000000, [65]⟩ ⟨2023, 11, 14, 23, 13, 20⟩ := reads_iff.2 (by decide +kernel)

/-! ## The number of a moment -/

/-- The messages of moments in English (`i18n/en/dictionary.h`, in the order of `world.c:974-1002`). -/
def english : Registered :=
  [([119, 97, 105, 116, 58], .other), ([116, 105, 109, 101], .time), ([110, 101, 119, 58], .other),
   ([110, 101, 119], .other), ([100, 97, 121], .part .day), ([100, 97, 121, 58], .other),
   ([109, 111, 110, 116, 104], .part .month), ([109, 111, 110, 116, 104, 58], .other),
   ([121, 101, 97, 114], .part .year), ([121, 101, 97, 114, 58], .other), ([104, 111, 117, 114], .part .hour),
   ([104, 111, 117, 114, 58], .other), ([109, 105, 110, 117, 116, 101], .part .minute),
   ([109, 105, 110, 117, 116, 101, 58], .other), ([115, 101, 99, 111, 110, 100], .part .second),
   ([115, 101, 99, 111, 110, 100, 58], .other), ([119, 101, 101, 107, 100, 97, 121], .weekday),
   ([100, 97, 121, 45, 111, 102, 45, 116, 104, 101, 45, 121, 101, 97, 114], .yearday), ([119, 101, 101, 107], .week),
   ([122, 111, 110, 101], .other), ([122, 111, 110, 101, 58], .other), ([116, 101, 120, 116], .other),
   ([110, 117, 109, 98, 101, 114], .other), ([97, 100, 100, 58], .other),
   ([115, 117, 98, 116, 114, 97, 99, 116, 58], .other), ([99, 111, 112, 121], .other), ([61], .other),
   ([226, 137, 160], .other)]

/-- The messages of moments in Danish (`i18n/da/dictionary.h`). -/
def danish : Registered :=
  [([118, 101, 110, 116, 101, 58], .other), ([116, 105, 100], .time), ([110, 121, 58], .other), ([110, 121], .other),
   ([100, 97, 103], .part .day), ([100, 97, 103, 58], .other), ([109, 195, 165, 110, 101, 100], .part .month),
   ([109, 195, 165, 110, 101, 100, 58], .other), ([195, 165, 114], .part .year), ([195, 165, 114, 58], .other),
   ([116, 105, 109, 101], .part .hour), ([116, 105, 109, 101, 58], .other),
   ([109, 105, 110, 117, 116], .part .minute), ([109, 105, 110, 117, 116, 58], .other),
   ([97, 110, 100, 101, 110], .part .second), ([97, 110, 100, 101, 110, 58], .other),
   ([117, 103, 101, 100, 97, 103], .weekday), ([100, 97, 103, 45, 105, 45, 195, 165, 114, 101, 116], .yearday),
   ([117, 103, 101], .week), ([122, 111, 110, 101], .other), ([122, 111, 110, 101, 58], .other),
   ([116, 101, 107, 115, 116], .other), ([110, 117, 109, 109, 101, 114], .other),
   ([116, 105, 108, 102, 195, 184, 106, 101, 58], .other),
   ([116, 114, 195, 166, 107, 107, 101, 45, 102, 114, 97, 58], .other), ([107, 111, 112, 105], .other),
   ([61], .other), ([226, 137, 160], .other)]

/-- The messages of moments in Dutch (`i18n/nl/dictionary.h`). -/
def dutch : Registered :=
  [([119, 97, 99, 104, 116, 58], .other), ([116, 105, 106, 100], .time), ([110, 105, 101, 117, 119, 58], .other),
   ([110, 105, 101, 117, 119], .other), ([100, 97, 103], .part .day), ([100, 97, 103, 58], .other),
   ([109, 97, 97, 110, 100], .part .month), ([109, 97, 97, 110, 100, 58], .other), ([106, 97, 97, 114], .part .year),
   ([106, 97, 97, 114, 58], .other), ([117, 117, 114], .part .hour), ([117, 117, 114, 58], .other),
   ([109, 105, 110, 117, 117, 116], .part .minute), ([109, 105, 110, 117, 117, 116, 58], .other),
   ([115, 101, 99, 111, 110, 100, 101], .part .second), ([115, 101, 99, 111, 110, 100, 101, 58], .other),
   ([119, 101, 101, 107, 100, 97, 103], .weekday), ([106, 97, 97, 114, 100, 97, 103], .yearday),
   ([119, 101, 101, 107], .week), ([122, 111, 110, 101], .other), ([122, 111, 110, 101, 58], .other),
   ([116, 101, 107, 115, 116], .other), ([103, 101, 116, 97, 108], .other),
   ([111, 112, 116, 101, 108, 108, 101, 110, 58], .other),
   ([97, 102, 116, 114, 101, 107, 107, 101, 110, 58], .other), ([107, 111, 112, 105, 101, 101, 114], .other),
   ([61], .other), ([226, 137, 160], .other)]

/-- **C105** in languages that say `time` for the time of a moment, as English does: the number of a moment is its time. -/
theorem C105_number_partial (z : Zones) (before after : Registered) (h : ∀ e ∈ after, e.1 ≠ [116, 105, 109, 101])
    (m : Moment) (tz : Text) :
    toNumber z (before ++ ([116, 105, 109, 101], .time) :: after) m tz = .ok (.number m.time, tz) := by
  have hn : named (before ++ ([116, 105, 109, 101], .time) :: after) timeWord = some .time := by
    unfold named
    rw [List.reverse_append, List.reverse_cons, List.append_assoc, List.find?_append]
    rw [show after.reverse.find? (fun e => e.1 = timeWord) = none from List.find?_eq_none.2 fun e he => by
      rw [decide_eq_true_iff]
      exact h e (List.mem_reverse.1 he)]
    rfl
  unfold toNumber
  rw [hn]
  rfl

/-- English is such a language. -/
example : ∃ before after, english = before ++ ([116, 105, 109, 101], .time) :: after ∧
    ∀ e ∈ after, e.1 ≠ [116, 105, 109, 101] :=
  ⟨english.take 1, english.drop 2, by decide, by decide⟩

/-- **C105** is violated in other languages. In Danish the number of every moment is its hour, so that moments a day apart
have the same number; in Dutch it is not a number at all. -/
theorem C105_number_violated :
    (∀ (z : Zones) (m : Moment) (d : DateTime) (tz : Text), Reads z m d → toNumber z danish m tz = .ok (.number d.hour, utc)) ∧
    (∀ (z : Zones) (m : Moment) (tz : Text), toNumber z dutch m tz = .ok (.itself, tz)) ∧
    (∃ (z : Zones) (m o : Moment) (tz : Text), m.time ≠ o.time ∧ m.zone = o.zone ∧ toNumber z danish m tz = toNumber z danish o tz) := by
  have hda : named danish timeWord = some (.part .hour) := by decide +kernel
  have hnl : named dutch timeWord = none := by decide +kernel
  refine ⟨?_, ?_, ⟨fun _ => 0, ⟨0, [65]⟩, ⟨86400, [65]⟩, [65], by decide, rfl, by decide +kernel⟩⟩
  · intro z m d tz hr
    obtain ⟨hi, rfl⟩ := reads_iff.1 hr
    unfold toNumber
    rw [hda]
    dsimp only
    unfold getPart
    rw [localtime_ok hi]
    rfl
  · intro z m tz
    unfold toNumber
    rw [hnl]

/-! ## Weeks -/

theorem mondays_face (t : Int) :
    (mondays face (fun t => (breakDown t).wday + 1) t : Int) =
      ((breakDown t).yday + 7 - ((breakDown t).wday + 6) % 7) / 7 := by
  have hyd : (breakDown t).yday = (face t).daysOver := yearday_face t
  have h0 : 0 ≤ (breakDown t).yday := by
    have := (yearOf_spec (t / 86400)).1
    show 0 ≤ t / 86400 - yearStart (yearOf (t / 86400))
    omega
  have hw : ∀ t, (breakDown t).wday = (t / 86400 + 4) % 7 := fun _ => rfl
  unfold mondays
  rw [← hyd]
  have := count_seven (breakDown t).wday (by rw [hw]; omega)
    (fun (i : Nat) => decide ((breakDown (t - 86400 * (i : Int))).wday + 1 = 2))
    (fun i => by
      rw [decide_eq_true_iff, hw, hw]
      have : (t - 86400 * (i : Int)) / 86400 = t / 86400 - i := by omega
      rw [this]
      omega) (breakDown t).yday.toNat
  rw [this]
  omega

/-- **C57** for weeks, when the zone the process is in has the offset of the zone of the moment: the week of a moment is
the number of Mondays that its year has had, up to the day that the moment shows. -/
theorem C57_week_partial : ∃ f w, ClockFace f ∧ WeekdayOf f w ∧ ∀ (z : Zones) (m : Moment) (d : DateTime) (tz : Text),
    Reads z m d → z tz = z m.zone →
      d = f (m.time + z m.zone) ∧ week z m tz = .ok ((mondays f w (m.time + z m.zone) : Int), tz) := by
  refine ⟨face, _, face_clock, weekday_face, ?_⟩
  intro z m d tz hr he
  obtain ⟨hi, rfl⟩ := reads_iff.1 hr
  refine ⟨rfl, ?_⟩
  unfold week
  rw [localtime_ok (by rw [he]; exact hi), he, mondays_face]
  rfl

/-- 14 November 2023 is in week 46. -/
example : Reads (fun _ => 3600) ⟨1700000000, [65]⟩ ⟨2023, 11, 14, 23, 13, 20⟩ ∧
    week (fun _ => 3600) ⟨1700000000, [65]⟩ utc = .ok (46, utc) :=
  ⟨reads_iff.2 (by decide +kernel), by decide +kernel⟩

/-- **C57** is violated for weeks as well: a moment that shows Monday 5 January 1970, 00:30, answers week 0 (the week of
the Sunday before), because its zone is not used. -/
theorem C57_week_violated : ∃ (z : Zones) (m : Moment), Reads z m ⟨1970, 1, 5, 0, 30, 0⟩ ∧
    week z m m.zone = .ok (1, m.zone) ∧ week z m utc = .ok (0, utc) :=
  ⟨fun zone => if zone = utc then 0 else 7200, ⟨340200, [65]⟩, reads_iff.2 (by decide +kernel), by decide +kernel,
    by decide +kernel⟩

end Verif.Props.ClockText
