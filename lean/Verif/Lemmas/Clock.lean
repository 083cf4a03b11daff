import Verif.Model.Clock
import Verif.Spec.Calendar

/-! # Lemmas about the calendar and moments -/

namespace Verif.Lemmas.Clock
open Verif Verif.Model Verif.Model.Clock Verif.Spec

theorem leap_iff (y : Int) : leap y = true ↔ y % 4 = 0 ∧ (y % 100 ≠ 0 ∨ y % 400 = 0) := by
  simp [leap]

theorem leapYear_iff (y : Int) : LeapYear y ↔ leap y = true := by
  rw [leap_iff]; unfold LeapYear; omega

theorem yearStart_step (y : Int) : yearStart (y + 1) = yearStart y + (if leap y = true then 366 else 365) := by
  have h := leap_iff y
  unfold yearStart
  split
  · next hl => have := h.1 hl; omega
  · next hl => have : ¬ (y % 4 = 0 ∧ (y % 100 ≠ 0 ∨ y % 400 = 0)) := fun hh => hl (h.2 hh)
               omega

theorem yearStart_mono {a b : Int} (h : a ≤ b) : yearStart a ≤ yearStart b := by unfold yearStart; omega

/-- Parts of the cycle computation. -/
theorem cycle (d e r c r' q r'' a : Int) (he : e = d / 146097) (hr : r = d % 146097)
    (hc : c = if r / 36524 > 3 then 3 else r / 36524) (hr' : r' = r - 36524 * c) (hq : q = r' / 1461)
    (hr'' : r'' = r' % 1461) (ha : a = if r'' / 365 > 3 then 3 else r'' / 365) :
    (0 ≤ c ∧ c ≤ 3) ∧ (0 ≤ q ∧ q ≤ 24) ∧ (0 ≤ a ∧ a ≤ 3) ∧ d = 146097 * e + 36524 * c + 1461 * q + r'' ∧
      365 * a ≤ r'' ∧ (r'' < 365 * a + 365 ∨ (a = 3 ∧ r'' = 1460 ∧ (q < 24 ∨ c = 3))) := by
  split at hc <;> split at ha <;> omega

theorem yearOf_cycle (n : Int) : ∃ e c q a r : Int, yearOf n = 1 + 400 * e + 100 * c + 4 * q + a ∧
    (0 ≤ c ∧ c ≤ 3) ∧ (0 ≤ q ∧ q ≤ 24) ∧ (0 ≤ a ∧ a ≤ 3) ∧ n + 719162 = 146097 * e + 36524 * c + 1461 * q + r ∧
      365 * a ≤ r ∧ (r < 365 * a + 365 ∨ (a = 3 ∧ r = 1460 ∧ (q < 24 ∨ c = 3))) :=
  ⟨_, _, _, _, _, rfl, cycle (n + 719162) _ _ _ _ _ _ _ rfl rfl rfl rfl rfl rfl rfl⟩

theorem yearOf_spec (n : Int) : yearStart (yearOf n) ≤ n ∧ n < yearStart (yearOf n + 1) := by
  obtain ⟨e, c, q, a, r, hy, h1, h2, h3, h4, h5, h6⟩ := yearOf_cycle n
  rw [yearStart_step]
  have hl := leap_iff (yearOf n)
  rw [hy] at hl ⊢
  have e1 : (1 + 400 * e + 100 * c + 4 * q + a - 1) / 4 = 100 * e + 25 * c + q := by omega
  have e2 : (1 + 400 * e + 100 * c + 4 * q + a - 1) / 100 = 4 * e + c := by omega
  have e3 : (1 + 400 * e + 100 * c + 4 * q + a - 1) / 400 = e := by omega
  unfold yearStart
  rw [e1, e2, e3]
  refine ⟨by omega, ?_⟩
  split
  · omega
  · next hn =>
    have hn : ¬ (_ ∧ (_ ∨ _)) := fun hh => hn (hl.2 hh)
    omega

theorem yearOf_unique {n y : Int} (h1 : yearStart y ≤ n) (h2 : n < yearStart (y + 1)) : yearOf n = y := by
  obtain ⟨h3, h4⟩ := yearOf_spec n
  rcases Int.lt_trichotomy (yearOf n) y with h | h | h
  · have := yearStart_mono (show yearOf n + 1 ≤ y by omega); omega
  · exact h
  · have := yearStart_mono (show y + 1 ≤ yearOf n by omega); omega

/-- Days of a month counted from 0. -/
def mlen (lp : Bool) (m : Int) : Int :=
  if m = 1 then (if lp then 29 else 28) else if m = 3 ∨ m = 5 ∨ m = 8 ∨ m = 10 then 30 else 31

theorem monthLength_eq (y m : Int) : monthLength y m = mlen (leap y) (m - 1) := by
  unfold monthLength mlen
  have h := leapYear_iff y
  by_cases hl : leap y = true
  · rw [if_pos (h.2 hl), hl]
    simp only [if_true]
    (repeat' split) <;> omega
  · rw [if_neg (fun hh => hl (h.1 hh))]
    simp only [if_neg hl]
    (repeat' split) <;> omega

theorem monthStart_step_table : ∀ lp : Bool, ∀ m : Fin 11,
    monthStart lp ((m.val : Int) + 1) = monthStart lp m.val + mlen lp m.val := by decide +kernel

theorem monthStart_step (lp : Bool) (m : Int) (h : 0 ≤ m ∧ m ≤ 10) :
    monthStart lp (m + 1) = monthStart lp m + mlen lp m := by
  obtain ⟨k, rfl⟩ := Int.eq_ofNat_of_zero_le h.1
  exact monthStart_step_table lp ⟨k, by omega⟩

theorem monthStart_last (lp : Bool) : monthStart lp 11 + mlen lp 11 = if lp then 366 else 365 := by
  cases lp <;> decide

theorem monthOf_table : ∀ lp : Bool, ∀ k : Fin 366, (k.val : Int) < (if lp then 366 else 365) →
    0 ≤ monthOf lp k.val ∧ monthOf lp k.val ≤ 11 ∧ monthStart lp (monthOf lp k.val) ≤ k.val ∧
      (k.val : Int) < monthStart lp (monthOf lp k.val) + mlen lp (monthOf lp k.val) := by decide +kernel

theorem monthOf_spec (lp : Bool) (yd : Int) (h0 : 0 ≤ yd) (h1 : yd < if lp then 366 else 365) :
    0 ≤ monthOf lp yd ∧ monthOf lp yd ≤ 11 ∧ monthStart lp (monthOf lp yd) ≤ yd ∧
      yd < monthStart lp (monthOf lp yd) + mlen lp (monthOf lp yd) := by
  obtain ⟨k, rfl⟩ := Int.eq_ofNat_of_zero_le h0
  exact monthOf_table lp ⟨k, by cases lp <;> simp at h1 <;> omega⟩ h1

theorem monthOf_unique_table : ∀ lp : Bool, ∀ m : Fin 12, ∀ d : Fin 31, (d.val : Int) < mlen lp m.val →
    monthOf lp (monthStart lp m.val + d.val) = m.val := by decide +kernel

theorem mlen_le (lp : Bool) (m : Int) : 28 ≤ mlen lp m ∧ mlen lp m ≤ 31 := by
  unfold mlen
  (repeat' split) <;> omega

theorem monthOf_unique {lp : Bool} {yd m : Int} (hm : 0 ≤ m ∧ m ≤ 11) (h1 : monthStart lp m ≤ yd)
    (h2 : yd < monthStart lp m + mlen lp m) : monthOf lp yd = m := by
  obtain ⟨k, rfl⟩ := Int.eq_ofNat_of_zero_le hm.1
  obtain ⟨d, hd⟩ := Int.eq_ofNat_of_zero_le (show 0 ≤ yd - monthStart lp k by omega)
  have hl := mlen_le lp k
  have := monthOf_unique_table lp ⟨k, by omega⟩ ⟨d, by omega⟩ (by show (d : Int) < mlen lp k; omega)
  rw [show yd = monthStart lp k + d by omega]
  exact this

theorem monthStart_range_table : ∀ lp : Bool, ∀ m : Fin 12, 0 ≤ monthStart lp m.val ∧
    monthStart lp m.val + mlen lp m.val ≤ (if lp then 366 else 365) := by decide +kernel

theorem monthStart_range (lp : Bool) {m : Int} (hm : 0 ≤ m ∧ m ≤ 11) : 0 ≤ monthStart lp m ∧
    monthStart lp m + mlen lp m ≤ (if lp = true then 366 else 365) := by
  obtain ⟨k, rfl⟩ := Int.eq_ofNat_of_zero_le hm.1
  exact monthStart_range_table lp ⟨k, by omega⟩

/-- A broken-down time whose parts are in their ranges. -/
structure TmOk (d : Tm) : Prop where
  mon : 0 ≤ d.mon ∧ d.mon ≤ 11
  mday : 1 ≤ d.mday ∧ d.mday ≤ mlen (leap (d.year + 1900)) d.mon
  hour : 0 ≤ d.hour ∧ d.hour < 24
  min : 0 ≤ d.min ∧ d.min < 60
  sec : 0 ≤ d.sec ∧ d.sec < 60

theorem breakDown_ok (t : Int) : TmOk (breakDown t) := by
  obtain ⟨h1, h2⟩ := yearOf_spec (t / 86400)
  rw [yearStart_step] at h2
  obtain ⟨m1, m2, m3, m4⟩ := monthOf_spec (leap (yearOf (t / 86400))) (t / 86400 - yearStart (yearOf (t / 86400)))
    (by omega) (by omega)
  refine ⟨⟨m1, m2⟩, ⟨?_, ?_⟩, ?_, ?_, ?_⟩
  · show 1 ≤ _ - _ - _ + 1
    omega
  · show _ - _ - _ + 1 ≤ mlen (leap (yearOf (t / 86400) - 1900 + 1900)) _
    rw [Int.sub_add_cancel]
    show _ - _ - _ + 1 ≤ mlen (leap (yearOf (t / 86400))) (monthOf _ _)
    omega
  · show 0 ≤ t % 86400 / 3600 ∧ t % 86400 / 3600 < 24
    omega
  · show 0 ≤ t % 86400 / 60 % 60 ∧ t % 86400 / 60 % 60 < 60
    omega
  · show 0 ≤ t % 86400 % 60 ∧ t % 86400 % 60 < 60
    omega

theorem seconds_breakDown (t : Int) : seconds (breakDown t) = t := by
  have hm := (breakDown_ok t).mon
  have hd : dayOf (breakDown t).year (breakDown t).mon (breakDown t).mday = t / 86400 := by
    unfold dayOf
    rw [show (breakDown t).mon / 12 = 0 by omega, show (breakDown t).mon % 12 = (breakDown t).mon by omega]
    show yearStart (yearOf (t / 86400) - 1900 + 1900 + 0) + monthStart (leap (yearOf (t / 86400) - 1900 + 1900 + 0)) _ +
      (t / 86400 - yearStart (yearOf (t / 86400)) - monthStart (leap (yearOf (t / 86400))) _ + 1) - 1 = _
    rw [show yearOf (t / 86400) - 1900 + 1900 + 0 = yearOf (t / 86400) by omega]
    show _ + monthStart (leap (yearOf (t / 86400))) (monthOf _ _) + (_ - _ - monthStart (leap (yearOf (t / 86400))) (monthOf _ _) + 1) - 1 = _
    omega
  unfold seconds
  rw [hd]
  show t / 86400 * 86400 + t % 86400 / 3600 * 3600 + t % 86400 / 60 % 60 * 60 + t % 86400 % 60 = t
  omega

theorem breakDown_eq {t n y m dd h mi s : Int} (hn : t / 86400 = n) (hs : t % 86400 = h * 3600 + mi * 60 + s)
    (_ : 0 ≤ h ∧ h < 24) (hmi : 0 ≤ mi ∧ mi < 60) (hsec : 0 ≤ s ∧ s < 60) (hm : 0 ≤ m ∧ m ≤ 11)
    (hd : 1 ≤ dd ∧ dd ≤ mlen (leap y) m) (hday : n = yearStart y + monthStart (leap y) m + dd - 1) :
    breakDown t = ⟨y - 1900, m, dd, h, mi, s, (n + 4) % 7, monthStart (leap y) m + dd - 1⟩ := by
  have hr := monthStart_range (leap y) hm
  have hy : yearOf n = y := by
    apply yearOf_unique
    · omega
    · rw [yearStart_step]
      by_cases hl : leap y = true <;> simp only [hl, if_true, if_false, Bool.false_eq_true] at * <;> omega
  have hmo : monthOf (leap y) (n - yearStart y) = m := by
    apply monthOf_unique hm <;> omega
  unfold breakDown
  simp only [hn, hy, hmo, hs]
  rw [show (h * 3600 + mi * 60 + s) / 3600 = h by omega, show (h * 3600 + mi * 60 + s) / 60 % 60 = mi by omega,
    show (h * 3600 + mi * 60 + s) % 60 = s by omega, show n - yearStart y - monthStart (leap y) m + 1 = dd by omega,
    show n - yearStart y = monthStart (leap y) m + dd - 1 by omega]

theorem breakDown_seconds {d : Tm} (h : TmOk d) :
    ∃ wd yd, breakDown (seconds d) = ⟨d.year, d.mon, d.mday, d.hour, d.min, d.sec, wd, yd⟩ := by
  have hm := h.mon
  have hday : dayOf d.year d.mon d.mday = yearStart (d.year + 1900) + monthStart (leap (d.year + 1900)) d.mon + d.mday - 1 := by
    unfold dayOf
    rw [show d.mon / 12 = 0 by omega, show d.mon % 12 = d.mon by omega, Int.add_zero]
  have h1 := h.hour; have h2 := h.min; have h3 := h.sec
  have key := breakDown_eq (t := seconds d) (n := dayOf d.year d.mon d.mday) (y := d.year + 1900) (m := d.mon) (dd := d.mday)
    (h := d.hour) (mi := d.min) (s := d.sec) (by unfold seconds; omega) (by unfold seconds; omega) h1 h2 h3 hm h.mday hday
  rw [Int.add_sub_cancel] at key
  exact ⟨_, _, key⟩

/-- The date and time of a broken-down time. -/
def toDate (d : Tm) : DateTime := ⟨d.year + 1900, d.mon + 1, d.mday, d.hour, d.min, d.sec⟩

/-- A broken-down time of a date. -/
def ofDate (d : DateTime) : Tm := ⟨d.year - 1900, d.month - 1, d.day, d.hour, d.minute, d.second, 0, 0⟩

/-- What the clock shows. -/
def face (t : Int) : DateTime := toDate (breakDown t)

theorem ofDate_ok {d : DateTime} (h : d.Valid) : TmOk (ofDate d) := by
  have h1 := h.month; have h2 := h.day; have h3 := h.hour; have h4 := h.minute; have h5 := h.second
  refine ⟨?_, ⟨h2.1, ?_⟩, h3, h4, h5⟩
  · show 0 ≤ d.month - 1 ∧ d.month - 1 ≤ 11
    omega
  · show d.day ≤ mlen (leap (d.year - 1900 + 1900)) (d.month - 1)
    rw [Int.sub_add_cancel, ← monthLength_eq]
    exact h2.2

theorem toDate_valid {d : Tm} (h : TmOk d) : (toDate d).Valid := by
  have h1 := h.mon
  refine ⟨?_, ⟨h.mday.1, ?_⟩, h.hour, h.min, h.sec⟩
  · show 1 ≤ d.mon + 1 ∧ d.mon + 1 ≤ 12
    omega
  · show d.mday ≤ monthLength (d.year + 1900) (d.mon + 1)
    rw [monthLength_eq, Int.add_sub_cancel]
    exact h.mday.2

theorem face_valid (t : Int) : (face t).Valid := toDate_valid (breakDown_ok t)

theorem face_seconds {d : DateTime} (h : d.Valid) : face (seconds (ofDate d)) = d := by
  obtain ⟨wd, yd, e⟩ := breakDown_seconds (ofDate_ok h)
  unfold face
  rw [e]
  show (⟨d.year - 1900 + 1900, d.month - 1 + 1, d.day, d.hour, d.minute, d.second⟩ : DateTime) = d
  rw [Int.sub_add_cancel, Int.sub_add_cancel]

theorem seconds_face (t : Int) : seconds (ofDate (face t)) = t := by
  have : seconds (ofDate (face t)) = seconds (breakDown t) := by
    unfold seconds
    show dayOf ((breakDown t).year + 1900 - 1900) ((breakDown t).mon + 1 - 1) _ * 86400 + _ + _ + _ = _
    rw [Int.add_sub_cancel, Int.add_sub_cancel]
    rfl
  rw [this, seconds_breakDown]

/-- Seconds of a date in terms of its parts. -/
theorem seconds_ofDate {d : DateTime} (h : d.Valid) : seconds (ofDate d) =
    (yearStart d.year + monthStart (leap d.year) (d.month - 1) + d.day - 1) * 86400 + d.hour * 3600 + d.minute * 60 + d.second := by
  have h1 := h.month
  show (yearStart (d.year - 1900 + 1900 + (d.month - 1) / 12) +
    monthStart (leap (d.year - 1900 + 1900 + (d.month - 1) / 12)) ((d.month - 1) % 12) + d.day - 1) * 86400 + _ + _ + _ = _
  rw [show (d.month - 1) / 12 = 0 by omega, show (d.month - 1) % 12 = d.month - 1 by omega,
    show d.year - 1900 + 1900 + 0 = d.year by omega]
  rfl

theorem tick_valid {d : DateTime} (h : d.Valid) : d.tick.Valid ∧ seconds (ofDate d.tick) = seconds (ofDate d) + 1 := by
  have h1 := h.month; have h2 := h.day; have h3 := h.hour; have h4 := h.minute; have h5 := h.second
  have hs := seconds_ofDate h
  have fin : ∀ e : DateTime, d.tick = e → e.Valid →
      (yearStart e.year + monthStart (leap e.year) (e.month - 1) + e.day - 1) * 86400 + e.hour * 3600 + e.minute * 60 + e.second
        = seconds (ofDate d) + 1 → d.tick.Valid ∧ seconds (ofDate d.tick) = seconds (ofDate d) + 1 := by
    intro e hd he hh
    rw [hd]
    exact ⟨he, by rw [seconds_ofDate he, hh]⟩
  unfold DateTime.tick at fin ⊢
  split
  · next c1 =>
    rw [if_pos c1] at fin
    exact fin _ rfl ⟨h1, h2, h3, h4, by (try dsimp only); omega⟩ (by (try dsimp only); omega)
  · next c1 =>
    rw [if_neg c1] at fin
    split
    · next c2 =>
      rw [if_pos c2] at fin
      exact fin _ rfl ⟨h1, h2, h3, by (try dsimp only); omega, by (try dsimp only); omega⟩ (by (try dsimp only); omega)
    · next c2 =>
      rw [if_neg c2] at fin
      split
      · next c3 =>
        rw [if_pos c3] at fin
        exact fin _ rfl ⟨h1, h2, by (try dsimp only); omega, by (try dsimp only); omega, by (try dsimp only); omega⟩ (by (try dsimp only); omega)
      · next c3 =>
        rw [if_neg c3] at fin
        split
        · next c4 =>
          rw [if_pos c4] at fin
          exact fin _ rfl ⟨h1, by (try dsimp only); omega, by (try dsimp only); omega, by (try dsimp only); omega, by (try dsimp only); omega⟩
            (by (try dsimp only); omega)
        · next c4 =>
          rw [if_neg c4] at fin
          have hl := monthLength_eq d.year d.month
          split
          · next c5 =>
            rw [if_pos c5] at fin
            have hb := mlen_le (leap d.year) (d.month + 1 - 1)
            have hl' := monthLength_eq d.year (d.month + 1)
            have hst := monthStart_step (leap d.year) (d.month - 1) (by omega)
            rw [Int.sub_add_cancel] at hst
            refine fin _ rfl ⟨by (try dsimp only); omega, ⟨by (try dsimp only); omega, ?_⟩, by (try dsimp only); omega, by (try dsimp only); omega,
              by (try dsimp only); omega⟩ ?_
            · (try dsimp only); omega
            · dsimp only
              rw [show d.month + 1 - 1 = d.month by omega]
              omega
          · next c5 =>
            rw [if_neg c5] at fin
            have hst := yearStart_step d.year
            have hla := monthStart_last (leap d.year)
            have e12 : d.month = 12 := by omega
            rw [e12] at hl c4 hs h2
            rw [show (12 : Int) - 1 = 11 by omega] at hl hs
            refine fin _ rfl ⟨by (try dsimp only); omega, ⟨by (try dsimp only); omega, ?_⟩, by (try dsimp only); omega, by (try dsimp only); omega,
              by (try dsimp only); omega⟩ ?_
            · show 1 ≤ monthLength (d.year + 1) 1
              rw [show monthLength (d.year + 1) 1 = 31 from rfl]; omega
            · show (yearStart (d.year + 1) + monthStart (leap (d.year + 1)) (1 - 1) + 1 - 1) * 86400 + 0 * 3600 + 0 * 60 + 0 = _
              rw [show monthStart (leap (d.year + 1)) (1 - 1) = 0 from rfl, hs, hst]
              cases hlp : leap d.year <;> rw [hlp] at hla hl <;>
                simp only [if_true, if_false, Bool.false_eq_true] at hla ⊢ <;> omega

theorem face_clock : ClockFace face where
  zero := by decide +kernel
  next := by
    intro t
    obtain ⟨h1, h2⟩ := tick_valid (face_valid t)
    rw [seconds_face] at h2
    rw [← h2, face_seconds h1]
  valid := face_valid

end Verif.Lemmas.Clock
