import Verif.Model.Summer
import Verif.Props.Clock

/-!
# Moments in zones with summer time (C112)
-/

namespace Verif.Props.Summer
open Verif Verif.Model Verif.Model.Clock Verif.Model.Summer Verif.Spec Verif.Lemmas.Clock
open Verif.Props.Clock (toPart Near near_year WordsApart wordOf fixedLength lengthInMonths englishWords english_apart)

/-- Asking the moment for its parts answers those of `d`. -/
def Reads (z : Text → Zone) (m : Moment) (d : DateTime) : Prop :=
  ∀ p tz, ∃ tz', Summer.getPart z (toPart p) m tz = .ok (d.part p, tz')

/-! ## Each moment is like one in a zone with a fixed offset -/

theorem localtime_eq (z : Zone) (tz : Text) (t : Int) :
    Summer.localtime z t = (Clock.localtime (fun _ => z.off t) tz t).bind fun d => .ok (d, z.summer t) := by
  unfold Summer.localtime Clock.localtime
  dsimp only
  split <;> rfl

theorem getPart_eq (z : Text → Zone) (p : Part) (m : Moment) (tz : Text) :
    Summer.getPart z p m tz = Clock.getPart (fun _ => (z m.zone).off m.time) p m tz := by
  unfold Summer.getPart Clock.getPart
  rw [localtime_eq (z m.zone) m.zone]
  cases Clock.localtime (fun _ => (z m.zone).off m.time) m.zone m.time <;> rfl

theorem reads_eq (z : Text → Zone) (m : Moment) (d : DateTime) :
    Reads z m d ↔ Clock.Reads (fun _ => (z m.zone).off m.time) m d := by
  unfold Reads Clock.Reads
  simp only [getPart_eq]

theorem reads_iff {z : Text → Zone} {m : Moment} {d : DateTime} :
    Reads z m d ↔ InInt (breakDown (m.time + (z m.zone).off m.time)).year ∧ d = face (m.time + (z m.zone).off m.time) :=
  (reads_eq z m d).trans Clock.reads_iff

theorem change_eq (z : Text → Zone) (pick : Int → Bool) (w : Words) (forward : Bool) (n : Int) (q : Option Text) (m : Moment)
    (tz : Text) :
    Summer.change z pick w forward n q m tz = Clock.change (fun _ => (z m.zone).off m.time) w forward n q m tz := by
  unfold Summer.change Clock.change
  cases q with
  | none => rfl
  | some q =>
    dsimp only
    rw [localtime_eq (z m.zone) m.zone]
    cases Clock.localtime (fun _ => (z m.zone).off m.time) m.zone m.time <;> rfl

/-! ## Reading and setting -/

/-- **C112**: the parts of a moment are what a clock and a calendar show that are set to the offset of the zone at that
moment. -/
theorem C112_read : ∃ f, ClockFace f ∧ ∀ (z : Text → Zone) (m : Moment), Near (m.time + (z m.zone).off m.time) →
    Reads z m (f (m.time + (z m.zone).off m.time)) :=
  ⟨face, face_clock, fun _ _ h => reads_iff.2 ⟨near_year h, rfl⟩⟩

/-- A zone one hour ahead of UTC with summer time from 31 March to 27 October 2024, 01:00 UTC. -/
def amsterdam : Zone := ⟨3600, 3600, fun t => decide (1711846800 ≤ t ∧ t < 1729990800)⟩

example : Near (1720000000 + amsterdam.off 1720000000) ∧ amsterdam.off 1720000000 = 7200 := by decide

theorem assign_seconds (t : Int) (p : DatePart) (v : Int) :
    seconds (assign (toPart p) v (breakDown t)) = seconds (ofDate ((face t).put p v)) := by
  unfold face
  generalize breakDown t = d
  unfold seconds
  cases p
  · rfl
  · show dayOf d.year (v - 1) 1 * 86400 + _ + _ + _ = dayOf (d.year + 1900 - 1900) (v - 1) 1 * 86400 + _ + _ + _
    rw [Int.add_sub_cancel]; rfl
  all_goals
    show dayOf d.year d.mon _ * 86400 + _ + _ + _ = dayOf (d.year + 1900 - 1900) (d.mon + 1 - 1) _ * 86400 + _ + _ + _
    rw [Int.add_sub_cancel, Int.add_sub_cancel]; rfl

theorem converted_in (d : DateTime) (p : DatePart) (v : Int) (hv : (d.put p v).Valid) (hy : InInt ((d.put p v).year - 1900)) :
    InInt (converted (toPart p) v) := by
  have h1 := hv.month; have h2 := hv.day; have h3 := hv.hour; have h4 := hv.minute; have h5 := hv.second
  rw [monthLength_eq] at h2
  have hml := mlen_le (leap (d.put p v).year) ((d.put p v).month - 1)
  cases p
  · exact hy
  · have h1 : 1 ≤ v ∧ v ≤ 12 := h1
    show InInt (v - 1)
    unfold InInt; omega
  · have h2 : 1 ≤ v ∧ v ≤ _ := h2
    show InInt v
    unfold InInt; omega
  · have h3 : 0 ≤ v ∧ v < 24 := h3
    show InInt v
    unfold InInt; omega
  · have h4 : 0 ≤ v ∧ v < 60 := h4
    show InInt v
    unfold InInt; omega
  · have h5 : 0 ≤ v ∧ v < 60 := h5
    show InInt v
    unfold InInt; omega

/-- **C112**: setting a part of a moment leads to the date with that part set, the larger parts as before and the smaller
parts at their beginning, whenever the clocks of the zone show that date at some time, whether there is summer time then or
not, and whichever of two such times `mktime` prefers. -/
theorem C112_set (z : Text → Zone) (pick : Int → Bool) (m : Moment) (d : DateTime) (p : DatePart) (v : Int) (h : Reads z m d)
    (hd : ∃ t, Reads z ⟨t, m.zone⟩ (d.put p v)) (tz : Text) :
    ∃ m' tz', Summer.setPart z pick (toPart p) v m tz = .ok (m', tz') ∧ m'.zone = m.zone ∧ Reads z m' (d.put p v) := by
  obtain ⟨t, hd⟩ := hd
  obtain ⟨ht, he⟩ := reads_iff.1 hd
  clear hd
  obtain ⟨hi, rfl⟩ := reads_iff.1 h
  dsimp only at ht he
  have hv : ((face (m.time + (z m.zone).off m.time)).put p v).Valid := by rw [he]; exact face_valid _
  have hy : InInt (((face (m.time + (z m.zone).off m.time)).put p v).year - 1900) := by
    rw [he]
    show InInt ((breakDown _).year + 1900 - 1900)
    rw [Int.add_sub_cancel]
    exact ht
  have hs : seconds (assign (toPart p) v (breakDown (m.time + (z m.zone).off m.time))) = t + (z m.zone).off t := by
    rw [assign_seconds, he, seconds_face]
  refine ⟨⟨mktime (z m.zone) pick (assign (toPart p) v (breakDown (m.time + (z m.zone).off m.time))) none, m.zone⟩, utc, ?_,
    rfl, ?_⟩
  · unfold Summer.setPart
    rw [localtime_eq (z m.zone) m.zone, Clock.localtime_ok (z := fun _ => (z m.zone).off m.time) (tz := m.zone) (t := m.time) hi,
      Clock.ok_bind', Clock.ok_bind']
    exact if_pos (converted_in _ p v hv hy)
  · have key : ∃ t', mktime (z m.zone) pick (assign (toPart p) v (breakDown (m.time + (z m.zone).off m.time))) none = t' ∧
        t' + (z m.zone).off t' = t + (z m.zone).off t := by
      refine ⟨_, rfl, ?_⟩
      unfold Summer.mktime
      dsimp only
      rw [hs, if_pos ht]
      generalize hz : z m.zone = Z
      generalize hS : t + Z.off t = S
      have hoff : t = S - Z.offset (Z.summer t) := by unfold Zone.off at hS; omega
      by_cases hsame : Z.summer (S - Z.offset false) = Z.summer (S - Z.offset true)
      · rw [if_pos hsame]
        have : Z.summer t = Z.summer (S - Z.offset false) := by
          cases hb : Z.summer t
          · rw [hb] at hoff; rw [← hoff, hb]
          · rw [hb] at hoff; rw [hsame, ← hoff, hb]
        rw [← this, ← hoff]
        exact hS
      · rw [if_neg hsame]
        have hb : ∀ b, Z.summer (S - Z.offset b) = b := by
          have h1 : Z.summer (S - Z.offset (Z.summer t)) = Z.summer t := by rw [← hoff]
          intro b
          cases hb : Z.summer t <;> rw [hb] at h1 <;> cases b <;> first | exact h1 | skip
          · cases hc : Z.summer (S - Z.offset true)
            · exact absurd (h1.trans hc.symm) hsame
            · rfl
          · cases hc : Z.summer (S - Z.offset false)
            · rfl
            · exact absurd (hc.trans h1.symm) hsame
        unfold Zone.off
        rw [hb (pick S)]
        omega
    obtain ⟨t', h1, h2⟩ := key
    rw [h1, reads_iff]
    dsimp only
    rw [h2]
    exact ⟨ht, he⟩

/-- From winter to summer: 10 January, and July is there. -/
example : Reads (fun _ => amsterdam) ⟨1704884400, [65]⟩ ⟨2024, 1, 10, 12, 0, 0⟩ ∧
    Reads (fun _ => amsterdam) ⟨1719784800, [65]⟩ ((⟨2024, 1, 10, 12, 0, 0⟩ : DateTime).put .month 7) :=
  ⟨reads_iff.2 (by decide +kernel), reads_iff.2 (by decide +kernel)⟩

/-! ## Moving -/

/-- Times within 30 million years, amounts up to 300 million and offsets of up to eleven days: no overflow. -/
def Moderate (z : Text → Zone) (m : Moment) (n : Int) : Prop :=
  (-1000000000000000 ≤ m.time ∧ m.time ≤ 1000000000000000) ∧ (-300000000 ≤ n ∧ n ≤ 300000000) ∧
    ∀ b, -1000000 ≤ (z m.zone).offset b ∧ (z m.zone).offset b ≤ 1000000

/-- **C112**: adding an amount of seconds, minutes, hours, days or weeks moves a moment by exactly that time, also over
the points at which the clocks are changed, and subtracting the same amount restores it. -/
theorem C112_move (z : Text → Zone) (pick : Int → Bool) (w : Words) (hw : WordsApart w) (m : Moment) (n len : Int) (u : Unit')
    (hu : fixedLength u = some len) (h : Moderate z m n) (tz tz' : Text) :
    ∃ m' t, Summer.add z pick w n (some (wordOf w u)) m tz = .ok (m', t) ∧ m'.time = m.time + n * len ∧ m'.zone = m.zone ∧
      ∃ t', Summer.subtract z pick w n (some (wordOf w u)) m' tz' = .ok (m, t') := by
  obtain ⟨h1, h2, h3⟩ := h
  have hl : 0 < len ∧ len ≤ 604800 := by
    cases u <;> first | (injection hu with hu; omega) | cases hu
  have hb : -181440000000000 ≤ n * len ∧ n * len ≤ 181440000000000 := by
    have a1 : n * len ≤ 300000000 * len := Int.mul_le_mul_of_nonneg_right h2.2 (by omega)
    have a2 : -300000000 * len ≤ n * len := Int.mul_le_mul_of_nonneg_right h2.1 (by omega)
    omega
  have o : ∀ t, -1000000 ≤ (z m.zone).off t ∧ (z m.zone).off t ≤ 1000000 := fun t => h3 _
  have o1 := o m.time
  have o2 := o (m.time + n * len)
  refine ⟨⟨m.time + n * len, m.zone⟩, utc, ?_, rfl, rfl, utc, ?_⟩
  · unfold Summer.add
    rw [change_eq]
    exact Clock.change_fixed hw hu (by unfold Near; omega) h2 (by unfold Near; omega) true n (by simp) tz
  · unfold Summer.subtract
    rw [change_eq]
    have := Clock.change_fixed (z := fun _ => (z m.zone).off (m.time + n * len)) (m := ⟨m.time + n * len, m.zone⟩) (n := -n)
      hw hu (by unfold Near; dsimp only; omega) (by omega)
      (by unfold Near; dsimp only; rw [Int.neg_mul]; omega) false n (by simp) tz'
    dsimp only at this ⊢
    rw [this, Int.neg_mul, Int.add_neg_cancel_right]

/-- A day over the change in spring. -/
example : Moderate (fun _ => amsterdam) ⟨1711800000, [65]⟩ 1 ∧ fixedLength .day = some 86400 ∧
    amsterdam.off 1711800000 ≠ amsterdam.off (1711800000 + 1 * 86400) := by
  refine ⟨⟨by decide, by decide, ?_⟩, rfl, by decide⟩
  intro b; cases b <;> decide

/-- **C112**: adding days and weeks (or the smaller units): the date that is then shown is off by the difference of the
offsets of the zone before and after. -/
theorem C112_shift : ∃ f, ClockFace f ∧ ∀ (z : Text → Zone) (pick : Int → Bool) (w : Words), WordsApart w →
    ∀ (m : Moment) (n len : Int) (u : Unit') (tz : Text) (m' : Moment) (t : Text), fixedLength u = some len → Moderate z m n →
      Summer.add z pick w n (some (wordOf w u)) m tz = .ok (m', t) →
        Reads z m (f (m.time + (z m.zone).off m.time)) ∧
        Reads z m' (f (m.time + (z m.zone).off m.time + n * len + ((z m.zone).off m'.time - (z m.zone).off m.time))) := by
  refine ⟨face, face_clock, ?_⟩
  intro z pick w hw m n len u tz m' t hu h hadd
  obtain ⟨m1, t1, g1, g2, g3, _⟩ := C112_move z pick w hw m n len u hu h tz tz
  rw [hadd] at g1
  injection g1 with g1
  injection g1 with g1 _
  subst g1
  obtain ⟨h1, h2, h3⟩ := h
  have hl : 0 < len ∧ len ≤ 604800 := by
    cases u <;> first | (injection hu with hu; omega) | cases hu
  have hb : -181440000000000 ≤ n * len ∧ n * len ≤ 181440000000000 := by
    have a1 : n * len ≤ 300000000 * len := Int.mul_le_mul_of_nonneg_right h2.2 (by omega)
    have a2 : -300000000 * len ≤ n * len := Int.mul_le_mul_of_nonneg_right h2.1 (by omega)
    omega
  have o : ∀ t, -1000000 ≤ (z m.zone).off t ∧ (z m.zone).off t ≤ 1000000 := fun t => h3 _
  have o1 := o m.time
  have o2 := o m'.time
  refine ⟨reads_iff.2 ⟨near_year (by unfold Near; omega), rfl⟩, reads_iff.2 ⟨near_year (by unfold Near; rw [g3]; omega), ?_⟩⟩
  rw [g3]
  congr 1
  omega

example : (Summer.add (fun _ => amsterdam) (fun _ => true) englishWords 1 (some englishWords.day) ⟨1711800000, [65]⟩ utc)
    = .ok (⟨1711886400, [65]⟩, utc) := by decide +kernel

/-- **C112** for moments between which the offset of the zone is the same: after adding days or weeks the moment shows the
same time of day, and after adding months or years the same day of the month and the same time of day (if that month has
such a day). -/
theorem C112_partial (z : Text → Zone) (pick : Int → Bool) (w : Words) (hw : WordsApart w) (m : Moment) (d : DateTime) (n : Int)
    (u : Unit') (tz : Text) (m' : Moment) (t : Text) (h : Moderate z m n) (hr : Reads z m d)
    (hadd : Summer.add z pick w n (some (wordOf w u)) m tz = .ok (m', t))
    (hoff : (z m.zone).off m'.time = (z m.zone).off m.time) :
    (u = .day ∨ u = .week → ∃ d', Reads z m' d' ∧ d'.hour = d.hour ∧ d'.minute = d.minute ∧ d'.second = d.second) ∧
    (∀ len, lengthInMonths u = some len → (d.plusMonths (n * len)).Valid → (-1000000000 ≤ d.year ∧ d.year ≤ 1000000000) →
      Reads z m' (d.plusMonths (n * len))) := by
  constructor
  · intro hu
    have key : ∀ len, fixedLength u = some len → (∃ k, len = k * 86400) →
        ∃ d', Reads z m' d' ∧ d'.hour = d.hour ∧ d'.minute = d.minute ∧ d'.second = d.second := by
      rintro len hl ⟨k, rfl⟩
      obtain ⟨m1, t1, g1, g2, g3, _⟩ := C112_move z pick w hw m n _ u hl h tz tz
      rw [hadd] at g1
      injection g1 with g1
      injection g1 with g1 _
      subst g1
      obtain ⟨h1, h2, h3⟩ := h
      have hb : -181440000000000 ≤ n * (k * 86400) ∧ n * (k * 86400) ≤ 181440000000000 := by
        have hl : 0 < k * 86400 ∧ k * 86400 ≤ 604800 := by
          cases u <;> first | (injection hl with hl; omega) | cases hl
        have a1 : n * (k * 86400) ≤ 300000000 * (k * 86400) := Int.mul_le_mul_of_nonneg_right h2.2 (by omega)
        have a2 : -300000000 * (k * 86400) ≤ n * (k * 86400) := Int.mul_le_mul_of_nonneg_right h2.1 (by omega)
        omega
      have o1 : -1000000 ≤ (z m.zone).off m.time ∧ (z m.zone).off m.time ≤ 1000000 := h3 _
      refine ⟨face (m'.time + (z m'.zone).off m'.time), reads_iff.2 ⟨near_year ?_, rfl⟩, ?_⟩
      · rw [g3, hoff]; unfold Near; omega
      · rw [(reads_iff.1 hr).2, g3, hoff, g2]
        generalize (z m.zone).off m.time = o
        rw [show m.time + n * (k * 86400) + o = (m.time + o) + (n * k) * 86400 by rw [Int.mul_assoc]; omega]
        generalize m.time + o = T
        generalize n * k = j
        have f : (T + j * 86400) % 86400 = T % 86400 := by omega
        refine ⟨?_, ?_, ?_⟩
        · show (T + j * 86400) % 86400 / 3600 = T % 86400 / 3600
          rw [f]
        · show (T + j * 86400) % 86400 / 60 % 60 = T % 86400 / 60 % 60
          rw [f]
        · show (T + j * 86400) % 86400 % 60 = T % 86400 % 60
          rw [f]
    rcases hu with rfl | rfl
    · exact key 86400 rfl ⟨1, rfl⟩
    · exact key 604800 rfl ⟨7, rfl⟩
  · intro len hl hv hd
    obtain ⟨t1, g1, g2, g3⟩ := Clock.change_months hw hl ((reads_eq z m d).1 hr) hv h.2.1 hd true n (by simp) tz
    have hadd' := hadd
    unfold Summer.add at hadd'
    rw [change_eq, g1] at hadd'
    injection hadd' with e
    injection e with e _
    subst e
    rw [reads_eq]
    dsimp only at hoff ⊢
    rw [hoff]
    exact g3

/-- From 10 July to 10 August. -/
example : Reads (fun _ => amsterdam) ⟨1720605600, [65]⟩ ⟨2024, 7, 10, 12, 0, 0⟩ ∧
    Summer.add (fun _ => amsterdam) (fun _ => true) englishWords 1 (some englishWords.month) ⟨1720605600, [65]⟩ utc
      = .ok (⟨1723284000, [65]⟩, utc) ∧ amsterdam.off 1723284000 = amsterdam.off 1720605600 ∧
    ((⟨2024, 7, 10, 12, 0, 0⟩ : DateTime).plusMonths (1 * 1)).Valid :=
  ⟨reads_iff.2 (by decide +kernel), by decide +kernel, by decide +kernel, by decide, by decide, by decide, by decide, by decide⟩

/-- **C112** in full: a moment moved by days, weeks, months or years shows the same time of day as before, if the clocks of
the zone show that time on the day that is reached. -/
def C112_full : Prop :=
  ∀ (z : Text → Zone) (pick : Int → Bool) (m : Moment) (d : DateTime) (n : Int) (u : Unit') (tz : Text) (m' : Moment) (t : Text),
    (u = .day ∨ u = .week ∨ u = .month ∨ u = .year) → Moderate z m n → Reads z m d →
      Summer.add z pick englishWords n (some (wordOf englishWords u)) m tz = .ok (m', t) →
        ∀ d', Reads z m' d' → (∃ t, Reads z ⟨t, m.zone⟩ ⟨d'.year, d'.month, d'.day, d.hour, d.minute, d.second⟩) →
          d'.hour = d.hour ∧ d'.minute = d.minute ∧ d'.second = d.second

/-- **C112** is violated: noon of the day before the clocks are put forward, one day later, is 13:00. And half past
midnight on 1 July 2024, six months later, shows half past eleven on 31 December 2024. -/
theorem C112_violated : ¬ C112_full ∧ ∃ (z : Text → Zone) (m m' m1 m1' : Moment) (t t1 : Text),
    Reads z m ⟨2024, 3, 30, 12, 0, 0⟩ ∧
    (∀ pick, Summer.add z pick englishWords 1 (some englishWords.day) m utc = .ok (m', t)) ∧
    Reads z m' ⟨2024, 3, 31, 13, 0, 0⟩ ∧
    Reads z m1 ⟨2024, 7, 1, 0, 30, 0⟩ ∧
    (∀ pick, Summer.add z pick englishWords 6 (some englishWords.month) m1 utc = .ok (m1', t1)) ∧
    Reads z m1' ⟨2024, 12, 31, 23, 30, 0⟩ := by
  have r1 : Reads (fun _ => amsterdam) ⟨1711796400, [65]⟩ ⟨2024, 3, 30, 12, 0, 0⟩ := reads_iff.2 (by decide +kernel)
  have r2 : Reads (fun _ => amsterdam) ⟨1711882800, [65]⟩ ⟨2024, 3, 31, 13, 0, 0⟩ := reads_iff.2 (by decide +kernel)
  have a1 : ∀ pick, Summer.add (fun _ => amsterdam) pick englishWords 1 (some englishWords.day) ⟨1711796400, [65]⟩ utc
      = .ok (⟨1711882800, [65]⟩, utc) := fun pick => by
    show Summer.change _ pick _ _ _ _ _ _ = _
    rw [change_eq]; decide +kernel
  refine ⟨?_, fun _ => amsterdam, ⟨1711796400, [65]⟩, ⟨1711882800, [65]⟩, ⟨1719786600, [65]⟩, ⟨1735684200, [65]⟩, utc, utc,
    r1, a1, r2, reads_iff.2 (by decide +kernel), fun pick => ?_, reads_iff.2 (by decide +kernel)⟩
  · intro hf
    have hm : Moderate (fun _ => amsterdam) ⟨1711796400, [65]⟩ 1 := by
      refine ⟨by decide, by decide, ?_⟩
      intro b; cases b <;> decide
    have h2 := hf (fun _ => amsterdam) (fun _ => true) ⟨1711796400, [65]⟩ _ 1 .day utc _ _ (Or.inl rfl) hm r1 (a1 _) _ r2
      ⟨1711879200, reads_iff.2 (by decide +kernel)⟩
    exact absurd h2.1 (by decide)
  · show Summer.change _ pick _ _ _ _ _ _ = _
    rw [change_eq]; decide +kernel

end Verif.Props.Summer
