import Verif.Lemmas.Clock

/-!
# Properties of moments (C39, C56, C57)
-/

namespace Verif.Props.Clock
open Verif Verif.Model Verif.Model.Clock Verif.Spec Verif.Lemmas.Clock

/-- The message for a part of the date. -/
def toPart : DatePart → Part
  | .year => .year
  | .month => .month
  | .day => .day
  | .hour => .hour
  | .minute => .minute
  | .second => .second

/-- Asking the moment for its parts answers those of `d`. -/
def Reads (z : Zones) (m : Moment) (d : DateTime) : Prop :=
  ∀ p tz, ∃ tz', getPart z (toPart p) m tz = .ok (d.part p, tz')

/-- Times within 300 million years of 1970. -/
def Near (t : Int) : Prop := -10000000000000000 ≤ t ∧ t ≤ 10000000000000000

instance (t : Int) : Decidable (Near t) := by unfold Near; infer_instance

theorem near_year {t : Int} (h : Near t) : InInt (breakDown t).year := by
  obtain ⟨h1, h2⟩ := yearOf_spec (t / 86400)
  unfold Near at h
  show InInt (yearOf (t / 86400) - 1900)
  generalize yearOf (t / 86400) = y at h1 h2 ⊢
  unfold yearStart at h1 h2
  unfold InInt
  omega

theorem ok_bind' {α β : Type} (a : α) (f : α → Out β) : (Out.ok a).bind f = f a := rfl

theorem localtime_ok {z : Zones} {tz : Text} {t : Int} (h : InInt (breakDown (t + z tz)).year) :
    localtime z tz t = .ok (breakDown (t + z tz)) := by
  unfold localtime
  exact if_pos h

theorem mktime_ok {z : Zones} {tz : Text} {d : Tm} (h : InInt (breakDown (seconds d)).year) :
    mktime z tz d = seconds d - z tz := by
  unfold mktime
  exact if_pos h

theorem reads_face {z : Zones} {m : Moment} (h : InInt (breakDown (m.time + z m.zone)).year) :
    Reads z m (face (m.time + z m.zone)) := by
  intro p tz
  refine ⟨utc, ?_⟩
  unfold getPart
  rw [localtime_ok h]
  cases p <;> rfl

theorem reads_unique {z : Zones} {m : Moment} {d e : DateTime} (h1 : Reads z m d) (h2 : Reads z m e) : d = e := by
  have h : ∀ p, d.part p = e.part p := by
    intro p
    obtain ⟨_, a⟩ := h1 p []
    obtain ⟨_, b⟩ := h2 p []
    rw [a] at b
    injection b with b
    injection b
  have a1 := h .year; have a2 := h .month; have a3 := h .day; have a4 := h .hour; have a5 := h .minute; have a6 := h .second
  cases d; cases e
  simp only [DateTime.part] at a1 a2 a3 a4 a5 a6
  subst a1 a2 a3 a4 a5 a6
  rfl

theorem reads_iff {z : Zones} {m : Moment} {d : DateTime} :
    Reads z m d ↔ InInt (breakDown (m.time + z m.zone)).year ∧ d = face (m.time + z m.zone) := by
  constructor
  · intro h
    have hi : InInt (breakDown (m.time + z m.zone)).year := by
      obtain ⟨_, a⟩ := h .year []
      unfold getPart localtime at a
      by_cases hh : InInt (breakDown (m.time + z m.zone)).year
      · exact hh
      · rw [if_neg hh] at a; cases a
    exact ⟨hi, reads_unique h (reads_face hi)⟩
  · rintro ⟨h, rfl⟩
    exact reads_face h

/-- **C56**: the year, month, day, hour, minute and second of a moment are what a clock and a calendar in its zone show,
for every zone with a fixed offset and every moment within 300 million years. -/
theorem C56_read : ∃ f, ClockFace f ∧ ∀ (z : Zones) (m : Moment), Near (m.time + z m.zone) →
    Reads z m (f (m.time + z m.zone)) :=
  ⟨face, face_clock, fun _ _ h => reads_face (near_year h)⟩

example : Near (1700000000 + (fun _ => 3600 : Zones) [65]) := by decide

/-- **C56**: giving a moment another zone keeps the point in time: it then shows what a clock in that zone shows. -/
theorem C56_zone : ∃ f, ClockFace f ∧ ∀ (z : Zones) (m : Moment) (d : DateTime) (zone : Text), Reads z m d →
    Near (m.time + z m.zone) → Near (m.time + z zone) →
    d = f (m.time + z m.zone) ∧ Reads z (setZone zone m) (f (m.time + z m.zone + (z zone - z m.zone))) := by
  refine ⟨face, face_clock, ?_⟩
  intro z m d zone hr _ h
  refine ⟨(reads_iff.1 hr).2, ?_⟩
  rw [show m.time + z m.zone + (z zone - z m.zone) = m.time + z zone by omega]
  exact reads_face (m := setZone zone m) (near_year h)

example : Near (1700000000 + 3600) ∧ Near (1700000000 - 7200) := by decide

/-- The code does not leave the zone of the process alone: reading or setting a part of a moment sets the environment
variable `TZ` to the text `UTC`, whatever it was before. -/
theorem C56_environment_violated (z : Zones) (p : Part) (v : Int) (m m' : Moment) (tz tz' : Text) (a : Int) :
    (getPart z p m tz = .ok (a, tz') → tz' = [85, 84, 67]) ∧ (setPart z p v m tz = .ok (m', tz') → tz' = [85, 84, 67]) := by
  constructor
  · intro h
    unfold getPart at h
    cases hl : localtime z m.zone m.time with
    | ok d => rw [hl] at h; cases h; rfl
    | ub => rw [hl] at h; cases h
    | exit => rw [hl] at h; cases h
  · intro h
    unfold setPart at h
    cases hl : localtime z m.zone m.time with
    | ok d =>
      rw [hl] at h
      simp only [Out.bind] at h
      split at h
      · cases h; rfl
      · cases h
    | ub => rw [hl] at h; cases h
    | exit => rw [hl] at h; cases h

example : getPart (fun _ => 0) .year ⟨1700000000, [65]⟩ [66] = .ok (2023, [85, 84, 67]) ∧
    setPart (fun _ => 0) .hour 3 ⟨1700000000, [65]⟩ [66] = .ok (⟨1699930800, [65]⟩, [85, 84, 67]) := by
  constructor <;> rfl

/-- **C56**: setting a part of a moment. The moment then shows that part as set, the larger parts as before, and the
smaller parts at their beginning, whenever there is such a date; its zone stays. -/
theorem C56_set (z : Zones) (m : Moment) (d : DateTime) (p : DatePart) (v : Int) (h : Reads z m d)
    (hv : (d.put p v).Valid) (hy : p = .year → InInt (v - 1900)) (tz : Text) :
    ∃ m' tz', setPart z (toPart p) v m tz = .ok (m', tz') ∧ m'.zone = m.zone ∧ Reads z m' (d.put p v) := by
  obtain ⟨hi, rfl⟩ := reads_iff.1 h
  have hsec : seconds (assign (toPart p) v (breakDown (m.time + z m.zone)))
      = seconds (ofDate ((face (m.time + z m.zone)).put p v)) := by
    unfold face
    generalize breakDown (m.time + z m.zone) = d
    unfold seconds
    cases p
    · rfl
    · show dayOf d.year (v - 1) 1 * 86400 + _ + _ + _ = dayOf (d.year + 1900 - 1900) (v - 1) 1 * 86400 + _ + _ + _
      rw [Int.add_sub_cancel]; rfl
    all_goals
      show dayOf d.year d.mon _ * 86400 + _ + _ + _ = dayOf (d.year + 1900 - 1900) (d.mon + 1 - 1) _ * 86400 + _ + _ + _
      rw [Int.add_sub_cancel, Int.add_sub_cancel]; rfl
  have hf := face_seconds hv
  have hyear : (breakDown (seconds (ofDate ((face (m.time + z m.zone)).put p v)))).year
      = ((face (m.time + z m.zone)).put p v).year - 1900 := by
    have := congrArg DateTime.year hf
    rw [← this]
    show _ = (breakDown _).year + 1900 - 1900
    rw [Int.add_sub_cancel]
  have hin : InInt (breakDown (seconds (ofDate ((face (m.time + z m.zone)).put p v)))).year := by
    rw [hyear]
    by_cases hp : p = .year
    · subst hp; exact hy rfl
    · have : ((face (m.time + z m.zone)).put p v).year = (breakDown (m.time + z m.zone)).year + 1900 := by
        cases p
        · exact absurd rfl hp
        all_goals rfl
      rw [this, Int.add_sub_cancel]
      exact hi
  have hc : InInt (converted (toPart p) v) := by
    have h1 := hv.month; have h2 := hv.day; have h3 := hv.hour; have h4 := hv.minute; have h5 := hv.second
    rw [monthLength_eq] at h2
    have hml := mlen_le (leap ((face (m.time + z m.zone)).put p v).year) (((face (m.time + z m.zone)).put p v).month - 1)
    cases p
    · exact hy rfl
    · have h1 : 1 ≤ v ∧ v ≤ 12 := h1
      show InInt (v - 1)
      unfold InInt; omega
    · have h2 : 1 ≤ v ∧ v ≤ _ := h2
      show InInt v
      unfold InInt; omega
    · have h3 : 0 ≤ v ∧ v < 24 := h3
      show InInt v
      unfold InInt; omega
    · have h4 : 0 ≤ v ∧ v < 60 := h4
      show InInt v
      unfold InInt; omega
    · have h5 : 0 ≤ v ∧ v < 60 := h5
      show InInt v
      unfold InInt; omega
  refine ⟨⟨seconds (ofDate ((face (m.time + z m.zone)).put p v)) - z m.zone, m.zone⟩, utc, ?_, rfl, ?_⟩
  · unfold setPart
    rw [localtime_ok hi]
    show (if InInt (converted (toPart p) v) then Out.ok ({ m with time := mktime z m.zone (assign (toPart p) v (breakDown (m.time + z m.zone))) }, utc) else .ub) = _
    rw [if_pos hc, mktime_ok (by rw [hsec]; exact hin), hsec]
  · rw [reads_iff]
    dsimp only
    rw [Int.sub_add_cancel]
    exact ⟨hin, hf.symm⟩

/-- 29 February 2024 exists. -/
example : Reads (fun _ => 0) ⟨1708000000, [65]⟩ ⟨2024, 2, 15, 12, 26, 40⟩ ∧
    ((⟨2024, 2, 15, 12, 26, 40⟩ : DateTime).put .day 29).Valid :=
  ⟨reads_iff.2 (by decide +kernel), by decide, by decide, by decide, by decide, by decide⟩

/-- **C56**: a date that exists can be built part by part, starting from any moment. -/
theorem C56_build (z : Zones) (m : Moment) (d0 d : DateTime) (h : Reads z m d0) (hv : d.Valid) (hy : InInt (d.year - 1900))
    (tz : Text) :
    ∃ m1 m2 m3 m4 m5 m6 t1 t2 t3 t4 t5 t6, setPart z .year d.year m tz = .ok (m1, t1) ∧
      setPart z .month d.month m1 t1 = .ok (m2, t2) ∧ setPart z .day d.day m2 t2 = .ok (m3, t3) ∧
      setPart z .hour d.hour m3 t3 = .ok (m4, t4) ∧ setPart z .minute d.minute m4 t4 = .ok (m5, t5) ∧
      setPart z .second d.second m5 t5 = .ok (m6, t6) ∧ Reads z m6 d := by
  have hl := mlen_le (leap d.year) (d.month - 1)
  have e1 := monthLength_eq d.year d.month
  obtain ⟨m1, t1, h1, _, r1⟩ := C56_set z m d0 .year d.year h
    ⟨by show (1 : Int) ≤ 1 ∧ (1 : Int) ≤ 12; omega, by show (1 : Int) ≤ 1 ∧ (1 : Int) ≤ monthLength d.year 1; rw [show monthLength d.year 1 = 31 from rfl]; omega,
      by show (0 : Int) ≤ 0 ∧ (0 : Int) < 24; omega, by show (0 : Int) ≤ 0 ∧ (0 : Int) < 60; omega,
      by show (0 : Int) ≤ 0 ∧ (0 : Int) < 60; omega⟩ (fun _ => hy) tz
  obtain ⟨m2, t2, h2, _, r2⟩ := C56_set z m1 _ .month d.month r1
    ⟨hv.month, by show (1 : Int) ≤ 1 ∧ (1 : Int) ≤ monthLength d.year d.month; omega,
      by show (0 : Int) ≤ 0 ∧ (0 : Int) < 24; omega, by show (0 : Int) ≤ 0 ∧ (0 : Int) < 60; omega,
      by show (0 : Int) ≤ 0 ∧ (0 : Int) < 60; omega⟩ (fun h => by cases h) t1
  obtain ⟨m3, t3, h3, _, r3⟩ := C56_set z m2 _ .day d.day r2
    ⟨hv.month, hv.day, by show (0 : Int) ≤ 0 ∧ (0 : Int) < 24; omega, by show (0 : Int) ≤ 0 ∧ (0 : Int) < 60; omega,
      by show (0 : Int) ≤ 0 ∧ (0 : Int) < 60; omega⟩ (fun h => by cases h) t2
  obtain ⟨m4, t4, h4, _, r4⟩ := C56_set z m3 _ .hour d.hour r3
    ⟨hv.month, hv.day, hv.hour, by show (0 : Int) ≤ 0 ∧ (0 : Int) < 60; omega,
      by show (0 : Int) ≤ 0 ∧ (0 : Int) < 60; omega⟩ (fun h => by cases h) t3
  obtain ⟨m5, t5, h5, _, r5⟩ := C56_set z m4 _ .minute d.minute r4
    ⟨hv.month, hv.day, hv.hour, hv.minute, by show (0 : Int) ≤ 0 ∧ (0 : Int) < 60; omega⟩ (fun h => by cases h) t4
  obtain ⟨m6, t6, h6, _, r6⟩ := C56_set z m5 _ .second d.second r5
    ⟨hv.month, hv.day, hv.hour, hv.minute, hv.second⟩ (fun h => by cases h) t5
  exact ⟨m1, m2, m3, m4, m5, m6, t1, t2, t3, t4, t5, t6, h1, h2, h3, h4, h5, h6, r6⟩

example : (⟨2000, 2, 29, 23, 59, 59⟩ : DateTime).Valid ∧ InInt (2000 - 1900) ∧
    Reads (fun _ => 3600) ⟨1708000000, [65]⟩ ⟨2024, 2, 15, 13, 26, 40⟩ :=
  ⟨⟨by decide, by decide, by decide, by decide, by decide⟩, by decide, reads_iff.2 (by decide +kernel)⟩

/-! ## Comparing -/

theorem strncmp_eq : ∀ (a b : Text), (∀ c ∈ a, c ≠ 0) →
    (a <+: b → Txt.strncmp a b a.length = .ok .eq) ∧
    (¬ a <+: b → ¬ b <+: a → ∃ o, Txt.strncmp a b a.length = .ok o ∧ o ≠ .eq) ∧
    (¬ a <+: b → b <+: a → Txt.strncmp a b a.length = .ub)
  | [], b, _ => ⟨fun _ => by unfold Txt.strncmp; rfl, fun h => absurd (List.nil_prefix) h, fun h => absurd (List.nil_prefix) h⟩
  | x :: a, [], _ => by
    refine ⟨fun h => by simp at h, fun _ h => absurd List.nil_prefix h, fun _ _ => ?_⟩
    unfold Txt.strncmp; rfl
  | x :: a, y :: b, h => by
    obtain ⟨h1, h2, h3⟩ := strncmp_eq a b (fun c hc => h c (List.mem_cons_of_mem _ hc))
    have hx : x ≠ 0 := h x List.mem_cons_self
    have hs : Txt.strncmp (x :: a) (y :: b) (x :: a).length =
        if x ≠ y then .ok (compare x.toNat y.toNat) else if x = 0 then .ok .eq else Txt.strncmp a b a.length := by
      conv => lhs; unfold Txt.strncmp
      rfl
    rw [hs]
    by_cases e : x = y
    · subst e
      rw [if_neg (fun h => h rfl), if_neg hx]
      simp only [List.cons_prefix_cons, true_and]
      exact ⟨h1, h2, h3⟩
    · rw [if_pos e]
      refine ⟨fun h => absurd (List.cons_prefix_cons.1 h).1 e, fun _ _ => ⟨_, rfl, ?_⟩,
        fun _ h => absurd (List.cons_prefix_cons.1 h).1.symm e⟩
      intro hh
      exact e (UInt8.toNat_inj.1 (Nat.compare_eq_eq.1 hh))

/-- **C39**: what comparing two moments answers. With different times the moments differ. With the same time they are
reported equal if the zone of the receiver is a beginning of the other zone, and memory outside the other zone is read
if it is the other way round. -/
theorem C39_equals (m o : Moment) (h : ∀ c ∈ m.zone, c ≠ 0) :
    (m.time ≠ o.time → equals m (some o) = .ok false) ∧
    (m.time = o.time → m.zone <+: o.zone → equals m (some o) = .ok true) ∧
    (m.time = o.time → ¬ m.zone <+: o.zone → ¬ o.zone <+: m.zone → equals m (some o) = .ok false) ∧
    (m.time = o.time → ¬ m.zone <+: o.zone → o.zone <+: m.zone → equals m (some o) = .ub) := by
  obtain ⟨h1, h2, h3⟩ := strncmp_eq m.zone o.zone h
  unfold equals
  dsimp only
  refine ⟨fun e => if_neg e, fun e hp => ?_, fun e hp hp' => ?_, fun e hp hp' => ?_⟩
  · rw [if_pos e, h1 hp]; rfl
  · obtain ⟨r, hr, hne⟩ := h2 hp hp'
    rw [if_pos e, hr]
    show Out.ok (r == .eq) = .ok false
    cases r
    · rfl
    · exact absurd rfl hne
    · rfl
  · rw [if_pos e, h3 hp hp']; rfl

/-- Zones of which none is a proper beginning of another. -/
def ZonesApart (zs : List Text) : Prop := ∀ a ∈ zs, (∀ c ∈ a, c ≠ 0) ∧ ∀ b ∈ zs, a <+: b → a = b

/-- **C39** for moments in zones of which none is a proper beginning of another: comparing never fails, and two moments
are equal exactly if they have the same time and the same zone; so it is an equivalence. A moment equals itself and its
copy. -/
theorem C39_partial (zs : List Text) (hz : ZonesApart zs) (m o : Moment) (hm : m.zone ∈ zs) (ho : o.zone ∈ zs) :
    (∃ b, equals m (some o) = .ok b ∧ neq m (some o) = .ok (!b) ∧ (b = true ↔ m.time = o.time ∧ m.zone = o.zone)) ∧
    equals m (some m) = .ok true ∧ equals m (some (copy m)) = .ok true := by
  have hself : equals m (some m) = .ok true := (C39_equals m m (hz _ hm).1).2.1 rfl (List.prefix_refl _)
  refine ⟨?_, hself, hself⟩
  obtain ⟨h1, h2, h3, _⟩ := C39_equals m o (hz _ hm).1
  have key : ∀ b, equals m (some o) = .ok b → neq m (some o) = .ok (!b) := by
    intro b hb
    unfold neq
    rw [hb]; rfl
  by_cases ht : m.time = o.time
  · by_cases hp : m.zone <+: o.zone
    · exact ⟨true, h2 ht hp, key _ (h2 ht hp), fun _ => ⟨ht, (hz _ hm).2 _ ho hp⟩, fun _ => rfl⟩
    · have hp' : ¬ o.zone <+: m.zone := fun h => hp (by rw [(hz _ ho).2 _ hm h]; exact List.prefix_refl _)
      exact ⟨false, h3 ht hp hp', key _ (h3 ht hp hp'), (fun h => by cases h),
        (fun h => absurd (by rw [h.2]; exact List.prefix_refl _) hp)⟩
  · refine ⟨false, h1 ht, key _ (h1 ht), fun h => (by cases h), fun h => absurd h.1 ht⟩

/-- `UTC` and `Europe/London`. -/
example : ZonesApart [utc, [69, 117, 114, 111, 112, 101, 47, 76, 111, 110, 100, 111, 110]] := by unfold ZonesApart; decide

/-- **C39** is violated: comparing is not symmetric. `UTC` and `UTC+1` at the same time: equal in one direction, memory
outside the text is read in the other. -/
theorem C39_violated : ∃ m o : Moment, equals m (some o) = .ok true ∧ m.zone ≠ o.zone ∧ equals o (some m) = .ub :=
  ⟨⟨0, utc⟩, ⟨0, utc ++ [43, 49]⟩, by decide, by decide, by decide⟩

/-- **C39** is violated: comparing a moment with something that is not a moment uses address 0. -/
theorem C39_violated_other (m : Moment) : equals m none = .ub ∧ neq m none = .ub := ⟨rfl, rfl⟩

/-! ## Moving -/

/-- The word for a unit. -/
def wordOf (w : Words) : Unit' → Text
  | .hour => w.hour
  | .minute => w.minute
  | .second => w.second
  | .day => w.day
  | .month => w.month
  | .year => w.year
  | .week => w.week

/-- No word for a unit is a beginning of one that is looked for earlier, and no word contains a NUL byte. -/
structure WordsApart (w : Words) : Prop where
  apart : [w.hour, w.minute, w.second, w.day, w.month, w.year, w.week].Pairwise (fun a b => ¬ b <+: a)
  nul : ∀ u, ∀ c ∈ wordOf w u, c ≠ 0

/-- The English words. -/
def englishWords : Words :=
  ⟨[104, 111, 117, 114], [109, 105, 110, 117, 116, 101], [115, 101, 99, 111, 110, 100], [100, 97, 121],
    [109, 111, 110, 116, 104], [121, 101, 97, 114], [119, 101, 101, 107]⟩

theorem english_apart : WordsApart englishWords := by
  refine ⟨by decide, ?_⟩
  intro u
  cases u <;> decide

theorem startsWord_iff {a w : Text} (h : ∀ c ∈ a, c ≠ 0) : startsWord a w = true ↔ a <+: w := by
  obtain ⟨h1, h2, h3⟩ := strncmp_eq a (w ++ [0]) h
  have hz : ¬ (w ++ [0]) <+: a := by
    intro hp
    obtain ⟨r, hr⟩ := hp
    exact h 0 (by rw [← hr]; simp) rfl
  unfold startsWord
  constructor
  · intro hh
    have hh := eq_of_beq hh
    by_cases hp : a <+: w ++ [0]
    · rcases List.prefix_concat_iff.1 hp with e | e
      · exact absurd (by rw [e]; exact List.prefix_refl _) hz
      · exact e
    · obtain ⟨o, ho, hne⟩ := h2 hp hz
      rw [ho] at hh
      injection hh with hh
      exact absurd hh hne
  · intro hp
    rw [h1 (hp.trans (List.prefix_append _ _))]
    rfl

theorem unitOf_word {w : Words} (hw : WordsApart w) (u : Unit') : unitOf w (wordOf w u) = some u := by
  have hs : ∀ v, startsWord (wordOf w u) (wordOf w v) = true ↔ wordOf w u <+: wordOf w v :=
    fun v => startsWord_iff (hw.nul u)
  have hself := (hs u).2 (List.prefix_refl _)
  have hno : ∀ v, (¬ wordOf w u <+: wordOf w v) → ¬ startsWord (wordOf w u) (wordOf w v) = true :=
    fun v h hh => h ((hs v).1 hh)
  have ha := hw.apart
  simp only [List.pairwise_cons, List.mem_cons, List.not_mem_nil, or_false, forall_eq_or_imp, forall_eq,
    List.Pairwise.nil, and_true, false_imp_iff, implies_true] at ha
  obtain ⟨⟨a1, a2, a3, a4, a5, a6⟩, ⟨b2, b3, b4, b5, b6⟩, ⟨c3, c4, c5, c6⟩, ⟨d4, d5, d6⟩, ⟨e5, e6⟩, f6⟩ := ha
  unfold unitOf
  cases u
  · exact if_pos hself
  · refine (if_neg (hno .hour a1)).trans (?_); exact if_pos hself
  · refine (if_neg (hno .hour a2)).trans ((if_neg (hno .minute b2)).trans (?_)); exact if_pos hself
  · refine (if_neg (hno .hour a3)).trans ((if_neg (hno .minute b3)).trans ((if_neg (hno .second c3)).trans (?_))); exact if_pos hself
  · refine (if_neg (hno .hour a4)).trans ((if_neg (hno .minute b4)).trans ((if_neg (hno .second c4)).trans ((if_neg (hno .day d4)).trans (?_)))); exact if_pos hself
  · refine (if_neg (hno .hour a5)).trans ((if_neg (hno .minute b5)).trans ((if_neg (hno .second c5)).trans ((if_neg (hno .day d5)).trans ((if_neg (hno .month e5)).trans (?_))))); exact if_pos hself
  · refine (if_neg (hno .hour a6)).trans ((if_neg (hno .minute b6)).trans ((if_neg (hno .second c6)).trans ((if_neg (hno .day d6)).trans ((if_neg (hno .month e6)).trans ((if_neg (hno .year f6)).trans (?_)))))); exact if_pos hself

/-- Seconds of the units that have a fixed length. -/
def fixedLength : Unit' → Option Int
  | .second => some 1
  | .minute => some 60
  | .hour => some 3600
  | .day => some 86400
  | .week => some 604800
  | .month => none
  | .year => none

/-- Moments within 30 million years, and amounts up to 300 million: no overflow. -/
def Moderate (z : Zones) (m : Moment) (n : Int) : Prop :=
  (-1000000000000000 ≤ m.time + z m.zone ∧ m.time + z m.zone ≤ 1000000000000000) ∧ -300000000 ≤ n ∧ n ≤ 300000000

theorem change_fixed {z : Zones} {w : Words} (hw : WordsApart w) {m : Moment} {n len : Int} {u : Unit'}
    (hu : fixedLength u = some len) (hm : Near (m.time + z m.zone)) (hn : -300000000 ≤ n ∧ n ≤ 300000000)
    (hm' : Near (m.time + z m.zone + n * len)) (forward : Bool) (k : Int) (hk : k * (if forward then 1 else -1) = n)
    (tz : Text) :
    change z w forward k (some (wordOf w u)) m tz = .ok (⟨m.time + n * len, m.zone⟩, utc) := by
  have hok := breakDown_ok (m.time + z m.zone)
  have hsec := seconds_breakDown (m.time + z m.zone)
  have h1 := hok.mday; have h2 := hok.hour; have h3 := hok.min; have h4 := hok.sec
  have hml := mlen_le (leap ((breakDown (m.time + z m.zone)).year + 1900)) (breakDown (m.time + z m.zone)).mon
  unfold change
  dsimp only
  rw [localtime_ok (near_year hm), hk]
  show (match unitOf w (wordOf w u) with | none => _ | some u => _) = _
  rw [unitOf_word hw u]
  dsimp only
  generalize breakDown (m.time + z m.zone) = d at *
  have hf : InInt (moveField u n d) := by
    unfold moveField InInt
    cases u
    all_goals first
      | (dsimp only; omega)
      | cases hu
  have hs : seconds (moveTm u n d) = m.time + z m.zone + n * len := by
    rw [← hsec]
    unfold seconds moveTm moveField dayOf
    cases u <;> first | (injection hu with hu; subst hu; dsimp only; omega) | cases hu
  rw [if_pos hf, mktime_ok (by rw [hs]; exact near_year hm'), hs]
  rw [show m.time + z m.zone + n * len - z m.zone = m.time + n * len by omega]

/-- **C39**: adding an amount of seconds, minutes, hours, days or weeks moves the moment by exactly that time, and
subtracting the same amount restores it. -/
theorem C39_move_partial (z : Zones) (w : Words) (hw : WordsApart w) (m : Moment) (n len : Int) (u : Unit')
    (hu : fixedLength u = some len) (h : Moderate z m n) (tz tz' : Text) :
    ∃ m' t, add z w n (some (wordOf w u)) m tz = .ok (m', t) ∧ m'.time = m.time + n * len ∧ m'.zone = m.zone ∧
      ∃ t', subtract z w n (some (wordOf w u)) m' tz' = .ok (m, t') := by
  obtain ⟨h1, h2⟩ := h
  have hl : 0 < len ∧ len ≤ 604800 := by
    cases u <;> first | (injection hu with hu; omega) | cases hu
  have hb : -181440000000000 ≤ n * len ∧ n * len ≤ 181440000000000 := by
    have a1 : n * len ≤ 300000000 * len := Int.mul_le_mul_of_nonneg_right h2.2 (by omega)
    have a2 : -300000000 * len ≤ n * len := Int.mul_le_mul_of_nonneg_right h2.1 (by omega)
    omega
  refine ⟨_, _, change_fixed hw hu (by unfold Near; omega) h2 (by unfold Near; omega) true n (by simp) tz, rfl, rfl,
    utc, ?_⟩
  have := change_fixed (m := ⟨m.time + n * len, m.zone⟩) (n := -n) hw hu
    (by unfold Near; show _ ≤ m.time + n * len + z m.zone ∧ m.time + n * len + z m.zone ≤ _; omega) (by omega)
    (by
      show Near (m.time + n * len + z m.zone + -n * len)
      rw [Int.neg_mul]; unfold Near; omega) false n (by simp) tz'
  unfold subtract
  rw [this]
  dsimp only
  rw [Int.neg_mul, Int.add_neg_cancel_right]

example : Moderate (fun _ => 3600) ⟨1700000000, [65]⟩ (-100) ∧ fixedLength .week = some 604800 ∧ WordsApart englishWords :=
  ⟨by unfold Moderate; decide, rfl, english_apart⟩

/-- **C39** is violated for months (and years): one month after 31 January is 2 or 3 March, one month before that is not
31 January. -/
theorem C39_move_violated : ∃ m m' t m'' t', add (fun _ => 0) englishWords 1 (some englishWords.month) m utc = .ok (m', t) ∧
    subtract (fun _ => 0) englishWords 1 (some englishWords.month) m' t = .ok (m'', t') ∧ m''.time ≠ m.time ∧
    Reads (fun _ => 0) m ⟨2023, 1, 31, 0, 0, 0⟩ ∧ Reads (fun _ => 0) m'' ⟨2023, 2, 3, 0, 0, 0⟩ :=
  ⟨⟨1675123200, utc⟩, ⟨1677801600, utc⟩, utc, ⟨1675382400, utc⟩, utc, by decide +kernel, by decide +kernel, by decide,
    reads_iff.2 (by decide +kernel), reads_iff.2 (by decide +kernel)⟩

/-- **C39**: a number without a unit, or with a unit that is not a beginning of a known one, leaves the moment as it is. -/
theorem C39_unknown (z : Zones) (w : Words) (m : Moment) (d : DateTime) (hr : Reads z m d) (n : Int) (tz : Text) :
    add z w n none m tz = .ok (m, tz) ∧ subtract z w n none m tz = .ok (m, tz) ∧
    ∀ q : Text, (∀ c ∈ q, c ≠ 0) → (∀ u, ¬ q <+: wordOf w u) →
      add z w n (some q) m tz = .ok (m, utc) ∧ subtract z w n (some q) m tz = .ok (m, utc) := by
  refine ⟨rfl, rfl, ?_⟩
  intro q hq hu
  have hno : ∀ u, ¬ startsWord q (wordOf w u) = true := fun u h => hu u ((startsWord_iff hq).1 h)
  have hun : unitOf w q = none := by
    unfold unitOf
    exact (if_neg (hno .hour)).trans ((if_neg (hno .minute)).trans ((if_neg (hno .second)).trans ((if_neg (hno .day)).trans
      ((if_neg (hno .month)).trans ((if_neg (hno .year)).trans (if_neg (hno .week)))))))
  have hi := (reads_iff.1 hr).1
  have key : ∀ b, change z w b n (some q) m tz = .ok (m, utc) := by
    intro b
    unfold change
    dsimp only
    rw [localtime_ok hi, ok_bind', hun]
    dsimp only
    rw [mktime_ok (by rw [seconds_breakDown]; exact hi), seconds_breakDown, Int.add_sub_cancel]
  exact ⟨key true, key false⟩

/-- `fortnight`. -/
example : ∀ u, ¬ ([102, 111, 114, 116, 110, 105, 103, 104, 116] : Text) <+: wordOf englishWords u := by
  intro u
  cases u <;> decide

/-- Months of the units that have no fixed length. -/
def lengthInMonths : Unit' → Option Int
  | .month => some 1
  | .year => some 12
  | _ => none

theorem change_months {z : Zones} {w : Words} (hw : WordsApart w) {m : Moment} {d : DateTime} {n len : Int} {u : Unit'}
    (hu : lengthInMonths u = some len) (hr : Reads z m d) (hv : (d.plusMonths (n * len)).Valid)
    (hn : -300000000 ≤ n ∧ n ≤ 300000000) (hd : -1000000000 ≤ d.year ∧ d.year ≤ 1000000000)
    (forward : Bool) (k : Int) (hk : k * (if forward then 1 else -1) = n)
    (tz : Text) :
    ∃ t, change z w forward k (some (wordOf w u)) m tz = .ok (⟨t, m.zone⟩, utc) ∧
      t + z m.zone = seconds (ofDate (d.plusMonths (n * len))) ∧ Reads z ⟨t, m.zone⟩ (d.plusMonths (n * len)) := by
  obtain ⟨hi, rfl⟩ := reads_iff.1 hr
  have hok := breakDown_ok (m.time + z m.zone)
  have hmon := hok.mon
  unfold face at *
  unfold change
  dsimp only
  rw [localtime_ok hi, hk]
  rw [ok_bind', unitOf_word hw u]
  dsimp only
  generalize hb : breakDown (m.time + z m.zone) = d at *
  have hyy : -1000000000 ≤ d.year + 1900 ∧ d.year + 1900 ≤ 1000000000 := hd
  have hf : InInt (moveField u n d) := by
    unfold moveField InInt
    cases u
    all_goals first
      | (dsimp only; omega)
      | cases hu
  have hs : seconds (moveTm u n d) = seconds (ofDate ((toDate d).plusMonths (n * len))) := by
    have hl : len = 1 ∧ u = .month ∨ len = 12 ∧ u = .year := by
      cases u <;> first | (injection hu with hu; simp [← hu]) | cases hu
    have hd : dayOf (moveTm u n d).year (moveTm u n d).mon (moveTm u n d).mday
        = dayOf (ofDate ((toDate d).plusMonths (n * len))).year (ofDate ((toDate d).plusMonths (n * len))).mon
            (ofDate ((toDate d).plusMonths (n * len))).mday := by
      rcases hl with ⟨rfl, rfl⟩ | ⟨rfl, rfl⟩
      · show dayOf d.year (d.mon + n) d.mday = dayOf ((12 * (d.year + 1900) + (d.mon + 1 - 1) + n * 1) / 12 - 1900)
          ((12 * (d.year + 1900) + (d.mon + 1 - 1) + n * 1) % 12 + 1 - 1) d.mday
        unfold dayOf
        dsimp only
        rw [show (12 * (d.year + 1900) + (d.mon + 1 - 1) + n * 1) / 12 - 1900 + 1900
            + ((12 * (d.year + 1900) + (d.mon + 1 - 1) + n * 1) % 12 + 1 - 1) / 12 = d.year + 1900 + (d.mon + n) / 12 by omega,
          show ((12 * (d.year + 1900) + (d.mon + 1 - 1) + n * 1) % 12 + 1 - 1) % 12 = (d.mon + n) % 12 by omega]
      · show dayOf (d.year + n) d.mon d.mday = dayOf ((12 * (d.year + 1900) + (d.mon + 1 - 1) + n * 12) / 12 - 1900)
          ((12 * (d.year + 1900) + (d.mon + 1 - 1) + n * 12) % 12 + 1 - 1) d.mday
        unfold dayOf
        dsimp only
        rw [show (12 * (d.year + 1900) + (d.mon + 1 - 1) + n * 12) / 12 - 1900 + 1900
            + ((12 * (d.year + 1900) + (d.mon + 1 - 1) + n * 12) % 12 + 1 - 1) / 12 = d.year + n + 1900 + d.mon / 12 by omega,
          show ((12 * (d.year + 1900) + (d.mon + 1 - 1) + n * 12) % 12 + 1 - 1) % 12 = d.mon % 12 by omega]
    unfold seconds
    rw [hd]
    cases u <;> first | rfl | cases hu
  have hfc := face_seconds hv
  have hyear : (breakDown (seconds (ofDate ((toDate d).plusMonths (n * len))))).year
      = ((toDate d).plusMonths (n * len)).year - 1900 := by
    have := congrArg DateTime.year hfc
    rw [← this]
    show _ = (breakDown _).year + 1900 - 1900
    rw [Int.add_sub_cancel]
  have hin : InInt (breakDown (seconds (ofDate ((toDate d).plusMonths (n * len))))).year := by
    rw [hyear]
    show InInt ((12 * (d.year + 1900) + (d.mon + 1 - 1) + n * len) / 12 - 1900)
    unfold InInt
    have hl : len = 1 ∨ len = 12 := by
      cases u <;> first | (injection hu with hu; simp [← hu]) | cases hu
    rcases hl with rfl | rfl <;> omega
  refine ⟨seconds (ofDate ((toDate d).plusMonths (n * len))) - z m.zone, ?_, Int.sub_add_cancel _ _, ?_⟩
  · rw [if_pos hf, mktime_ok (by rw [hs]; exact hin), hs]
  · rw [reads_iff]
    dsimp only
    rw [Int.sub_add_cancel]
    exact ⟨hin, hfc.symm⟩

/-- **C39** for months and years, when the day exists in the month that is reached: adding leads to the same day and time of
day of that month, and subtracting the same amount restores the moment. -/
theorem C39_months_partial (z : Zones) (w : Words) (hw : WordsApart w) (m : Moment) (d : DateTime) (n len : Int) (u : Unit')
    (hu : lengthInMonths u = some len) (hr : Reads z m d) (hv : (d.plusMonths (n * len)).Valid)
    (hn : -300000000 ≤ n ∧ n ≤ 300000000) (hd : -500000000 ≤ d.year ∧ d.year ≤ 500000000) (tz tz' : Text) :
    ∃ m' t, add z w n (some (wordOf w u)) m tz = .ok (m', t) ∧ m'.zone = m.zone ∧ Reads z m' (d.plusMonths (n * len)) ∧
      ∃ t', subtract z w n (some (wordOf w u)) m' tz' = .ok (m, t') := by
  obtain ⟨t, h1, _, h3⟩ := change_months hw hu hr hv hn (by omega) true n (by simp) tz
  have hdv : d.Valid := by rw [(reads_iff.1 hr).2]; exact face_valid _
  have hm1 := hdv.month
  have hback : (d.plusMonths (n * len)).plusMonths (-n * len) = d := by
    rw [Int.neg_mul]
    generalize n * len = k
    have e1 : (12 * ((12 * d.year + (d.month - 1) + k) / 12) + ((12 * d.year + (d.month - 1) + k) % 12 + 1 - 1) + -k) / 12 = d.year := by omega
    have e2 : (12 * ((12 * d.year + (d.month - 1) + k) / 12) + ((12 * d.year + (d.month - 1) + k) % 12 + 1 - 1) + -k) % 12 + 1 = d.month := by omega
    cases d
    unfold DateTime.plusMonths
    dsimp only at *
    rw [e1, e2]
  have hyear : -1000000000 ≤ (d.plusMonths (n * len)).year ∧ (d.plusMonths (n * len)).year ≤ 1000000000 := by
    show _ ≤ (12 * d.year + (d.month - 1) + n * len) / 12 ∧ (12 * d.year + (d.month - 1) + n * len) / 12 ≤ _
    have hl : len = 1 ∨ len = 12 := by
      cases u <;> first | (injection hu with hu; simp [← hu]) | cases hu
    rcases hl with rfl | rfl <;> omega
  obtain ⟨t2, g1, g2, _⟩ := change_months (n := -n) hw hu h3 (by rw [hback]; exact hdv) (by omega) hyear false n (by simp) tz'
  refine ⟨⟨t, m.zone⟩, utc, h1, rfl, h3, utc, ?_⟩
  unfold subtract
  rw [g1]
  rw [hback, (reads_iff.1 hr).2] at g2
  dsimp only at g2
  rw [seconds_face] at g2
  rw [show t2 = m.time by omega]

/-- One month after 30 January there is a date in a leap year only if the day is at most 29. -/
example : Reads (fun _ => 0) ⟨1706486400, utc⟩ ⟨2024, 1, 29, 0, 0, 0⟩ ∧
    ((⟨2024, 1, 29, 0, 0, 0⟩ : DateTime).plusMonths (1 * 1)).Valid :=
  ⟨reads_iff.2 (by decide +kernel), by decide, by decide, by decide, by decide, by decide⟩

/-! ## Day of the week and day of the year -/

theorem day_changes (t : Int) : (face (t + 1)).day = (face t).day ↔ (t + 1) / 86400 = t / 86400 := by
  have hn := face_clock.next t
  have hv := face_clock.valid t
  have h1 : (face t).hour = t % 86400 / 3600 := rfl
  have h2 : (face t).minute = t % 86400 / 60 % 60 := rfl
  have h3 : (face t).second = t % 86400 % 60 := rfl
  have hd := hv.day
  rw [monthLength_eq] at hd
  have hml := mlen_le (leap (face t).year) ((face t).month - 1)
  rw [hn]
  unfold DateTime.tick
  rw [monthLength_eq, h1, h2, h3]
  split
  · exact ⟨fun _ => by omega, fun _ => rfl⟩
  · split
    · exact ⟨fun _ => by omega, fun _ => rfl⟩
    · split
      · exact ⟨fun _ => by omega, fun _ => rfl⟩
      · split
        · show (face t).day + 1 = (face t).day ↔ _
          omega
        · split
          · show 1 = (face t).day ↔ _
            omega
          · show 1 = (face t).day ↔ _
            omega

theorem weekday_face : WeekdayOf face (fun t => (breakDown t).wday + 1) := by
  have hw : ∀ t, (breakDown t).wday = (t / 86400 + 4) % 7 := fun t => rfl
  refine ⟨by decide, fun t => ?_, fun t h => ?_, fun t h => ?_⟩
  · have := hw t
    omega
  · rw [day_changes] at h
    rw [hw, hw, h]
  · rw [Ne, day_changes] at h
    rw [hw, hw]
    split <;> omega

theorem months_before (y : Int) : ∀ k : Nat, k ≤ 11 →
    ((List.range k).map (fun (k : Nat) => monthLength y ((k : Int) + 1))).sum = monthStart (leap y) k
  | 0, _ => by
    show (0 : Int) = monthStart (leap y) 0
    cases leap y <;> rfl
  | k + 1, h => by
    rw [List.range_succ, List.map_append, List.sum_append, months_before y k (by omega)]
    show monthStart (leap y) k + (monthLength y ((k : Int) + 1) + 0) = monthStart (leap y) ((k : Int) + 1)
    rw [monthStart_step _ _ (by omega), monthLength_eq, Int.add_sub_cancel, Int.add_zero]

theorem yearday_face (t : Int) : (breakDown t).yday = (face t).daysOver := by
  have hmon := (breakDown_ok t).mon
  have hf : (face t).daysOver = ((List.range ((breakDown t).mon + 1 - 1).toNat).map (fun (k : Nat) => monthLength (face t).year ((k : Int) + 1))).sum
      + ((breakDown t).mday - 1) := rfl
  rw [hf, months_before _ _ (by omega), Int.add_sub_cancel, Int.toNat_of_nonneg hmon.1]
  have hy : (face t).year = yearOf (t / 86400) := by
    show yearOf (t / 86400) - 1900 + 1900 = _
    omega
  rw [hy]
  have h1 : (breakDown t).yday = t / 86400 - yearStart (yearOf (t / 86400)) := rfl
  have h2 : (breakDown t).mday = (breakDown t).yday - monthStart (leap (yearOf (t / 86400))) (breakDown t).mon + 1 := rfl
  omega

/-- **C57** when the zone the process is in has the offset of the zone of the moment: the answers belong to the date that
the moment shows, and the day of the week is the one of that date. In particular after any part was read or set, for
moments in UTC. -/
theorem C57_partial : ∃ f w, ClockFace f ∧ WeekdayOf f w ∧ ∀ (z : Zones) (m : Moment) (d : DateTime) (tz : Text),
    Reads z m d → z tz = z m.zone →
      d = f (m.time + z m.zone) ∧ weekday z m tz = .ok (w (m.time + z m.zone), tz) ∧ yearday z m tz = .ok (d.daysOver, tz) := by
  refine ⟨face, _, face_clock, weekday_face, ?_⟩
  intro z m d tz hr he
  obtain ⟨hi, rfl⟩ := reads_iff.1 hr
  refine ⟨rfl, ?_, ?_⟩
  · unfold weekday
    rw [localtime_ok (by rw [he]; exact hi), he]
    rfl
  · unfold yearday
    rw [localtime_ok (by rw [he]; exact hi), he, ← yearday_face]
    rfl

/-- New Year 1970 at noon, in a zone an hour ahead. -/
example : Reads (fun _ => 3600) ⟨43200, [65]⟩ ⟨1970, 1, 1, 13, 0, 0⟩ ∧ (fun _ => 3600 : Zones) utc = (fun _ => 3600 : Zones) [65] :=
  ⟨reads_iff.2 (by decide +kernel), rfl⟩

/-- After reading or setting a part, or moving by a unit, the process is in the zone UTC. -/
theorem C57_zone (z : Zones) (m : Moment) (tz : Text) :
    (∀ p r tz', getPart z p m tz = .ok (r, tz') → tz' = utc) ∧
    (∀ p v r tz', setPart z p v m tz = .ok (r, tz') → tz' = utc) ∧
    (∀ w forward n q r tz', change z w forward n (some q) m tz = .ok (r, tz') → tz' = utc) := by
  refine ⟨?_, ?_, ?_⟩
  · intro p r tz' h
    unfold getPart at h
    obtain ⟨d, _, h⟩ := Out.bind_eq_ok.1 h
    injection h with h
    injection h with _ h
    exact h.symm
  · intro p v r tz' h
    unfold setPart at h
    obtain ⟨d, _, h⟩ := Out.bind_eq_ok.1 h
    split at h
    · injection h with h
      injection h with _ h
      exact h.symm
    · cases h
  · intro w forward n q r tz' h
    unfold change at h
    dsimp only at h
    obtain ⟨d, _, h⟩ := Out.bind_eq_ok.1 h
    generalize n * (if forward = true then 1 else -1) = k at h
    split at h
    · injection h with h
      injection h with _ h
      exact h.symm
    · split at h
      · injection h with h
        injection h with _ h
        exact h.symm
      · cases h

/-- A moment in 1970 can be read, set and moved. -/
example : (∃ r, getPart (fun _ => 0) .year ⟨0, [65]⟩ [66] = .ok r) ∧ (∃ r, setPart (fun _ => 0) .year 1980 ⟨0, [65]⟩ [66] = .ok r) ∧
    (∃ r, change (fun _ => 0) englishWords true 1 (some [100, 97, 121]) ⟨0, [65]⟩ [66] = .ok r) :=
  ⟨⟨(1970, utc), by decide +kernel⟩, ⟨(⟨315532800, [65]⟩, utc), by decide +kernel⟩, ⟨(⟨86400, [65]⟩, utc), by decide +kernel⟩⟩

/-- **C57** is violated: a moment that shows Friday 2 January 1970 answers Thursday (5) and day 0 of the year, because its
zone is not used; and asking for the hour in between changes the answers. -/
theorem C57_violated : ∃ (z : Zones) (m : Moment) (tz tz' : Text), Reads z m ⟨1970, 1, 2, 1, 0, 0⟩ ∧
    weekday z m tz = .ok (6, tz) ∧ yearday z m tz = .ok (1, tz) ∧
    getPart z .hour m tz = .ok (1, tz') ∧ weekday z m tz' = .ok (5, tz') ∧ yearday z m tz' = .ok (0, tz') :=
  ⟨fun zone => if zone = utc then 0 else 7200, ⟨82800, [65]⟩, [65], utc, reads_iff.2 (by decide +kernel), by decide +kernel,
    by decide +kernel, by decide +kernel, by decide +kernel, by decide +kernel⟩

end Verif.Props.Clock
