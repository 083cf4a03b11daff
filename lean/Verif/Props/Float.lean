import Verif.Lemmas.FloatErr
import Verif.Model.Value

/-!
# Properties of calculations with numbers: C91, C92, C93
-/

namespace Verif.Props.Float
open Verif.Model Verif.Model.Float Verif.Spec.Float
open Verif.Spec.Num (Separators Digits Sign)

/-! ### C91: a number is shown as it was written -/

/-- C91: the number that is read from a text is shown as the amount that the text writes. -/
def C91_full : Prop := ∀ (tho dec : UInt8) (t sg : Text) (n : Nat), Separators tho dec → Writes tho dec t sg n →
  ∃ x, Float.read ⟨[tho], [dec]⟩ t = some x ∧ toText ⟨[tho], [dec]⟩ x = .ok (sg ++ plain tho dec n)

/-- C91, part: below 524288, and for whole numbers up to 2^53, the number that is read from a text is shown as the amount that
the text writes, and reading what is shown gives the same number. Missing: larger numbers. -/
theorem C91_partial {tho dec : UInt8} (hsep : Separators tho dec) {t sg : Text} {n : Nat} (h : Writes tho dec t sg n)
    (hn : n < 524288 * one ∨ ∃ w, w ≤ 2 ^ 53 ∧ n = w * one) :
    ∃ x, Float.read ⟨[tho], [dec]⟩ t = some x ∧ toText ⟨[tho], [dec]⟩ x = .ok (sg ++ plain tho dec n) ∧
      Float.read ⟨[tho], [dec]⟩ (sg ++ plain tho dec n) = some x := by
  have hsg : Sign sg := h.2.1
  have hst : signText (decide (sg = [45])) = sg := by
    rcases hsg with rfl | rfl <;> rfl
  have hbig : n < 10 ^ 29 := by
    have : one = 10000000000 := rfl
    rcases hn with hn | ⟨w, hw, rfl⟩
    · omega
    · rw [this]; omega
  obtain ⟨m, k, hr, hh⟩ : ∃ m k, Float.read ⟨[tho], [dec]⟩ t = some (.fin (decide (sg = [45])) m k) ∧
      halfEven (m * 10 ^ 10) (2 ^ k) = n := by
    rcases hn with hn | ⟨w, hw, rfl⟩
    · exact read_small hsep h hn
    · obtain ⟨x, hr, m, k, rfl, hm⟩ := read_whole hsep h hw
      refine ⟨m, k, hr, ?_⟩
      rw [hm, Nat.mul_right_comm]
      exact halfEven_exact _ (two_pow_pos k)
  refine ⟨_, hr, ?_, ?_⟩
  · rw [toText_near tho dec hh (by omega), hst]
  · rw [read_amount hsep (plain_writes hsep hsg hbig), ← hr, read_amount hsep h]

/-- `-1,234.50`, shown as `-1,234.5`. -/
example : Separators 44 46 ∧ Writes 44 46 [45, 49, 44, 50, 51, 52, 46, 53, 48] [45] 12345000000000 ∧
    12345000000000 < 524288 * one :=
  ⟨by unfold Separators; decide, ⟨by decide, .inr rfl, [49, 50, 51, 52], ⟨by decide, by decide⟩,
    .inr ⟨[53, 48], ⟨by decide, by decide⟩, by decide, by decide, by decide⟩⟩, by decide⟩

/-- C91 is false as stated: `524288.06` is shown as `524,288.0600000001`. -/
theorem C91_violated : ¬ C91_full := by
  intro h
  obtain ⟨x, h1, h2⟩ := h 44 46 [53, 50, 52, 50, 56, 56, 46, 48, 54] [] 5242880600000000 (by unfold Separators; decide)
    ⟨by decide, .inl rfl, [53, 50, 52, 50, 56, 56], ⟨by decide, by decide⟩,
      .inr ⟨[48, 54], ⟨by decide, by decide⟩, by decide, by decide, by decide⟩⟩
  have e : (Float.read ⟨[44], [46]⟩ [53, 50, 52, 50, 56, 56, 46, 48, 54]).map (toText ⟨[44], [46]⟩)
      = some (.ok [53, 50, 52, 44, 50, 56, 56, 46, 48, 54, 48, 48, 48, 48, 48, 48, 48, 49]) := by decide +kernel
  rw [h1, Option.map_some, h2] at e
  exact absurd (Out.ok.inj (Option.some.inj e)) (by decide +kernel)

/-! ### C92: calculations with whole numbers are exact -/

/-- What a calculation with whole numbers of at most 2^53 means, in whole numbers. -/
inductive Whole (tho dec : UInt8) : Calc → Int → Prop
  | lit {t sg : Text} {n : Nat} : Writes tho dec t sg (n * one) → n ≤ 2 ^ 53 →
      Whole tho dec (.lit t) (if sg = [45] then -(n : Int) else n)
  | add {a b : Calc} {x y : Int} : Whole tho dec a x → Whole tho dec b y → (x + y).natAbs ≤ 2 ^ 53 →
      Whole tho dec (.add a b) (x + y)
  | sub {a b : Calc} {x y : Int} : Whole tho dec a x → Whole tho dec b y → (x - y).natAbs ≤ 2 ^ 53 →
      Whole tho dec (.sub a b) (x - y)
  | mul {a b : Calc} {x y : Int} : Whole tho dec a x → Whole tho dec b y → (x * y).natAbs ≤ 2 ^ 53 →
      Whole tho dec (.mul a b) (x * y)
  | div {a b : Calc} {x y v : Int} : Whole tho dec a x → Whole tho dec b y → y ≠ 0 → x = v * y → Whole tho dec (.div a b) v
  | mod {a b : Calc} {x y : Int} : Whole tho dec a x → Whole tho dec b y → y ≠ 0 → Whole tho dec (.mod a b) (x.tmod y)
  | abs {a : Calc} {x : Int} : Whole tho dec a x → Whole tho dec (.abs a) x.natAbs
  | floor {a : Calc} {x : Int} : Whole tho dec a x → Whole tho dec (.floor a) x
  | ceil {a : Calc} {x : Int} : Whole tho dec a x → Whole tho dec (.ceil a) x
  | round {a : Calc} {x : Int} : Whole tho dec a x → Whole tho dec (.round a) x
  | floorDiv {a b : Calc} {x y : Int} : Whole tho dec a x → Whole tho dec b y → y ≠ 0 → x.natAbs < 2 ^ 53 →
      Whole tho dec (.floor (.div a b)) (x.fdiv y)
  | ceilDiv {a b : Calc} {x y : Int} : Whole tho dec a x → Whole tho dec b y → y ≠ 0 → x.natAbs < 2 ^ 53 →
      Whole tho dec (.ceil (.div a b)) (-((-x).fdiv y))
  | roundDiv {a b : Calc} {x y v : Int} : Whole tho dec a x → Whole tho dec b y → y ≠ 0 → x.natAbs < 2 ^ 52 →
      NearestQuotient x y v → Whole tho dec (.round (.div a b)) v

theorem natAbs_fdiv_le {x y : Int} (hy : y ≠ 0) (hx : x.natAbs < 2 ^ 53) : (x.fdiv y).natAbs ≤ 2 ^ 53 := by
  obtain ⟨f1, f2⟩ := fdiv_cases (z := x) hy
  have hd : x.natAbs / y.natAbs ≤ x.natAbs := Nat.div_le_self ..
  generalize x.natAbs / y.natAbs = q at *
  generalize x.natAbs % y.natAbs = r at *
  rcases Decidable.em (x = 0) with h0 | h0
  · rw [f1 (.inr h0)]; omega
  · rcases Decidable.em (x < 0 ↔ y < 0) with h | h
    · rw [f1 (.inl h)]; omega
    · rw [f2 h h0]; split <;> omega

theorem whole_holds {tho dec : UInt8} (hsep : Separators tho dec) {c : Calc} {z : Int} (h : Whole tho dec c z) :
    z.natAbs ≤ 2 ^ 53 ∧ ∃ x, c.run ⟨[tho], [dec]⟩ = some x ∧ Holds x z := by
  induction h with
  | @lit t sg n hw hn =>
    obtain ⟨x, hr, m, k, rfl, hm⟩ := read_whole hsep hw hn
    refine ⟨by split <;> omega, _, hr, .of rfl (by rw [hm]; split <;> simp) (fun h => ?_)⟩
    split
    · rename_i hs
      rw [if_pos hs] at h
      rw [decide_eq_true hs, decide_eq_true (by omega)]
    · rename_i hs
      rw [decide_eq_false hs, decide_eq_false (by omega)]
  | add _ _ hb iha ihb =>
    obtain ⟨_, x, hx, h1⟩ := iha
    obtain ⟨_, y, hy, h2⟩ := ihb
    exact ⟨hb, _, by simp only [Calc.run, hx, hy]; rfl, h1.add h2 hb⟩
  | sub _ _ hb iha ihb =>
    obtain ⟨_, x, hx, h1⟩ := iha
    obtain ⟨_, y, hy, h2⟩ := ihb
    exact ⟨hb, _, by simp only [Calc.run, hx, hy]; rfl, h1.sub h2 hb⟩
  | mul _ _ hb iha ihb =>
    obtain ⟨_, x, hx, h1⟩ := iha
    obtain ⟨_, y, hy, h2⟩ := ihb
    exact ⟨hb, _, by simp only [Calc.run, hx, hy]; rfl, h1.mul h2 hb⟩
  | @div a b u w v _ _ hy0 he iha ihb =>
    obtain ⟨hb, x, hx, h1⟩ := iha
    obtain ⟨_, y, hy, h2⟩ := ihb
    have hv : v.natAbs ≤ 2 ^ 53 := by
      rw [he, Int.natAbs_mul] at hb
      exact Nat.le_trans (Nat.le_mul_of_pos_right _ (by omega)) hb
    refine ⟨hv, _, ?_, h1.quotient h2 hy0 he hv⟩
    simp only [Calc.run, hx, hy]
    show divide x y = _
    rw [divide, h2.isZero, decide_eq_false hy0]
    rfl
  | @mod a b u w _ _ hy0 iha ihb =>
    obtain ⟨hb, x, hx, h1⟩ := iha
    obtain ⟨_, y, hy, h2⟩ := ihb
    refine ⟨?_, _, ?_, h1.fmod h2⟩
    · rw [Int.natAbs_tmod]
      exact Nat.le_trans (Nat.mod_le _ _) hb
    · simp only [Calc.run, hx, hy]
      show modulo x y = _
      rw [modulo, h2.isZero, decide_eq_false hy0]
      rfl
  | abs _ iha =>
    obtain ⟨hb, x, hx, h1⟩ := iha
    exact ⟨hb, _, by simp only [Calc.run, hx]; rfl, h1.abs⟩
  | floor _ iha =>
    obtain ⟨hb, x, hx, h1⟩ := iha
    exact ⟨hb, _, by simp only [Calc.run, hx]; rfl, h1.floor⟩
  | ceil _ iha =>
    obtain ⟨hb, x, hx, h1⟩ := iha
    exact ⟨hb, _, by simp only [Calc.run, hx]; rfl, h1.ceil⟩
  | round _ iha =>
    obtain ⟨hb, x, hx, h1⟩ := iha
    exact ⟨hb, _, by simp only [Calc.run, hx]; rfl, h1.round⟩
  | @floorDiv a b u w _ _ hy0 hb iha ihb =>
    obtain ⟨_, x, hx, h1⟩ := iha
    obtain ⟨hb2, y, hy, h2⟩ := ihb
    refine ⟨natAbs_fdiv_le hy0 hb, _, ?_, h1.floor_quotient h2 hy0 hb hb2⟩
    simp only [Calc.run, hx, hy]
    show (divide x y).bind (fun v => some (Model.Float.floor v)) = _
    rw [divide, h2.isZero, decide_eq_false hy0]
    rfl
  | @ceilDiv a b u w _ _ hy0 hb iha ihb =>
    obtain ⟨_, x, hx, h1⟩ := iha
    obtain ⟨hb2, y, hy, h2⟩ := ihb
    refine ⟨?_, _, ?_, h1.ceil_quotient h2 hy0 hb hb2⟩
    · rw [Int.natAbs_neg]
      exact natAbs_fdiv_le hy0 (by rwa [Int.natAbs_neg])
    simp only [Calc.run, hx, hy]
    show (divide x y).bind (fun v => some (Model.Float.ceil v)) = _
    rw [divide, h2.isZero, decide_eq_false hy0]
    rfl
  | @roundDiv a b u w v _ _ hy0 hb hn iha ihb =>
    obtain ⟨_, x, hx, h1⟩ := iha
    obtain ⟨hb2, y, hy, h2⟩ := ihb
    refine ⟨?_, _, ?_, h1.round_quotient h2 hy0 hb hb2 hn.1 hn.2.1 hn.2.2⟩
    · have h1 : v.natAbs * 1 ≤ v.natAbs * w.natAbs := Nat.mul_le_mul_left _ (by omega)
      have h2 := hn.1
      have h3 := hn.2.1
      rcases Decidable.em (v = 0) with h0 | h0
      · omega
      · have h4 : 1 * w.natAbs ≤ v.natAbs * w.natAbs := Nat.mul_le_mul_right _ (by omega)
        omega
    simp only [Calc.run, hx, hy]
    show (divide x y).bind (fun v => some (Model.Float.round v)) = _
    rw [divide, h2.isZero, decide_eq_false hy0]
    rfl

/-- C92: the result of a calculation with whole numbers is shown as the whole number that it means. -/
def C92_full : Prop := ∀ (tho dec : UInt8) (c : Calc) (z : Int), Separators tho dec → Whole tho dec c z →
  ∃ x, c.run ⟨[tho], [dec]⟩ = some x ∧ toText ⟨[tho], [dec]⟩ x = .ok (whole tho z)

/-- C92, part: for every calculation with whole numbers whose intermediate results do not exceed 2^53, the result is shown as the
whole number that it means. Missing: zero may be shown as `-0`. -/
theorem C92_partial {tho dec : UInt8} (hsep : Separators tho dec) {c : Calc} {z : Int} (h : Whole tho dec c z) :
    ∃ x, c.run ⟨[tho], [dec]⟩ = some x ∧
      (toText ⟨[tho], [dec]⟩ x = .ok (whole tho z) ∨ (z = 0 ∧ toText ⟨[tho], [dec]⟩ x = .ok [45, 48])) := by
  obtain ⟨hb, x, hx, h1⟩ := whole_holds hsep h
  exact ⟨x, hx, toText_holds tho dec h1 (by omega)⟩

/-- `⌊(7 - 17 × 3) ÷ 8⌋` is `-6`. -/
example : Whole 44 46 (.floor (.div (.sub (.lit [55]) (.mul (.lit [49, 55]) (.lit [51]))) (.lit [56]))) (-6) := by
  have l : ∀ (ds : Text) (n : Nat), Digits ds → ds.length ≤ 40 → ds.filter (· ≠ 44) = ds → value ds = n → n ≤ 2 ^ 53 →
      Whole 44 46 (.lit ds) n := by
    intro ds n hd hl hf hv hn
    have := Whole.lit (tho := 44) (dec := 46) (t := ds) (sg := []) (n := n)
      ⟨hl, .inl rfl, ds, hd, .inl ⟨by simpa using hf, by rw [hv]⟩⟩ hn
    simpa using this
  have h7 := l [55] 7 ⟨by decide, by decide⟩ (by decide) (by decide) (by decide) (by decide)
  have h17 := l [49, 55] 17 ⟨by decide, by decide⟩ (by decide) (by decide) (by decide) (by decide)
  have h3 := l [51] 3 ⟨by decide, by decide⟩ (by decide) (by decide) (by decide) (by decide)
  have h8 := l [56] 8 ⟨by decide, by decide⟩ (by decide) (by decide) (by decide) (by decide)
  exact .floorDiv (.sub h7 (.mul h17 h3 (by decide)) (by decide)) h8 (by decide) (by decide)

/-- C92, comparisons: results of calculations with whole numbers are equal, or one is less, exactly if this is so for the whole
numbers that they mean. -/
theorem C92_compare {tho dec : UInt8} (hsep : Separators tho dec) {c d : Calc} {z w : Int} (h : Whole tho dec c z)
    (h' : Whole tho dec d w) (g : Value.Lang) :
    ∃ x y, c.run ⟨[tho], [dec]⟩ = some x ∧ d.run ⟨[tho], [dec]⟩ = some y ∧
      (Value.numberEq g x.dbl (.num y.dbl) = true ↔ z = w) ∧ (Value.lowerThan g x.dbl (.num y.dbl) = true ↔ z < w) := by
  obtain ⟨_, x, hx, n, m, k, rfl, h1⟩ := whole_holds hsep h
  obtain ⟨_, y, hy, n', m', k', rfl, h2⟩ := whole_holds hsep h'
  refine ⟨_, _, hx, hy, ?_, ?_⟩
  · show ((signed n m * 2 ^ k' == signed n' m' * 2 ^ k) = true) ↔ _
    rw [beq_iff_eq, h1, h2, Int.mul_right_comm]
    constructor
    · intro e
      exact Int.eq_of_mul_eq_mul_right (by positivity) (Int.eq_of_mul_eq_mul_right (by positivity) e)
    · rintro rfl; rfl
  · show (decide (signed n m * 2 ^ k' < signed n' m' * 2 ^ k) = true) ↔ _
    rw [decide_eq_true_iff, h1, h2, Int.mul_right_comm]
    constructor
    · intro e
      exact Int.lt_of_mul_lt_mul_right (Int.lt_of_mul_lt_mul_right e (by positivity)) (by positivity)
    · intro e
      exact Int.mul_lt_mul_of_pos_right (Int.mul_lt_mul_of_pos_right e (by positivity)) (by positivity)

/-- Numbers that can be compared. -/
example : Whole 44 46 (.lit [55]) 7 := by
  have := Whole.lit (tho := 44) (dec := 46) (t := [55]) (sg := []) (n := 7)
    ⟨by decide, .inl rfl, [55], ⟨by decide, by decide⟩, .inl ⟨by decide, by decide⟩⟩ (by decide)
  simpa using this

/-- C92 is false as stated: `0 × -5` is shown as `-0`. Beyond 2^53, `9007199254740992 + 1` is shown as `9,007,199,254,740,992`. -/
theorem C92_violated : ¬ C92_full ∧
    ((Calc.add (.lit [57, 48, 48, 55, 49, 57, 57, 50, 53, 52, 55, 52, 48, 57, 57, 50]) (.lit [49])).run ⟨[44], [46]⟩).map
      (toText ⟨[44], [46]⟩) = some (.ok (whole 44 9007199254740992)) := by
  refine ⟨fun h => ?_, by decide +kernel⟩
  have h0 := Whole.lit (tho := 44) (dec := 46) (t := [48]) (sg := []) (n := 0)
    ⟨by decide, .inl rfl, [48], ⟨by decide, by decide⟩, .inl ⟨by decide, by decide⟩⟩ (by decide)
  have h5 := Whole.lit (tho := 44) (dec := 46) (t := [45, 53]) (sg := [45]) (n := 5)
    ⟨by decide, .inr rfl, [53], ⟨by decide, by decide⟩, .inl ⟨by decide, by decide⟩⟩ (by decide)
  obtain ⟨x, h1, h2⟩ := h 44 46 _ _ (by unfold Separators; decide) (Whole.mul h0 h5 (by decide))
  have e : ((Calc.mul (.lit [48]) (.lit [45, 53])).run ⟨[44], [46]⟩).map (toText ⟨[44], [46]⟩) = some (.ok [45, 48]) := by
    decide +kernel
  rw [h1, Option.map_some, h2] at e
  exact absurd (Out.ok.inj (Option.some.inj e)) (by decide +kernel)

/-! ### C93: sums of amounts are shown exactly -/

/-- Calculations with amounts: the amount that is meant, the number of roundings (those of an amount that is taken many times count
as often), and a bound for the size of all intermediate results. -/
inductive Money (tho dec : UInt8) : Calc → Int → Nat → Nat → Prop
  | lit {t sg : Text} {n : Nat} : Writes tho dec t sg n → Money tho dec (.lit t) (if sg = [45] then -(n : Int) else n) 1 n
  | add {a b : Calc} {x y : Int} {s s' p p' : Nat} : Money tho dec a x s p → Money tho dec b y s' p' →
      Money tho dec (.add a b) (x + y) (s + s' + 1) (p + p')
  | sub {a b : Calc} {x y : Int} {s s' p p' : Nat} : Money tho dec a x s p → Money tho dec b y s' p' →
      Money tho dec (.sub a b) (x - y) (s + s' + 1) (p + p')
  | times {a b : Calc} {x w : Int} {s p : Nat} : Money tho dec a x s p → Whole tho dec b w →
      Money tho dec (.mul a b) (x * w) (s * max 1 w.natAbs + 1) (p * max 1 w.natAbs)
  | timesLeft {a b : Calc} {x w : Int} {s p : Nat} : Money tho dec a x s p → Whole tho dec b w →
      Money tho dec (.mul b a) (x * w) (s * max 1 w.natAbs + 1) (p * max 1 w.natAbs)

theorem money_bound {tho dec : UInt8} {c : Calc} {z : Int} {s p : Nat} (h : Money tho dec c z s p) : z.natAbs ≤ p ∧ 1 ≤ s := by
  induction h with
  | lit => exact ⟨by split <;> omega, by omega⟩
  | add _ _ iha ihb => omega
  | sub _ _ iha ihb => omega
  | times _ _ iha =>
    refine ⟨?_, by omega⟩
    rw [Int.natAbs_mul]
    exact Nat.mul_le_mul iha.1 (by omega)
  | timesLeft _ _ iha =>
    refine ⟨?_, by omega⟩
    rw [Int.natAbs_mul]
    exact Nat.mul_le_mul iha.1 (by omega)

theorem near_mono {b c c' : Nat} {x : F} {N : Int} (h : Near b x N c) (hc : c ≤ c') : Near b x N c' := by
  obtain ⟨n, m, k, e, h⟩ := h
  refine ⟨n, m, k, e, le_trans h ?_⟩
  have : (c : ℚ) ≤ c' := by exact_mod_cast hc
  exact mul_le_mul_of_nonneg_right this (by positivity)

/-- Below `2^b` by enough. -/
theorem room {b c p : Nat} {N : Int} (hN : N.natAbs ≤ p) (hp : p + one ≤ 2 ^ b * one) (hc : c * 2 ^ b ≤ 900719) :
    |(N : ℚ)| / one + (c : ℚ) * (2 ^ b / 2 ^ 54) < 2 ^ b := by
  have ho : (0 : ℚ) < (one : Nat) := by exact_mod_cast (by decide : 0 < one)
  have h1 : |(N : ℚ)| = (N.natAbs : ℚ) := by rw [Nat.cast_natAbs, Int.cast_abs]
  have h2 : (N.natAbs : ℚ) + one ≤ 2 ^ b * one := by
    have : N.natAbs + one ≤ 2 ^ b * one := by omega
    exact_mod_cast this
  have h3 : (N.natAbs : ℚ) / one ≤ 2 ^ b - 1 := by
    rw [div_le_iff₀ ho]
    linarith
  have h4 : (c : ℚ) * 2 ^ b ≤ 900719 := by exact_mod_cast hc
  have h5 : (c : ℚ) * (2 ^ b / 2 ^ 54) ≤ 900719 / 2 ^ 54 := by
    rw [← mul_div_assoc]
    exact div_le_div_of_nonneg_right h4 (by positivity)
  have h6 : (900719 : ℚ) / 2 ^ 54 < 1 := by norm_num
  rw [h1]
  linarith

theorem money_near {tho dec : UInt8} (hsep : Separators tho dec) {c : Calc} {z : Int} {s p : Nat} (h : Money tho dec c z s p)
    {b : Nat} (hp : p + one ≤ 2 ^ b * one) (hs : s * 2 ^ b ≤ 900719) :
    ∃ x, c.run ⟨[tho], [dec]⟩ = some x ∧ Near b x z s := by
  have hb53 : b ≤ 53 := by
    have h1 := (money_bound h).2
    have h2 : 1 * 2 ^ b ≤ s * 2 ^ b := Nat.mul_le_mul_right _ h1
    have h3 : 2 ^ b < 2 ^ 53 := by omega
    exact Nat.le_of_lt ((Nat.pow_lt_pow_iff_right (by decide)).1 h3)
  induction h with
  | @lit t sg n hw =>
    refine ⟨_, read_amount hsep hw, ?_⟩
    refine near_mono (rnd_near (c := 0) (decide (sg = [45])) (by decide) hb53 ?_ ?_) (Nat.le_refl _)
    · have : (signed (decide (sg = [45])) n) = (if sg = [45] then -(n : Int) else n) := by
        unfold signed
        by_cases hh : sg = [45] <;> simp [hh]
      rw [this]
      simp
    · exact room (p := n) (by split <;> omega) hp (by omega)
  | @add a a' x y u u' q q' ha ha' iha ihb =>
    have e1 : u * 2 ^ b ≤ (u + u' + 1) * 2 ^ b := Nat.mul_le_mul_right _ (by omega)
    have e2 : u' * 2 ^ b ≤ (u + u' + 1) * 2 ^ b := Nat.mul_le_mul_right _ (by omega)
    have e3 : (u + u') * 2 ^ b ≤ (u + u' + 1) * 2 ^ b := Nat.mul_le_mul_right _ (by omega)
    obtain ⟨v, hv, h1⟩ := iha (by omega) (by omega)
    obtain ⟨v', hv', h2⟩ := ihb (by omega) (by omega)
    refine ⟨_, by simp only [Calc.run, hv, hv']; rfl, h1.add h2 hb53 ?_⟩
    refine room (p := q + q') ?_ hp (by omega)
    have := (money_bound ha).1
    have := (money_bound ha').1
    omega
  | @sub a a' x y u u' q q' ha ha' iha ihb =>
    have e1 : u * 2 ^ b ≤ (u + u' + 1) * 2 ^ b := Nat.mul_le_mul_right _ (by omega)
    have e2 : u' * 2 ^ b ≤ (u + u' + 1) * 2 ^ b := Nat.mul_le_mul_right _ (by omega)
    have e3 : (u + u') * 2 ^ b ≤ (u + u' + 1) * 2 ^ b := Nat.mul_le_mul_right _ (by omega)
    obtain ⟨v, hv, h1⟩ := iha (by omega) (by omega)
    obtain ⟨v', hv', h2⟩ := ihb (by omega) (by omega)
    refine ⟨Model.Float.sub v v', by simp only [Calc.run, hv, hv']; rfl, ?_⟩
    rw [Int.sub_eq_add_neg]
    refine h1.add h2.neg hb53 ?_
    refine room (p := q + q') ?_ hp (by omega)
    have := (money_bound ha).1
    have := (money_bound ha').1
    omega
  | @times a a' x w u q ha hw iha =>
    have e0 : u * 1 ≤ u * max 1 w.natAbs := Nat.mul_le_mul_left _ (by omega)
    have e1 : u * 2 ^ b ≤ (u * max 1 w.natAbs + 1) * 2 ^ b := Nat.mul_le_mul_right _ (by omega)
    have e2 : u * w.natAbs ≤ u * max 1 w.natAbs := Nat.mul_le_mul_left _ (by omega)
    have e3 : u * w.natAbs * 2 ^ b ≤ (u * max 1 w.natAbs + 1) * 2 ^ b := Nat.mul_le_mul_right _ (by omega)
    have e4 : q * 1 ≤ q * max 1 w.natAbs := Nat.mul_le_mul_left _ (by omega)
    obtain ⟨v, hv, h1⟩ := iha (by omega) (by omega)
    obtain ⟨_, v', hv', h2⟩ := whole_holds hsep hw
    refine ⟨_, by simp only [Calc.run, hv, hv']; rfl, near_mono (h1.mul h2 hb53 ?_).1 (by omega)⟩
    refine room (p := q * max 1 w.natAbs) ?_ hp (by omega)
    rw [Int.natAbs_mul]
    exact Nat.mul_le_mul (money_bound ha).1 (by omega)
  | @timesLeft a a' x w u q ha hw iha =>
    have e0 : u * 1 ≤ u * max 1 w.natAbs := Nat.mul_le_mul_left _ (by omega)
    have e1 : u * 2 ^ b ≤ (u * max 1 w.natAbs + 1) * 2 ^ b := Nat.mul_le_mul_right _ (by omega)
    have e2 : u * w.natAbs ≤ u * max 1 w.natAbs := Nat.mul_le_mul_left _ (by omega)
    have e3 : u * w.natAbs * 2 ^ b ≤ (u * max 1 w.natAbs + 1) * 2 ^ b := Nat.mul_le_mul_right _ (by omega)
    have e4 : q * 1 ≤ q * max 1 w.natAbs := Nat.mul_le_mul_left _ (by omega)
    obtain ⟨v, hv, h1⟩ := iha (by omega) (by omega)
    obtain ⟨_, v', hv', h2⟩ := whole_holds hsep hw
    refine ⟨_, by simp only [Calc.run, hv, hv']; rfl, near_mono (h1.mul h2 hb53 ?_).2 (by omega)⟩
    refine room (p := q * max 1 w.natAbs) ?_ hp (by omega)
    rw [Int.natAbs_mul]
    exact Nat.mul_le_mul (money_bound ha).1 (by omega)

/-- C93: the result of a calculation with amounts is shown as the amount that it means. -/
def C93_full : Prop := ∀ (tho dec : UInt8) (c : Calc) (z : Int) (s p : Nat), Separators tho dec → Money tho dec c z s p →
  ∃ x, c.run ⟨[tho], [dec]⟩ = some x ∧ toText ⟨[tho], [dec]⟩ x = .ok (amount tho dec z)

/-- C93, part: if no intermediate result reaches `2^b - 1`, and the number of roundings times `2^b` is at most 900719, the result
of a calculation with amounts is shown as the amount that it means: adding up 225 amounts below a total of 1,000 (`b = 10`, 449
roundings), for example. Missing: larger calculations, and zero, which may be shown as `-0`. -/
theorem C93_partial {tho dec : UInt8} (hsep : Separators tho dec) {c : Calc} {z : Int} {s p : Nat} (h : Money tho dec c z s p)
    {b : Nat} (hp : p + one ≤ 2 ^ b * one) (hs : s * 2 ^ b ≤ 900719) :
    ∃ x, c.run ⟨[tho], [dec]⟩ = some x ∧
      (toText ⟨[tho], [dec]⟩ x = .ok (amount tho dec z) ∨ (z = 0 ∧ toText ⟨[tho], [dec]⟩ x = .ok [45, 48])) := by
  obtain ⟨x, hx, hn⟩ := money_near hsep h hp hs
  have hc : (s : ℚ) * (2 ^ b / 2 ^ 54) < 1 / (2 * one) := by
    have h4 : (s : ℚ) * 2 ^ b ≤ 900719 := by exact_mod_cast hs
    have h5 : (s : ℚ) * (2 ^ b / 2 ^ 54) ≤ 900719 / 2 ^ 54 := by
      rw [← mul_div_assoc]
      exact div_le_div_of_nonneg_right h4 (by positivity)
    refine lt_of_le_of_lt h5 ?_
    simp only [one]
    norm_num
  obtain ⟨n, m, k, rfl, hh, hsg⟩ := hn.shown hc
  have hz : z.natAbs < 10 ^ 31 := by
    have h1 := (money_bound h).1
    have h2 : 1 * 2 ^ b ≤ s * 2 ^ b := Nat.mul_le_mul_right _ (money_bound h).2
    have h3 : 2 ^ b * one ≤ 900719 * one := Nat.mul_le_mul_right _ (by omega)
    have : one = 10000000000 := rfl
    omega
  refine ⟨_, hx, ?_⟩
  rw [toText_near tho dec hh hz]
  rcases Decidable.em (z = 0) with rfl | h0
  · cases n
    · left; rfl
    · right
      refine ⟨rfl, ?_⟩
      congr 1
      unfold plain
      rw [show (0 : Int).natAbs = 0 from rfl, Nat.zero_div, Nat.zero_mod, places_zero, fraction_zeros, Verif.Spec.ReadBack.digits,
        if_pos (by decide), Verif.Spec.Num.group]
      rfl
  · left
    rw [hsg h0]
    unfold amount signText
    rcases Decidable.em (z < 0) with a | a <;> simp [a]

/-- `0.1 + 0.2 - 3 × 19.99` is `-59.67`. -/
example : ∃ s p, Money 44 46 (.sub (.add (.lit [48, 46, 49]) (.lit [48, 46, 50])) (.mul (.lit [51]) (.lit [49, 57, 46, 57, 57])))
    (-596700000000) s p ∧ p + one ≤ 2 ^ 6 * one ∧ s * 2 ^ 6 ≤ 900719 := by
  have l : ∀ (t ds f : Text) (n : Nat), Digits ds → Digits f → f.length ≤ 10 → t.length ≤ 40 →
      t.filter (· ≠ 44) = ds ++ 46 :: f → n = value (ds ++ f) * 10 ^ (10 - f.length) → Money 44 46 (.lit t) n 1 n := by
    intro t ds f n hd hf hfl hl hft hn
    have := Money.lit (tho := 44) (dec := 46) (t := t) (sg := []) (n := n)
      ⟨hl, .inl rfl, ds, hd, .inr ⟨f, hf, hfl, by simpa using hft, hn⟩⟩
    simpa using this
  have h1 := l [48, 46, 49] [48] [49] 1000000000 ⟨by decide, by decide⟩ ⟨by decide, by decide⟩ (by decide) (by decide)
    (by decide) (by decide)
  have h2 := l [48, 46, 50] [48] [50] 2000000000 ⟨by decide, by decide⟩ ⟨by decide, by decide⟩ (by decide) (by decide)
    (by decide) (by decide)
  have h3 := l [49, 57, 46, 57, 57] [49, 57] [57, 57] 199900000000 ⟨by decide, by decide⟩ ⟨by decide, by decide⟩ (by decide)
    (by decide) (by decide) (by decide)
  have h4 := Whole.lit (tho := 44) (dec := 46) (t := [51]) (sg := []) (n := 3)
    ⟨by decide, .inl rfl, [51], ⟨by decide, by decide⟩, .inl ⟨by decide, by decide⟩⟩ (by decide)
  exact ⟨_, _, .sub (.add h1 h2) (.timesLeft h3 h4), by decide, by decide⟩

/-- C93 is false as stated: `0.3 - 0.1 - 0.2` is shown as `-0`. And although they are shown alike, `0.1 + 0.2` does not equal
`0.3`. -/
theorem C93_violated : ¬ C93_full ∧ (∀ g : Value.Lang, ∃ x y,
    (Calc.add (.lit [48, 46, 49]) (.lit [48, 46, 50])).run ⟨[44], [46]⟩ = some x ∧ (Calc.lit [48, 46, 51]).run ⟨[44], [46]⟩ = some y ∧
    toText ⟨[44], [46]⟩ x = .ok [48, 46, 51] ∧ toText ⟨[44], [46]⟩ y = .ok [48, 46, 51] ∧
    Value.numberEq g x.dbl (.num y.dbl) = false) := by
  constructor
  · intro h
    have l : ∀ (d : UInt8) (n : Nat), Digits [d] → d ≠ 44 → n = value [48, d] * 10 ^ 9 → Money 44 46 (.lit [48, 46, d]) n 1 n := by
      intro d n hd hne hn
      have := Money.lit (tho := 44) (dec := 46) (t := [48, 46, d]) (sg := []) (n := n)
        ⟨by simp, .inl rfl, [48], ⟨by decide, by decide⟩, .inr ⟨[d], hd, by simp, by simp [hne], hn⟩⟩
      simpa using this
    have h1 := l 49 1000000000 ⟨by decide, by decide⟩ (by decide) (by decide)
    have h2 := l 50 2000000000 ⟨by decide, by decide⟩ (by decide) (by decide)
    have h3 := l 51 3000000000 ⟨by decide, by decide⟩ (by decide) (by decide)
    obtain ⟨x, e1, e2⟩ := h 44 46 _ _ _ _ (by unfold Separators; decide) (.sub (.sub h3 h1) h2)
    have e : ((Calc.sub (.sub (.lit [48, 46, 51]) (.lit [48, 46, 49])) (.lit [48, 46, 50])).run ⟨[44], [46]⟩).map
        (toText ⟨[44], [46]⟩) = some (.ok [45, 48]) := by decide +kernel
    rw [e1, Option.map_some, e2] at e
    exact absurd (Out.ok.inj (Option.some.inj e)) (by decide +kernel)
  · intro g
    refine ⟨.fin false 5404319552844596 54, .fin false 5404319552844595 54, by decide +kernel, by decide +kernel,
      by decide +kernel, by decide +kernel, ?_⟩
    show (((5404319552844596 : Int) * 2 ^ 54) == 5404319552844595 * 2 ^ 54) = false
    decide +kernel

end Verif.Props.Float
