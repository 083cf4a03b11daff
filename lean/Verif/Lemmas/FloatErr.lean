import Verif.Lemmas.FloatText
import Mathlib.Tactic.Linarith
import Mathlib.Tactic.FieldSimp
import Mathlib.Tactic.Ring
import Mathlib.Algebra.Order.Field.Rat
import Mathlib.Algebra.Order.Field.Basic

/-!
# Errors of calculations with amounts
-/

namespace Verif.Model.Float
open Verif.Spec.Float (one)

/-- The rational number that a finite `double` is. -/
def val (n : Bool) (m k : Nat) : ℚ := (signed n m : ℚ) / 2 ^ k

/-- Rounding a fraction below `2^b`. -/
theorem rnd_val (neg : Bool) {a d b : Nat} (hd : 0 < d) (hb : b ≤ 53) (h : a < d * 2 ^ b) :
    ∃ m k, rnd neg a d = .fin neg m k ∧ |val neg m k - (signed neg a : ℚ) / d| ≤ 2 ^ b / 2 ^ 54 := by
  rcases Nat.eq_zero_or_pos a with rfl | ha
  · refine ⟨0, 0, rnd_zero _ _, ?_⟩
    have : (signed neg 0) = 0 := by cases neg <;> rfl
    simp only [val, this]
    simp
    positivity
  · obtain ⟨m, k, e, hk, b1, b2⟩ := rnd_error neg ha hd hb h
    refine ⟨m, k, e, ?_⟩
    have hd' : (0 : ℚ) < d := by exact_mod_cast hd
    have hp : (0 : ℚ) < 2 ^ k := by positivity
    have b1' : 2 * ((a : ℚ) * 2 ^ k) ≤ 2 * (m * d) + d := by exact_mod_cast b1
    have b2' : 2 * ((m : ℚ) * d) ≤ 2 * (a * 2 ^ k) + d := by exact_mod_cast b2
    have key : |(m : ℚ) / 2 ^ k - a / d| ≤ 1 / (2 * 2 ^ k) := by
      have : (m : ℚ) / 2 ^ k - a / d = (m * d - a * 2 ^ k) / (2 ^ k * d) := by field_simp
      rw [this, abs_div, abs_of_pos (show (0 : ℚ) < 2 ^ k * d by positivity), div_le_div_iff₀ (by positivity) (by positivity)]
      have : |(m : ℚ) * d - a * 2 ^ k| ≤ d / 2 := by rw [abs_le]; constructor <;> linarith
      calc |(m : ℚ) * d - a * 2 ^ k| * (2 * 2 ^ k) ≤ d / 2 * (2 * 2 ^ k) := by
            apply mul_le_mul_of_nonneg_right this; positivity
        _ = 1 * (2 ^ k * d) := by ring
    have hle : 1 / (2 * 2 ^ k) ≤ (2 : ℚ) ^ b / 2 ^ 54 := by
      rw [div_le_div_iff₀ (by positivity) (by positivity)]
      have : (2 : ℚ) ^ 53 ≤ 2 ^ (b + k) := pow_le_pow_right₀ (by norm_num) hk
      rw [pow_add] at this
      calc (1 : ℚ) * 2 ^ 54 = 2 * 2 ^ 53 := by norm_num
        _ ≤ 2 * (2 ^ b * 2 ^ k) := by linarith
        _ = 2 ^ b * (2 * 2 ^ k) := by ring
    refine le_trans ?_ (le_trans key hle)
    cases neg
    · simp [val, signed]
    · simp only [val, signed, if_true]
      push_cast
      rw [← abs_neg]
      apply le_of_eq
      congr 1
      ring

theorem signed_abs (n : Bool) (a : Nat) : |(signed n a : ℚ)| = a := by
  cases n <;> simp [signed]

/-- The sum is the exact sum, rounded once. -/
theorem add_rnd (n : Bool) (m k : Nat) (n' : Bool) (m' k' : Nat) :
    ∃ s A D, 0 < D ∧ Float.add (.fin n m k) (.fin n' m' k') = rnd s A D ∧ (signed s A : ℚ) / (D : Nat) = val n m k + val n' m' k' := by
  have hp := two_pow_pos (k + k')
  have hval : val n m k + val n' m' k' = ((signed n m : ℚ) * 2 ^ k' + signed n' m' * 2 ^ k) / ((2 ^ (k + k') : Nat) : ℚ) := by
    unfold val
    push_cast
    rw [pow_add]
    field_simp
  simp only [Float.add]
  split
  · rename_i h
    subst h
    refine ⟨n, _, _, hp, rfl, ?_⟩
    rw [hval]
    congr 1
    cases n <;> simp [signed]
    ring
  · split
    · rename_i h h1
      refine ⟨false, 0, 1, by decide, by rw [rnd_zero], ?_⟩
      have h1' : (m : ℚ) * 2 ^ k' = m' * 2 ^ k := by exact_mod_cast h1
      rw [hval]
      have : (signed n m : ℚ) * 2 ^ k' + signed n' m' * 2 ^ k = 0 := by
        cases n <;> cases n' <;> simp [signed] at h ⊢ <;> linarith
      rw [this]
      simp [signed]
    · split
      · rename_i h h1 h2
        refine ⟨n, _, _, hp, rfl, ?_⟩
        rw [hval]
        congr 1
        have hs : ((m * 2 ^ k' - m' * 2 ^ k : Nat) : ℚ) = m * 2 ^ k' - m' * 2 ^ k := by
          rw [Nat.cast_sub h2.le]; push_cast; rfl
        cases n <;> cases n' <;> simp [signed] at h ⊢ <;> rw [hs] <;> ring
      · rename_i h h1 h2
        refine ⟨n', _, _, hp, rfl, ?_⟩
        rw [hval]
        congr 1
        have hs : ((m' * 2 ^ k - m * 2 ^ k' : Nat) : ℚ) = m' * 2 ^ k - m * 2 ^ k' := by
          rw [Nat.cast_sub (by omega)]; push_cast; rfl
        cases n <;> cases n' <;> simp [signed] at h ⊢ <;> rw [hs] <;> ring

theorem mul_rnd (n : Bool) (m k : Nat) (n' : Bool) (m' k' : Nat) :
    ∃ s A D, 0 < D ∧ Float.mul (.fin n m k) (.fin n' m' k') = rnd s A D ∧ (signed s A : ℚ) / (D : Nat) = val n m k * val n' m' k' := by
  refine ⟨n != n', m * m', 2 ^ (k + k'), two_pow_pos _, rfl, ?_⟩
  unfold val
  push_cast
  rw [pow_add, div_mul_div_comm]
  congr 1
  cases n <;> cases n' <;> simp [signed]

theorem val_neg (n : Bool) (m k : Nat) : val (!n) m k = - val n m k := by
  unfold val
  cases n <;> simp [signed] <;> ring

/-- `x` is a finite number that differs from the amount `N` by at most `c` roundings below `2^b`. -/
def Near (b : Nat) (x : F) (N : Int) (c : Nat) : Prop :=
  ∃ n m k, x = .fin n m k ∧ |val n m k - (N : ℚ) / one| ≤ c * (2 ^ b / 2 ^ 54)

/-- Rounding adds one error. -/
theorem rnd_near (s : Bool) {A D b c : Nat} {N : Int} (hD : 0 < D) (hb : b ≤ 53)
    (h : |(signed s A : ℚ) / D - (N : ℚ) / one| ≤ c * (2 ^ b / 2 ^ 54)) (hN : |(N : ℚ)| / one + c * (2 ^ b / 2 ^ 54) < 2 ^ b) :
    Near b (rnd s A D) N (c + 1) := by
  have hD' : (0 : ℚ) < D := by exact_mod_cast hD
  have ho : (0 : ℚ) < (one : Nat) := by exact_mod_cast (by decide : 0 < one)
  have hlt : A < D * 2 ^ b := by
    have h1 : (A : ℚ) / D < 2 ^ b := by
      have e : (A : ℚ) / D = |(signed s A : ℚ) / D| := by rw [abs_div, signed_abs, abs_of_pos hD']
      have e2 : |(N : ℚ) / one| = |(N : ℚ)| / one := by rw [abs_div, abs_of_pos ho]
      have := abs_sub_abs_le_abs_sub ((signed s A : ℚ) / D) ((N : ℚ) / one)
      rw [e]
      rw [e2] at this
      linarith
    rw [div_lt_iff₀ hD'] at h1
    have : (A : ℚ) < ((D * 2 ^ b : Nat) : ℚ) := by push_cast; linarith
    exact_mod_cast this
  obtain ⟨m, k, e, he⟩ := rnd_val s hD hb hlt
  refine ⟨s, m, k, e, ?_⟩
  have := abs_sub_le (val s m k) ((signed s A : ℚ) / D) ((N : ℚ) / one)
  push_cast
  linarith

theorem Near.add {b c c' : Nat} {x y : F} {N M : Int} (hx : Near b x N c) (hy : Near b y M c') (hb : b ≤ 53)
    (hN : |((N + M : Int) : ℚ)| / one + ((c + c' : Nat) : ℚ) * (2 ^ b / 2 ^ 54) < 2 ^ b) : Near b (Float.add x y) (N + M) (c + c' + 1) := by
  obtain ⟨n, m, k, rfl, h1⟩ := hx
  obtain ⟨n', m', k', rfl, h2⟩ := hy
  obtain ⟨s, A, D, hD, e, hv⟩ := add_rnd n m k n' m' k'
  rw [e]
  refine rnd_near s hD hb ?_ hN
  rw [hv]
  have : val n m k + val n' m' k' - ((N + M : Int) : ℚ) / one = (val n m k - N / one) + (val n' m' k' - M / one) := by
    push_cast; ring
  rw [this]
  refine le_trans (abs_add_le _ _) ?_
  push_cast
  linarith

theorem Near.neg {b c : Nat} {x : F} {N : Int} (hx : Near b x N c) : Near b (Float.neg x) (-N) c := by
  obtain ⟨n, m, k, rfl, h1⟩ := hx
  refine ⟨!n, m, k, rfl, ?_⟩
  rw [val_neg]
  have : -val n m k - ((-N : Int) : ℚ) / one = -(val n m k - N / one) := by push_cast; ring
  rw [this, abs_neg]
  exact h1

/-- A whole number of times. -/
theorem Near.mul {b c : Nat} {x y : F} {N w : Int} (hx : Near b x N c) (hy : Holds y w) (hb : b ≤ 53)
    (hN : |((N * w : Int) : ℚ)| / one + ((c * w.natAbs : Nat) : ℚ) * (2 ^ b / 2 ^ 54) < 2 ^ b) :
    Near b (Float.mul x y) (N * w) (c * w.natAbs + 1) ∧ Near b (Float.mul y x) (N * w) (c * w.natAbs + 1) := by
  obtain ⟨n, m, k, rfl, h1⟩ := hx
  obtain ⟨n', m', k', rfl, h2⟩ := hy
  have hv2 : val n' m' k' = w := by
    unfold val
    rw [h2]
    push_cast
    field_simp
  have hb2 : |val n m k * w - ((N * w : Int) : ℚ) / one| ≤ ((c * w.natAbs : Nat) : ℚ) * (2 ^ b / 2 ^ 54) := by
    have : val n m k * w - ((N * w : Int) : ℚ) / one = (val n m k - N / one) * w := by push_cast; ring
    rw [this, abs_mul]
    have hw : |(w : ℚ)| = (w.natAbs : ℚ) := by rw [Nat.cast_natAbs, Int.cast_abs]
    rw [hw]
    push_cast
    calc |val n m k - N / one| * (w.natAbs : ℚ) ≤ (c * (2 ^ b / 2 ^ 54)) * w.natAbs :=
          mul_le_mul_of_nonneg_right h1 (by positivity)
      _ = _ := by ring
  constructor
  · obtain ⟨s, A, D, hD, e, hv⟩ := mul_rnd n m k n' m' k'
    rw [e]
    refine rnd_near s hD hb ?_ hN
    rw [hv, hv2]
    exact hb2
  · obtain ⟨s, A, D, hD, e, hv⟩ := mul_rnd n' m' k' n m k
    rw [e]
    refine rnd_near s hD hb ?_ hN
    rw [hv, hv2, mul_comm]
    exact hb2

/-- What is near to an amount is shown as this amount; zero perhaps with a sign. -/
theorem Near.shown {b c : Nat} {x : F} {N : Int} (h : Near b x N c) (hc : (c : ℚ) * (2 ^ b / 2 ^ 54) < 1 / (2 * one)) :
    ∃ n m k, x = .fin n m k ∧ halfEven (m * 10 ^ 10) (2 ^ k) = N.natAbs ∧ (N ≠ 0 → n = decide (N < 0)) := by
  obtain ⟨n, m, k, rfl, h1⟩ := h
  have ho : (0 : ℚ) < (one : Nat) := by exact_mod_cast (by decide : 0 < one)
  have hp : (0 : ℚ) < 2 ^ k := by positivity
  have h2 : |val n m k - (N : ℚ) / one| < 1 / (2 * one) := lt_of_le_of_lt h1 hc
  have h3 : |(signed n m : ℚ) * one - N * 2 ^ k| < 2 ^ k / 2 := by
    have e : (signed n m : ℚ) * one - N * 2 ^ k = (val n m k - (N : ℚ) / one) * (2 ^ k * one) := by
      unfold val
      field_simp
    rw [e, abs_mul, abs_of_pos (show (0 : ℚ) < 2 ^ k * (one : Nat) by positivity)]
    calc |val n m k - (N : ℚ) / one| * (2 ^ k * one) < 1 / (2 * one) * (2 ^ k * one) :=
          mul_lt_mul_of_pos_right h2 (by positivity)
      _ = 2 ^ k / 2 := by field_simp
  have h4 : 2 * (signed n m * one - N * 2 ^ k).natAbs < 2 ^ k := by
    have : ((2 * (signed n m * one - N * 2 ^ k).natAbs : Nat) : ℚ) < ((2 ^ k : Nat) : ℚ) := by
      rw [Nat.cast_mul, Nat.cast_natAbs, Int.cast_abs]
      push_cast
      linarith
    exact_mod_cast this
  have hpn := two_pow_pos k
  refine ⟨n, m, k, rfl, ?_, fun hN => ?_⟩
  · have hN : ((N * 2 ^ k).natAbs) = N.natAbs * 2 ^ k := by rw [Int.natAbs_mul, Int.natAbs_pow]; rfl
    have hs : (signed n m * one).natAbs = m * one := by
      rw [Int.natAbs_mul]
      cases n <;> simp [signed]
    have ho : (10 ^ 10 : Nat) = one := rfl
    rw [ho]
    generalize signed n m * one = u at *
    generalize N * 2 ^ k = v at *
    exact halfEven_near hpn (by omega) (by omega)
  · rcases lt_or_gt_of_ne hN with h | h
    · rw [decide_eq_true h]
      cases n
      · exfalso
        have : N * 2 ^ k ≤ -1 * 2 ^ k := Int.mul_le_mul_of_nonneg_right (by omega) (by positivity)
        have h0 : (0 : Int) ≤ signed false m * one := Int.mul_nonneg (by simp [signed]) (by omega)
        have hc : ((2 ^ k : Nat) : Int) = 2 ^ k := by push_cast; rfl
        generalize signed false m * one = u at *
        generalize N * 2 ^ k = v at *
        omega
      · rfl
    · rw [decide_eq_false (by omega)]
      cases n
      · rfl
      · exfalso
        have : 1 * 2 ^ k ≤ N * 2 ^ k := Int.mul_le_mul_of_nonneg_right (by omega) (by positivity)
        have h0 : signed true m * one ≤ 0 := Int.mul_nonpos_of_nonpos_of_nonneg (by simp [signed]) (by omega)
        have hc : ((2 ^ k : Nat) : Int) = 2 ^ k := by push_cast; rfl
        generalize signed true m * one = u at *
        generalize N * 2 ^ k = v at *
        omega

end Verif.Model.Float
