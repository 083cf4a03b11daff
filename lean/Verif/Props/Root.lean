import Verif.Lemmas.Root

/-!
# Properties of square roots: C110
-/

namespace Verif.Props.Root
open Verif.Model Verif.Model.Float Verif.Spec.Float Verif.Spec.Root
open Verif.Spec.Num (Separators Digits Sign)

/-- C110: the root of the square of a whole number is shown as the number without its sign, and the square of the root of a
whole number is shown as the number. -/
def C110_full : Prop := ∀ (tho dec : UInt8) (t sg : Text) (n : Nat), Separators tho dec → Writes tho dec t sg (n * one) →
  n < 2 ^ 53 → ∃ x, Float.read ⟨[tho], [dec]⟩ t = some x ∧
    toText ⟨[tho], [dec]⟩ (sqrt (mul x x)) = .ok (whole tho n) ∧
    (sg = [] → toText ⟨[tho], [dec]⟩ (mul (sqrt x) (sqrt x)) = .ok (whole tho n))

/-- The texts of the numbers that are shown like the whole number `n`. -/
theorem shown_whole (tho dec : UInt8) {M k n : Nat} (h : halfEven (M * 10 ^ 10) (2 ^ k) = n * 10 ^ 10) (hn : n < 10 ^ 21) :
    toText ⟨[tho], [dec]⟩ (.fin false M k) = .ok (whole tho n) := by
  have ht := toText_near tho dec (n := false) h (by omega)
  have hpl : plain tho dec (n * one) = Verif.Spec.Num.group tho (Verif.Spec.ReadBack.digits n) := by
    unfold plain
    rw [Nat.mul_div_cancel _ (by decide), Nat.mul_mod_left, places_zero, fraction_zeros, List.append_nil]
  rw [ht]
  show Out.ok ([] ++ plain tho dec (n * one)) = _
  rw [hpl]
  unfold whole
  rw [if_neg (by omega), Int.natAbs_natCast]

/-- C110, part: the root of the square of a whole number below 2^53 is shown as the number without its sign. -/
theorem C110_square {tho dec : UInt8} (hsep : Separators tho dec) {t sg : Text} {n : Nat} (h : Writes tho dec t sg (n * one))
    (hn : n < 2 ^ 53) :
    ∃ x, Float.read ⟨[tho], [dec]⟩ t = some x ∧ toText ⟨[tho], [dec]⟩ (sqrt (mul x x)) = .ok (whole tho n) := by
  obtain ⟨x, hr, m, k, rfl, hm⟩ := read_whole hsep h (Nat.le_of_lt hn)
  refine ⟨_, hr, ?_⟩
  have e : mul (.fin (decide (sg = [45])) m k) (.fin (decide (sg = [45])) m k) = rnd false (n * n) 1 := by
    show rnd (decide (sg = [45]) != decide (sg = [45])) (m * m) (2 ^ (k + k)) = _
    rw [bne_self_eq_false, hm, Nat.mul_mul_mul_comm, ← Nat.pow_add]
    exact rnd_one_scale _ _ _ (two_pow_pos _)
  rw [e]
  rcases Nat.eq_zero_or_pos n with rfl | h0
  · rw [Nat.mul_zero, rnd_zero]
    exact shown_whole tho dec (by rw [Nat.zero_mul]; exact halfEven_zero (by decide)) (by decide)
  · obtain ⟨s, hs⟩ := sqrt_rnd_square h0 hn
    rw [hs]
    refine shown_whole tho dec ?_ (by omega)
    rw [Nat.mul_right_comm]
    exact halfEven_exact _ (two_pow_pos s)

/-- `-94,906,267`; its square is not a `double`. -/
example : Separators 44 46 ∧ Writes 44 46 [45, 57, 52, 44, 57, 48, 54, 44, 50, 54, 55] [45] (94906267 * one) ∧ 94906267 < 2 ^ 53 ∧
    94906267 * 94906267 > 2 ^ 53 ∧ 94906267 * 94906267 % 2 = 1 :=
  ⟨by unfold Separators; decide, ⟨by decide, .inr rfl, [57, 52, 57, 48, 54, 50, 54, 55], ⟨by decide, by decide⟩,
    .inl ⟨by decide, by decide⟩⟩, by decide, by decide, by decide⟩

/-- C110: the root of a square that is written is shown as the number it is the square of. -/
theorem C110_perfect {tho dec : UInt8} (hsep : Separators tho dec) {t : Text} {n : Nat} (h : Writes tho dec t [] (n * n * one))
    (h0 : 0 < n) (hn : n < 2 ^ 53) :
    ∃ x, Float.read ⟨[tho], [dec]⟩ t = some x ∧ toText ⟨[tho], [dec]⟩ (sqrt x) = .ok (whole tho n) := by
  obtain ⟨A, D, hD, hA, hr⟩ := read_writes hsep h
  refine ⟨_, hr, ?_⟩
  have : A = n * n * D := by
    rw [Nat.mul_right_comm] at hA
    exact Nat.eq_of_mul_eq_mul_right (by decide) hA
  rw [this, rnd_one_scale _ _ _ hD]
  obtain ⟨s, hs⟩ := sqrt_rnd_square h0 hn
  have hneg : decide (([] : Text) = [45]) = false := rfl
  rw [hneg, hs]
  refine shown_whole tho dec ?_ (by omega)
  rw [Nat.mul_right_comm]
  exact halfEven_exact _ (two_pow_pos s)

/-- `49`. -/
example : Separators 44 46 ∧ Writes 44 46 [52, 57] [] (7 * 7 * one) ∧ (0 : Nat) < 7 ∧ 7 < 2 ^ 53 :=
  ⟨by unfold Separators; decide, ⟨by decide, .inl rfl, [52, 57], ⟨by decide, by decide⟩, .inl ⟨by decide, by decide⟩⟩,
    by decide, by decide⟩

/-- C110, part: the square of the root of a whole number below 2^18 is shown as the number. Missing: larger numbers, for which it
is false (`C110_violated`). -/
theorem C110_partial {tho dec : UInt8} (hsep : Separators tho dec) {t : Text} {n : Nat} (h : Writes tho dec t [] (n * one))
    (hn : n < 2 ^ 18) :
    ∃ x, Float.read ⟨[tho], [dec]⟩ t = some x ∧ toText ⟨[tho], [dec]⟩ (sqrt (mul x x)) = .ok (whole tho n) ∧
      toText ⟨[tho], [dec]⟩ (mul (sqrt x) (sqrt x)) = .ok (whole tho n) := by
  obtain ⟨x, hr, hx⟩ := C110_square hsep h (by omega)
  refine ⟨x, hr, hx, ?_⟩
  obtain ⟨y, hr', m, k, hy, hm⟩ := read_whole hsep h (by omega)
  have : x = y := Option.some.inj (hr.symm.trans hr')
  subst this
  have hneg : decide (([] : Text) = [45]) = false := rfl
  rw [hneg] at hy
  rcases Nat.eq_zero_or_pos n with rfl | h0
  · rw [hy, hm, Nat.zero_mul]
    have : mul (sqrt (.fin false 0 k)) (sqrt (.fin false 0 k)) = .fin false 0 0 := by
      unfold sqrt
      simp only [if_true]
      show rnd (false != false) (0 * 0) (2 ^ (k + k)) = _
      rw [Nat.mul_zero, rnd_zero]
      rfl
    rw [this]
    exact shown_whole tho dec (by rw [Nat.zero_mul]; exact halfEven_zero (by decide)) (by decide)
  · obtain ⟨l, h1, h2⟩ := exists_log4 h0
    have hl : l ≤ 8 := log4_le h1 (by omega)
    have hh : Holds x n := ⟨false, m, k, hy, by rw [hm]; simp [signed]⟩
    obtain ⟨N, e1, e2, e3, e4, e5⟩ := sqrt_holds hh h1 h2 (by omega)
    obtain ⟨M, k', e6, e7⟩ := square_root h0 hn hl e2 e3 e4 e5
    rw [e1, e6]
    exact shown_whole tho dec e7 (by omega)

/-- `2`. -/
example : Separators 44 46 ∧ Writes 44 46 [50] [] (2 * one) ∧ 2 < 2 ^ 18 :=
  ⟨by unfold Separators; decide, ⟨by decide, .inl rfl, [50], ⟨by decide, by decide⟩, .inl ⟨by decide, by decide⟩⟩, by decide⟩

theorem shown_small {n A : Nat} (hs : Shown n A) (hn : n < 2 ^ 38) : A < 10 ^ 31 := by
  rcases Nat.lt_or_ge A (10 ^ 31) with hA | hA
  · exact hA
  · exfalso
    obtain ⟨a1, -⟩ := hs
    have a2 : 10 ^ 30 * 10 ^ 30 ≤ (A - 1) * (A - 1) := Nat.mul_le_mul (by omega) (by omega)
    rw [Nat.pow_two] at a1
    generalize (A - 1) * (A - 1) = q at *
    omega

/-- C110: the root of a whole number below 2^38 is shown less than one unit of the tenth place away from the root. -/
theorem C110_shown {tho dec : UInt8} (hsep : Separators tho dec) {t : Text} {n : Nat} (h : Writes tho dec t [] (n * one))
    (h0 : 0 < n) (hn : n < 2 ^ 38) :
    ∃ x A, Float.read ⟨[tho], [dec]⟩ t = some x ∧ toText ⟨[tho], [dec]⟩ (sqrt x) = .ok (plain tho dec A) ∧ Shown n A := by
  obtain ⟨x, hr, m, k, hy, hm⟩ := read_whole hsep h (by omega)
  have hneg : decide (([] : Text) = [45]) = false := rfl
  rw [hneg] at hy
  obtain ⟨l, h1, h2⟩ := exists_log4 h0
  have hl : l ≤ 18 := log4_le h1 (by omega)
  have hh : Holds x n := ⟨false, m, k, hy, by rw [hm]; simp [signed]⟩
  obtain ⟨N, e1, e2, e3, e4, e5⟩ := sqrt_holds hh h1 h2 (by omega)
  have hs := root_shown hl e3 e4 e5
  obtain ⟨A, hA⟩ : ∃ A, halfEven (N * 10 ^ 10) (2 ^ (52 - l)) = A := ⟨_, rfl⟩
  rw [hA] at hs
  refine ⟨x, A, hr, ?_, hs⟩
  rw [e1, toText_near tho dec (n := false) hA (shown_small hs hn)]
  rfl

/-- The root of `2` is shown as `1.4142135624`. -/
example : Writes 44 46 [50] [] (2 * one) ∧ (Float.read ⟨[44], [46]⟩ [50]).map (fun x => toText ⟨[44], [46]⟩ (sqrt x)) =
    some (.ok [49, 46, 52, 49, 52, 50, 49, 51, 53, 54, 50, 52]) ∧ Shown 2 14142135624 :=
  ⟨⟨by decide, .inl rfl, [50], ⟨by decide, by decide⟩, .inl ⟨by decide, by decide⟩⟩, by decide +kernel, by unfold Shown; decide⟩

/-- C110: the root of any positive number is the number of 53 binary digits nearest to it. -/
theorem C110_nearest {m k : Nat} (hm : 0 < m) :
    ∃ R s, sqrt (.fin false m k) = .fin false R s ∧ Nearest m k R s :=
  sqrt_nearest hm

/-- Numbers below 1, and beyond 2^106. -/
example : sqrt (.fin false 1 2) = .fin false (2 ^ 52) 53 ∧ sqrt (.fin false (2 ^ 200) 0) = .fin false (2 ^ 52 * 2 ^ 48) 0 := by
  decide +kernel

/-- C110: negative numbers have no root; zero keeps its sign. -/
theorem C110_negative (m k : Nat) :
    (0 < m → sqrt (.fin true m k) = .nan) ∧ sqrt (.inf true) = .nan ∧ sqrt .nan = .nan ∧ sqrt (.inf false) = .inf false ∧
      ∀ n, sqrt (.fin n 0 k) = .fin n 0 k := by
  refine ⟨fun h => ?_, rfl, rfl, rfl, fun n => by simp [sqrt]⟩
  simp [sqrt, Nat.pos_iff_ne_zero.1 h]

example : sqrt (.fin true 1 0) = .nan := by decide +kernel

/-- C110 is false as stated: the square of the root of `262147` is shown as `262,146.9999999999`. -/
theorem C110_violated : ¬ C110_full := by
  intro h
  obtain ⟨x, h1, -, h2⟩ := h 44 46 [50, 54, 50, 49, 52, 55] [] 262147 (by unfold Separators; decide)
    ⟨by decide, .inl rfl, [50, 54, 50, 49, 52, 55], ⟨by decide, by decide⟩, .inl ⟨by decide, by decide⟩⟩ (by decide)
  have e : (Float.read ⟨[44], [46]⟩ [50, 54, 50, 49, 52, 55]).map (fun x => toText ⟨[44], [46]⟩ (mul (sqrt x) (sqrt x)))
      = some (.ok [50, 54, 50, 44, 49, 52, 54, 46, 57, 57, 57, 57, 57, 57, 57, 57, 57, 57]) := by decide +kernel
  rw [h1, Option.map_some, h2 rfl] at e
  exact absurd (Out.ok.inj (Option.some.inj e)) (by decide +kernel)

end Verif.Props.Root
