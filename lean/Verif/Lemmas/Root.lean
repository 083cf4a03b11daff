import Verif.Model.Root
import Verif.Spec.Root
import Verif.Lemmas.FloatText

/-! # Square roots: lemmas -/

namespace Verif.Model.Float

theorem isqrt_spec : ∀ (f n : Nat), n < 4 ^ f → isqrt f n * isqrt f n ≤ n ∧ n < (isqrt f n + 1) * (isqrt f n + 1)
  | 0, n, h => by simp only [isqrt]; omega
  | f + 1, n, h => by
    have ih := isqrt_spec f (n / 4) (by rw [Nat.pow_succ] at h; omega)
    simp only [isqrt]
    generalize isqrt f (n / 4) = q at *
    have e1 : 2 * q * (2 * q) = 4 * (q * q) := by rw [Nat.mul_mul_mul_comm]
    have e2 : (2 * q + 2) * (2 * q + 2) = 4 * ((q + 1) * (q + 1)) := by
      rw [show 2 * q + 2 = 2 * (q + 1) by omega, Nat.mul_mul_mul_comm]
    split
    · rename_i hc
      refine ⟨hc, ?_⟩
      rw [show 2 * q + 1 + 1 = 2 * q + 2 by omega, e2]
      omega
    · rename_i hc
      refine ⟨by omega, by omega⟩

theorem isqrt_log (n : Nat) : isqrt (n.log2 + 1) n * isqrt (n.log2 + 1) n ≤ n ∧
    n < (isqrt (n.log2 + 1) n + 1) * (isqrt (n.log2 + 1) n + 1) := by
  apply isqrt_spec
  calc n < 2 ^ (n.log2 + 1) := Nat.lt_log2_self
    _ ≤ 4 ^ (n.log2 + 1) := Nat.pow_le_pow_left (by decide) _

/-- The nearest whole number is at most one half away. -/
theorem rootNear_spec (a : Nat) {d : Nat} (hd : 0 < d) :
    (2 * rootNear a d - 1) * (2 * rootNear a d - 1) * d ≤ 4 * a ∧
      4 * a ≤ (2 * rootNear a d + 1) * (2 * rootNear a d + 1) * d := by
  obtain ⟨h1, h2⟩ := isqrt_log (a / d)
  unfold rootNear
  generalize isqrt ((a / d).log2 + 1) (a / d) = r at *
  have g1 : r * r * d ≤ a := (Nat.le_div_iff_mul_le hd).1 h1
  have g2 : a < (r + 1) * (r + 1) * d := (Nat.div_lt_iff_lt_mul hd).1 h2
  dsimp only
  split
  · rename_i hc
    rw [show 2 * (r + 1) - 1 = 2 * r + 1 by omega]
    refine ⟨by omega, ?_⟩
    have : (2 * (r + 1)) * (2 * (r + 1)) * d ≤ (2 * (r + 1) + 1) * (2 * (r + 1) + 1) * d :=
      Nat.mul_le_mul_right d (Nat.mul_le_mul (by omega) (by omega))
    have e : (2 * (r + 1)) * (2 * (r + 1)) * d = 4 * ((r + 1) * (r + 1) * d) := by rw [Nat.mul_mul_mul_comm, Nat.mul_assoc]
    omega
  · rename_i hc
    refine ⟨?_, by omega⟩
    have : (2 * r - 1) * (2 * r - 1) * d ≤ (2 * r) * (2 * r) * d :=
      Nat.mul_le_mul_right d (Nat.mul_le_mul (by omega) (by omega))
    have e : (2 * r) * (2 * r) * d = 4 * (r * r * d) := by rw [Nat.mul_mul_mul_comm, Nat.mul_assoc]
    omega

theorem rootNear_eq {a d N : Nat} (hd : 0 < d) (h1 : (2 * N - 1) * (2 * N - 1) * d < 4 * a)
    (h2 : 4 * a < (2 * N + 1) * (2 * N + 1) * d) : rootNear a d = N := by
  obtain ⟨g1, g2⟩ := rootNear_spec a hd
  generalize rootNear a d = R at *
  rcases Nat.lt_trichotomy R N with h | h | h
  · exfalso
    have : (2 * R + 1) * (2 * R + 1) * d ≤ (2 * N - 1) * (2 * N - 1) * d :=
      Nat.mul_le_mul_right d (Nat.mul_le_mul (by omega) (by omega))
    omega
  · exact h
  · exfalso
    have : (2 * N + 1) * (2 * N + 1) * d ≤ (2 * R - 1) * (2 * R - 1) * d :=
      Nat.mul_le_mul_right d (Nat.mul_le_mul (by omega) (by omega))
    omega

/-- The nearest whole number keeps to bounds that are whole. -/
theorem rootNear_ge {a d n : Nat} (hd : 0 < d) (h : n * n * d ≤ a) : n ≤ rootNear a d := by
  obtain ⟨-, g2⟩ := rootNear_spec a hd
  generalize rootNear a d = R at *
  rcases Nat.lt_or_ge R n with hl | hl
  · exfalso
    have : (2 * R + 1) * (2 * R + 1) * d < 2 * n * (2 * n) * d :=
      Nat.mul_lt_mul_of_pos_right (Nat.mul_lt_mul'' (by omega) (by omega)) hd
    have e : (2 * n) * (2 * n) * d = 4 * (n * n * d) := by rw [Nat.mul_mul_mul_comm, Nat.mul_assoc]
    omega
  · exact hl

theorem rootNear_le {a d n : Nat} (hd : 0 < d) (h : a ≤ n * n * d) : rootNear a d ≤ n := by
  obtain ⟨g1, -⟩ := rootNear_spec a hd
  generalize rootNear a d = R at *
  rcases Nat.lt_or_ge n R with hl | hl
  · exfalso
    have : 2 * n * (2 * n) * d < (2 * R - 1) * (2 * R - 1) * d :=
      Nat.mul_lt_mul_of_pos_right (Nat.mul_lt_mul'' (by omega) (by omega)) hd
    have e : (2 * n) * (2 * n) * d = 4 * (n * n * d) := by rw [Nat.mul_mul_mul_comm, Nat.mul_assoc]
    omega
  · exact hl

theorem four_pow (n : Nat) : 4 ^ n = 2 ^ n * 2 ^ n := by rw [← Nat.mul_pow]

/-- `4^(log2 n / 2) ≤ n < 4^(log2 n / 2 + 1)`. -/
theorem log4 {n : Nat} (h : n ≠ 0) : 4 ^ (n.log2 / 2) ≤ n ∧ n < 4 ^ (n.log2 / 2 + 1) := by
  have l1 := Nat.log2_self_le h
  have l2 := Nat.lt_log2_self (n := n)
  rw [four_pow, four_pow, ← Nat.pow_add, ← Nat.pow_add]
  exact ⟨Nat.le_trans (Nat.pow_le_pow_right (by decide) (by omega)) l1,
    Nat.lt_of_lt_of_le l2 (Nat.pow_le_pow_right (by decide) (by omega))⟩

/-- The places are such that the root has 53 binary digits. -/
theorem rootPlaces_spec {m k : Nat} (hm : 0 < m) :
    2 ^ 52 * 2 ^ 52 * (2 ^ k * 4 ^ (rootPlaces m k).2) ≤ m * 4 ^ (rootPlaces m k).1 ∧
      m * 4 ^ (rootPlaces m k).1 ≤ 2 ^ 53 * 2 ^ 53 * (2 ^ k * 4 ^ (rootPlaces m k).2) := by
  have hk := two_pow_pos k
  have a52 : (2 : Nat) ^ 52 * 2 ^ 52 = 4 ^ 52 := rfl
  have a53 : (2 : Nat) ^ 53 * 2 ^ 53 = 4 ^ 53 := rfl
  rw [a52, a53]
  unfold rootPlaces
  split
  · rename_i h
    have hq : m / 2 ^ k ≠ 0 := by
      have := Nat.div_pos h hk
      omega
    obtain ⟨l1, l2⟩ := log4 hq
    dsimp only
    generalize (m / 2 ^ k).log2 / 2 = l at *
    have g1 : 4 ^ l * 2 ^ k ≤ m := (Nat.le_div_iff_mul_le hk).1 l1
    have g2 : m < 4 ^ (l + 1) * 2 ^ k := (Nat.div_lt_iff_lt_mul hk).1 l2
    have e1 : 52 + (l - 52) = l + (52 - l) := by omega
    constructor
    · calc 4 ^ 52 * (2 ^ k * 4 ^ (l - 52)) = 2 ^ k * 4 ^ (52 + (l - 52)) := by rw [Nat.pow_add, Nat.mul_left_comm]
        _ = 4 ^ l * 2 ^ k * 4 ^ (52 - l) := by rw [e1, Nat.pow_add, ← Nat.mul_assoc, Nat.mul_comm (2 ^ k)]
        _ ≤ m * 4 ^ (52 - l) := Nat.mul_le_mul_right _ g1
    · calc m * 4 ^ (52 - l) ≤ 4 ^ (l + 1) * 2 ^ k * 4 ^ (52 - l) := Nat.mul_le_mul_right _ (Nat.le_of_lt g2)
        _ = 2 ^ k * 4 ^ (l + 1 + (52 - l)) := by rw [Nat.pow_add 4 (l + 1), Nat.mul_comm (4 ^ (l + 1)), Nat.mul_assoc]
        _ = 4 ^ 53 * (2 ^ k * 4 ^ (l - 52)) := by
          rw [show l + 1 + (52 - l) = 53 + (l - 52) by omega, Nat.pow_add, Nat.mul_left_comm]
  · rename_i h
    have hc : (2 ^ k - 1) / m ≠ 0 := by
      have := Nat.div_pos (a := 2 ^ k - 1) (b := m) (by omega) hm
      omega
    obtain ⟨l1, l2⟩ := log4 hc
    dsimp only
    generalize ((2 ^ k - 1) / m).log2 / 2 = l at *
    have g1 : 4 ^ l * m ≤ 2 ^ k := by
      have := (Nat.le_div_iff_mul_le hm).1 l1
      omega
    have g2 : 2 ^ k ≤ 4 ^ (l + 1) * m := by
      have := (Nat.div_lt_iff_lt_mul hm).1 l2
      omega
    rw [Nat.pow_zero, Nat.mul_one]
    constructor
    · calc 4 ^ 52 * 2 ^ k ≤ 4 ^ 52 * (4 ^ (l + 1) * m) := Nat.mul_le_mul_left _ g2
        _ = m * 4 ^ (53 + l) := by
          rw [← Nat.mul_assoc, ← Nat.pow_add, Nat.mul_comm m, show 52 + (l + 1) = 53 + l by omega]
    · calc m * 4 ^ (53 + l) = 4 ^ 53 * (4 ^ l * m) := by rw [Nat.pow_add, Nat.mul_comm m, Nat.mul_assoc]
        _ ≤ 4 ^ 53 * 2 ^ k := Nat.mul_le_mul_left _ g1

theorem sqrt_pos {m k : Nat} (hm : 0 < m) : sqrt (.fin false m k) =
    .fin false (rootNear (m * 4 ^ (rootPlaces m k).1) (2 ^ k * 4 ^ (rootPlaces m k).2) * 2 ^ (rootPlaces m k).2) (rootPlaces m k).1 := by
  unfold sqrt
  simp only [Nat.pos_iff_ne_zero.1 hm, if_false, Bool.false_eq_true]

theorem square_mul (x e k : Nat) : (x * 2 ^ e) ^ 2 * 2 ^ k = x * x * (2 ^ k * 4 ^ e) := by
  rw [Nat.mul_pow, Nat.pow_two, Nat.pow_two, ← four_pow, Nat.mul_assoc, Nat.mul_comm (4 ^ e)]

theorem sqrt_nearest {m k : Nat} (hm : 0 < m) :
    ∃ R s, sqrt (.fin false m k) = .fin false R s ∧ Spec.Root.Nearest m k R s := by
  have hd : 0 < 2 ^ k * 4 ^ (rootPlaces m k).2 := Nat.mul_pos (two_pow_pos k) (Nat.pow_pos (by decide))
  obtain ⟨p1, p2⟩ := rootPlaces_spec (k := k) hm
  obtain ⟨r1, r2⟩ := rootNear_spec (m * 4 ^ (rootPlaces m k).1) hd
  refine ⟨_, _, sqrt_pos hm, _, _, rfl, rootNear_ge hd p1, rootNear_le hd p2, ?_, ?_⟩
  · rw [square_mul, Nat.mul_assoc 4]; exact r1
  · rw [square_mul, Nat.mul_assoc 4]; exact r2

/-! ### Whole numbers -/

/-- The root of a whole number below `4^53`. -/
theorem sqrt_whole {W : Nat} (K : Nat) {l : Nat} (hW : 0 < W) (h1 : 4 ^ l ≤ W) (h2 : W < 4 ^ (l + 1)) (hl : l ≤ 52) :
    sqrt (.fin false (W * 2 ^ K) K) = .fin false (rootNear (W * 2 ^ K * 4 ^ (52 - l)) (2 ^ K)) (52 - l) := by
  have hk := two_pow_pos K
  have hp : rootPlaces (W * 2 ^ K) K = (52 - l, 0) := by
    unfold rootPlaces
    rw [if_pos (Nat.le_mul_of_pos_left _ hW), Nat.mul_div_cancel _ hk]
    obtain ⟨l1, l2⟩ := log4 (Nat.pos_iff_ne_zero.1 hW)
    have : W.log2 / 2 = l := by
      generalize W.log2 / 2 = l' at *
      have a1 : l' < l + 1 := (Nat.pow_lt_pow_iff_right (a := 4) (by decide)).1 (Nat.lt_of_le_of_lt l1 h2)
      have a2 : l < l' + 1 := (Nat.pow_lt_pow_iff_right (a := 4) (by decide)).1 (Nat.lt_of_le_of_lt h1 l2)
      omega
    dsimp only
    rw [this, Nat.sub_eq_zero_of_le hl]
  rw [sqrt_pos (Nat.mul_pos hW hk), hp]
  simp only [Nat.pow_zero, Nat.mul_one]

theorem double_sq (N : Nat) : 2 * N * (2 * N) = 4 * (N * N) := by rw [Nat.mul_mul_mul_comm]

theorem odd_sq (N : Nat) : (2 * N + 1) * (2 * N + 1) = 4 * (N * N) + 4 * N + 1 := by grind

theorem odd_sq' {N : Nat} (h : 0 < N) : (2 * N - 1) * (2 * N - 1) + 4 * N = 4 * (N * N) + 1 := by
  obtain ⟨j, rfl⟩ : ∃ j, N = j + 1 := ⟨N - 1, by omega⟩
  rw [show 2 * (j + 1) - 1 = 2 * j + 1 by omega]
  grind

/-- The root is known if it is known well enough. -/
theorem sqrt_near {W K n l D : Nat} (h1 : 4 ^ l ≤ W) (h2 : W < 4 ^ (l + 1)) (hl : l ≤ 52)
    (hD : D < n * 2 ^ (52 - l))
    (b1 : W * 4 ^ (52 - l) ≤ n * 2 ^ (52 - l) * (n * 2 ^ (52 - l)) + D)
    (b2 : n * 2 ^ (52 - l) * (n * 2 ^ (52 - l)) ≤ W * 4 ^ (52 - l) + D) :
    sqrt (.fin false (W * 2 ^ K) K) = .fin false (n * 2 ^ (52 - l)) (52 - l) := by
  have hk := two_pow_pos K
  have hW : 0 < W := Nat.lt_of_lt_of_le (Nat.pow_pos (by decide)) h1
  rw [sqrt_whole K hW h1 h2 hl]
  congr 1
  have e : 4 * (W * 2 ^ K * 4 ^ (52 - l)) = 4 * (W * 4 ^ (52 - l)) * 2 ^ K := by rw [Nat.mul_right_comm W, Nat.mul_assoc 4]
  apply rootNear_eq hk
  · rw [e]
    have := odd_sq' (Nat.lt_of_le_of_lt (Nat.zero_le _) hD)
    exact Nat.mul_lt_mul_of_pos_right (by omega) hk
  · rw [e]
    have := odd_sq (n * 2 ^ (52 - l))
    exact Nat.mul_lt_mul_of_pos_right (by omega) hk

/-- The root of the rounded square. -/
theorem sqrt_rnd_square {n : Nat} (hn : 0 < n) (h : n < 2 ^ 53) :
    ∃ s, sqrt (rnd false (n * n) 1) = .fin false (n * 2 ^ s) s := by
  have hn0 := Nat.pos_iff_ne_zero.1 hn
  have l1 := Nat.log2_self_le hn0
  have l2 := Nat.lt_log2_self (n := n)
  have hB : n.log2 ≤ 52 := by
    have := (Nat.log2_lt hn0).2 h
    omega
  generalize n.log2 = B at *
  have q1 : 4 ^ B ≤ n * n := by rw [four_pow]; exact Nat.mul_le_mul l1 l1
  have q2 : n * n < 4 ^ (B + 1) := by rw [four_pow]; exact Nat.mul_lt_mul'' l2 l2
  have ex : n * n * 4 ^ (52 - B) = n * 2 ^ (52 - B) * (n * 2 ^ (52 - B)) := by rw [four_pow, Nat.mul_mul_mul_comm]
  have hN : 2 ^ 52 ≤ n * 2 ^ (52 - B) := by
    have := Nat.mul_le_mul_right (2 ^ (52 - B)) l1
    rwa [← Nat.pow_add, show B + (52 - B) = 52 by omega] at this
  refine ⟨52 - B, ?_⟩
  rcases Nat.lt_or_ge (2 ^ 53) (n * n) with hb | hb
  · have hnn : n * n ≠ 0 := by omega
    have L1 := Nat.log2_self_le hnn
    have L2 := Nat.lt_log2_self (n := n * n)
    have hL1 : 2 * B < (n * n).log2 + 1 := by
      rw [four_pow, ← Nat.pow_add] at q1
      have := (Nat.pow_lt_pow_iff_right (a := 2) (by decide)).1 (Nat.lt_of_le_of_lt q1 L2)
      omega
    have hL2 : (n * n).log2 < 2 * B + 2 := by
      rw [four_pow, ← Nat.pow_add] at q2
      have := (Nat.pow_lt_pow_iff_right (a := 2) (by decide)).1 (Nat.lt_of_le_of_lt L1 q2)
      omega
    have hL3 : 53 < (n * n).log2 + 1 := (Nat.pow_lt_pow_iff_right (a := 2) (by decide)).1 (Nat.lt_trans hb L2)
    have hr : rnd false (n * n) 1 = if halfEven (n * n) (1 * 2 ^ ((n * n).log2 - 52)) * 2 ^ ((n * n).log2 - 52) < 2 ^ 1024 then
        .fin false (halfEven (n * n) (1 * 2 ^ ((n * n).log2 - 52)) * 2 ^ ((n * n).log2 - 52)) 0 else .inf false := by
      unfold rnd
      rw [if_neg hnn, if_neg (by omega), Nat.div_one]
    rw [hr]
    clear hr
    have hsq : 2 ^ (n * n).log2 * 4 ^ (52 - B) ≤ n * 2 ^ (52 - B) * (n * 2 ^ (52 - B)) := by
      rw [← ex]; exact Nat.mul_le_mul_right _ L1
    generalize (n * n).log2 = L at *
    have hp : 0 < 1 * 2 ^ (L - 52) := by rw [Nat.one_mul]; exact two_pow_pos _
    obtain ⟨e1, e2⟩ := halfEven_bounds (n * n) hp
    have e3 : 2 ^ (2 * B - (L - 52)) ≤ halfEven (n * n) (1 * 2 ^ (L - 52)) := by
      apply halfEven_ge hp
      rw [Nat.one_mul, ← Nat.pow_add, show 2 * B - (L - 52) + (L - 52) = B + B by omega, Nat.pow_add, ← four_pow]
      have := two_pow_pos (L - 52)
      omega
    rw [Nat.one_mul] at *
    generalize halfEven (n * n) (2 ^ (L - 52)) = H at *
    have hV1 : 4 ^ B ≤ H * 2 ^ (L - 52) := by
      have := Nat.mul_le_mul_right (2 ^ (L - 52)) e3
      rwa [← Nat.pow_add, show 2 * B - (L - 52) + (L - 52) = B + B by omega, Nat.pow_add, ← four_pow] at this
    have hV2 : H * 2 ^ (L - 52) < 4 ^ (B + 1) := by
      have a1 : n * n + 2 * 2 ^ (B + 1) ≤ 4 ^ (B + 1) + 1 := by
        obtain ⟨j, hj⟩ : ∃ j, 2 ^ (B + 1) = j + 1 := ⟨2 ^ (B + 1) - 1, by have := two_pow_pos (B + 1); omega⟩
        have : n * n ≤ j * j := Nat.mul_le_mul (by omega) (by omega)
        rw [four_pow, hj]
        grind
      have a2 : 2 ^ (L - 52) ≤ 2 ^ (B + 1) := Nat.pow_le_pow_right (by decide) (by omega)
      have := two_pow_pos (B + 1)
      omega
    have hlt : H * 2 ^ (L - 52) < 2 ^ 1024 := by
      refine Nat.lt_of_lt_of_le hV2 ?_
      rw [four_pow, ← Nat.pow_add]
      exact Nat.pow_le_pow_right (by decide) (by omega)
    rw [if_pos hlt]
    have hb1 : 2 * (H * 2 ^ (L - 52) * 4 ^ (52 - B)) ≤ 2 * (n * n * 4 ^ (52 - B)) + 2 ^ (L - 52) * 4 ^ (52 - B) := by
      have := Nat.mul_le_mul_right (4 ^ (52 - B)) e2
      rwa [Nat.add_mul, Nat.mul_assoc 2 (H * _), Nat.mul_assoc 2 (n * n)] at this
    have hb2 : 2 * (n * n * 4 ^ (52 - B)) ≤ 2 * (H * 2 ^ (L - 52) * 4 ^ (52 - B)) + 2 ^ (L - 52) * 4 ^ (52 - B) := by
      have := Nat.mul_le_mul_right (4 ^ (52 - B)) e1
      rwa [Nat.add_mul, Nat.mul_assoc 2 (H * _), Nat.mul_assoc 2 (n * n)] at this
    have hd : 2 ^ (L - 52) * 4 ^ (52 - B) = 2 ^ (L - 2 * B + 52) := by
      rw [four_pow, ← Nat.pow_add, ← Nat.pow_add]
      congr 1
      omega
    rw [hd, ex] at hb1 hb2
    have hgoal : sqrt (.fin false (H * 2 ^ (L - 52) * 2 ^ 0) 0) = .fin false (n * 2 ^ (52 - B)) (52 - B) := by
      rcases (by omega : L = 2 * B ∨ L = 2 * B + 1) with hc | hc
      · subst hc
        rw [Nat.sub_self] at hb1 hb2
        exact sqrt_near (D := 2 ^ 51) hV1 hV2 hB (by omega) (by omega) (by omega)
      · subst hc
        rw [show 2 * B + 1 - 2 * B = 1 by omega] at hb1 hb2
        refine sqrt_near (D := 2 ^ 52) hV1 hV2 hB ?_ (by omega) (by omega)
        have : 2 ^ (2 * B + 1) * 4 ^ (52 - B) = 2 ^ 105 := by
          rw [four_pow, ← Nat.pow_add, ← Nat.pow_add]
          congr 1
          omega
        rw [this] at hsq
        rcases Nat.lt_or_ge (2 ^ 52) (n * 2 ^ (52 - B)) with hx | hx
        · exact hx
        · exfalso
          have := Nat.mul_le_mul hx hx
          omega
    rwa [Nat.pow_zero, Nat.mul_one] at hgoal
  · obtain ⟨m, k, h1, h2⟩ := rnd_whole false (n * n) (d := 1) (by decide) hb
    rw [Nat.mul_one] at h1
    rw [h1, h2]
    exact sqrt_near (D := 0) q1 q2 hB (by omega) (by omega) (by omega)

theorem rnd_one_scale (neg : Bool) (a c : Nat) (hc : 0 < c) : rnd neg (a * c) c = rnd neg a 1 := by
  have := rnd_scale neg a (d := 1) (c := c) (by decide) hc
  rwa [Nat.one_mul] at this

/-- The root of the square of a whole number is the number without its sign. -/
theorem sqrt_square {x : F} {z : Int} (h : Holds x z) (hz : z.natAbs < 2 ^ 53) : Holds (sqrt (mul x x)) z.natAbs := by
  obtain ⟨n, m, k, rfl, hm, -⟩ := h.get
  have he : mul (.fin n m k) (.fin n m k) = rnd false (z.natAbs * z.natAbs) 1 := by
    show rnd (n != n) (m * m) (2 ^ (k + k)) = _
    rw [bne_self_eq_false, hm, Nat.mul_mul_mul_comm, ← Nat.pow_add]
    exact rnd_one_scale _ _ _ (two_pow_pos _)
  rw [he]
  rcases Nat.eq_zero_or_pos z.natAbs with h0 | h0
  · rw [h0, Nat.mul_zero, rnd_zero]
    exact ⟨false, 0, 0, by simp [sqrt], by simp [signed]⟩
  · obtain ⟨s, hs⟩ := sqrt_rnd_square h0 hz
    refine ⟨_, _, _, hs, ?_⟩
    simp [signed]

/-! ### What is shown -/

/-- The root of a whole number, with its error. -/
theorem sqrt_holds {x : F} {v l : Nat} (h : Holds x v) (h1 : 4 ^ l ≤ v) (h2 : v < 4 ^ (l + 1)) (hl : l ≤ 52) :
    ∃ N, sqrt x = .fin false N (52 - l) ∧ N ≤ 2 ^ 53 ∧ 2 ^ 52 ≤ N ∧
      4 * (v * 4 ^ (52 - l)) ≤ (2 * N + 1) * (2 * N + 1) ∧ (2 * N - 1) * (2 * N - 1) ≤ 4 * (v * 4 ^ (52 - l)) := by
  obtain ⟨n, m, k, rfl, hm, hs⟩ := h.get
  have hv : 0 < v := Nat.lt_of_lt_of_le (Nat.pow_pos (by decide)) h1
  have hk := two_pow_pos k
  have hn : n = false := by
    rw [hs (by omega)]
    exact decide_eq_false (by omega)
  subst hn
  rw [Int.natAbs_natCast] at hm
  subst hm
  rw [sqrt_whole k hv h1 h2 hl]
  have e : v * 2 ^ k * 4 ^ (52 - l) = v * 4 ^ (52 - l) * 2 ^ k := Nat.mul_right_comm _ _ _
  have e' : 4 * (v * 4 ^ (52 - l) * 2 ^ k) = 4 * (v * 4 ^ (52 - l)) * 2 ^ k := (Nat.mul_assoc _ _ _).symm
  have p : 4 ^ l * 4 ^ (52 - l) = 4 ^ 52 := by rw [← Nat.pow_add]; congr 1; omega
  have p' : 4 ^ (l + 1) * 4 ^ (52 - l) = 4 ^ 53 := by rw [← Nat.pow_add]; congr 1; omega
  have g1 : 2 ^ 52 * 2 ^ 52 * 2 ^ k ≤ v * 4 ^ (52 - l) * 2 ^ k := by
    refine Nat.mul_le_mul_right _ ?_
    rw [← four_pow, ← p]
    exact Nat.mul_le_mul_right _ h1
  have g2 : v * 4 ^ (52 - l) * 2 ^ k ≤ 2 ^ 53 * 2 ^ 53 * 2 ^ k := by
    refine Nat.mul_le_mul_right _ ?_
    rw [← four_pow, ← p']
    exact Nat.mul_le_mul_right _ (Nat.le_of_lt h2)
  obtain ⟨r1, r2⟩ := rootNear_spec (v * 4 ^ (52 - l) * 2 ^ k) hk
  rw [e'] at r1 r2
  rw [e]
  exact ⟨_, rfl, rootNear_le hk g2, rootNear_ge hk g1, Nat.le_of_mul_le_mul_right r2 hk, Nat.le_of_mul_le_mul_right r1 hk⟩

/-- The logarithm of a whole number to the base four. -/
theorem exists_log4 {v : Nat} (hv : 0 < v) : ∃ l, 4 ^ l ≤ v ∧ v < 4 ^ (l + 1) :=
  ⟨_, log4 (Nat.pos_iff_ne_zero.1 hv)⟩

theorem log4_le {v l b : Nat} (h1 : 4 ^ l ≤ v) (h2 : v < 4 ^ (b + 1)) : l ≤ b := by
  have := (Nat.pow_lt_pow_iff_right (a := 4) (by decide)).1 (Nat.lt_of_le_of_lt h1 h2)
  omega

/-- What is shown of a root is less than one unit of the tenth place away. -/
theorem root_shown {v l N : Nat} (hl : l ≤ 18) (hN : 2 ^ 52 ≤ N)
    (h2 : 4 * (v * 4 ^ (52 - l)) ≤ (2 * N + 1) * (2 * N + 1)) (h1 : (2 * N - 1) * (2 * N - 1) ≤ 4 * (v * 4 ^ (52 - l))) :
    Spec.Root.Shown v (halfEven (N * 10 ^ 10) (2 ^ (52 - l))) := by
  have hs : 2 ^ 34 ≤ 2 ^ (52 - l) := Nat.pow_le_pow_right (by decide) (by omega)
  rw [four_pow] at h1 h2
  generalize 2 ^ (52 - l) = S at *
  obtain ⟨e1, e2⟩ := halfEven_bounds (N * 10 ^ 10) (d := S) (by omega)
  generalize halfEven (N * 10 ^ 10) S = A at *
  have hS : 0 < S * S := Nat.mul_pos (by omega) (by omega)
  have key1 : 2 * (A - 1) * S < (2 * N - 1) * 10 ^ 10 := by
    rcases Nat.eq_zero_or_pos A with rfl | hA
    · simp only [Nat.zero_sub, Nat.mul_zero, Nat.zero_mul]; omega
    · obtain ⟨j, rfl⟩ : ∃ j, A = j + 1 := ⟨A - 1, by omega⟩
      rw [Nat.add_mul, Nat.one_mul] at e2
      rw [Nat.add_sub_cancel, Nat.mul_assoc]
      omega
  have key2 : (2 * N + 1) * 10 ^ 10 < 2 * (A + 1) * S := by
    rw [Nat.mul_assoc 2, Nat.add_mul A, Nat.one_mul]
    omega
  have q1 := Nat.mul_lt_mul'' key1 key1
  have q2 := Nat.mul_lt_mul'' key2 key2
  constructor
  · have : 4 * (S * S) * (A - 1) ^ 2 < 4 * (S * S) * (v * 10 ^ 20) := by
      calc 4 * (S * S) * (A - 1) ^ 2 = 2 * (A - 1) * S * (2 * (A - 1) * S) := by grind
        _ < (2 * N - 1) * 10 ^ 10 * ((2 * N - 1) * 10 ^ 10) := q1
        _ = (2 * N - 1) * (2 * N - 1) * 10 ^ 20 := by rw [Nat.mul_mul_mul_comm]
        _ ≤ 4 * (v * (S * S)) * 10 ^ 20 := Nat.mul_le_mul_right _ h1
        _ = 4 * (S * S) * (v * 10 ^ 20) := by grind
    exact Nat.lt_of_mul_lt_mul_left this
  · have : 4 * (S * S) * (v * 10 ^ 20) < 4 * (S * S) * (A + 1) ^ 2 := by
      calc 4 * (S * S) * (v * 10 ^ 20) = 4 * (v * (S * S)) * 10 ^ 20 := by grind
        _ ≤ (2 * N + 1) * (2 * N + 1) * 10 ^ 20 := Nat.mul_le_mul_right _ h2
        _ = (2 * N + 1) * 10 ^ 10 * ((2 * N + 1) * 10 ^ 10) := by rw [Nat.mul_mul_mul_comm]
        _ < 2 * (A + 1) * S * (2 * (A + 1) * S) := q2
        _ = 4 * (S * S) * (A + 1) ^ 2 := by grind
    exact Nat.lt_of_mul_lt_mul_left this

/-- The square of the root of a whole number below 2^18 shows the number. -/
theorem square_root {v l N : Nat} (hv : 0 < v) (hv18 : v < 2 ^ 18) (hl : l ≤ 8) (hN : N ≤ 2 ^ 53) (hN' : 2 ^ 52 ≤ N)
    (h2 : 4 * (v * 4 ^ (52 - l)) ≤ (2 * N + 1) * (2 * N + 1)) (h1 : (2 * N - 1) * (2 * N - 1) ≤ 4 * (v * 4 ^ (52 - l))) :
    ∃ M k, mul (.fin false N (52 - l)) (.fin false N (52 - l)) = .fin false M k ∧ halfEven (M * 10 ^ 10) (2 ^ k) = v * 10 ^ 10 := by
  have hs : 2 ^ 88 ≤ 4 ^ (52 - l) := by
    rw [show (2 : Nat) ^ 88 = 4 ^ 44 from rfl]
    exact Nat.pow_le_pow_right (by decide) (by omega)
  have hm : mul (.fin false N (52 - l)) (.fin false N (52 - l)) = rnd false (N * N) (4 ^ (52 - l)) := by
    show rnd (false != false) (N * N) (2 ^ (52 - l + (52 - l))) = _
    rw [bne_self_eq_false, Nat.pow_add, ← four_pow]
  rw [hm]
  generalize 4 ^ (52 - l) = Q at *
  have o1 := odd_sq N
  have o2 := odd_sq' (N := N) (by omega)
  have hb : N * N < Q * 2 ^ 18 := by
    have : v * Q ≤ (2 ^ 18 - 1) * Q := Nat.mul_le_mul_right _ (by omega)
    omega
  obtain ⟨M, k, r1, r2, r3, r4⟩ := rnd_error false (Nat.mul_pos (by omega) (by omega) : 0 < N * N) (by omega) (by decide) hb
  refine ⟨M, k, r1, ?_⟩
  have hk : 2 ^ 35 ≤ 2 ^ k := Nat.pow_le_pow_right (by decide) (by omega)
  generalize 2 ^ k = P at *
  have f1 : N * P ≤ 2 ^ 53 * P := Nat.mul_le_mul_right P hN
  have f2 : 2 ^ 88 * P ≤ Q * P := Nat.mul_le_mul_right P hs
  have f3 : 2 ^ 35 * Q ≤ Q * P := by rw [Nat.mul_comm]; exact Nat.mul_le_mul_left Q hk
  have f4 : N * N * P ≤ v * Q * P + N * P := by
    rw [← Nat.add_mul]; exact Nat.mul_le_mul_right P (by omega)
  have f5 : v * Q * P ≤ N * N * P + N * P + P := by
    rw [← Nat.add_mul]
    calc v * Q * P ≤ (N * N + N + 1) * P := Nat.mul_le_mul_right P (by omega)
      _ = _ := by rw [Nat.add_mul, Nat.one_mul]
  have hQ : 0 < Q := by omega
  have c1 : M * 10 ^ 10 * Q = 10 ^ 10 * (M * Q) := by grind
  have c2 : v * 10 ^ 10 * P * Q = 10 ^ 10 * (v * Q * P) := by grind
  apply halfEven_near (by omega)
  · refine Nat.lt_of_mul_lt_mul_right (a := Q) ?_
    rw [Nat.add_mul, Nat.mul_assoc 2, Nat.mul_assoc 2, c1, c2, Nat.mul_comm P Q]
    generalize M * Q = a at *
    generalize N * N * P = b at *
    generalize v * Q * P = c at *
    generalize N * P = d at *
    generalize Q * P = e at *
    omega
  · refine Nat.lt_of_mul_lt_mul_right (a := Q) ?_
    rw [Nat.add_mul, Nat.mul_assoc 2, Nat.mul_assoc 2, c1, c2, Nat.mul_comm P Q]
    generalize M * Q = a at *
    generalize N * N * P = b at *
    generalize v * Q * P = c at *
    generalize N * P = d at *
    generalize Q * P = e at *
    omega

end Verif.Model.Float
