import Verif.Model.Float

/-!
# Rounding
-/

namespace Verif.Model.Float

theorem two_pow_pos (k : Nat) : 0 < 2 ^ k := Nat.pow_pos (by decide)

/-- Rounding errs by at most one half. -/
theorem halfEven_bounds (a : Nat) {d : Nat} (hd : 0 < d) :
    2 * a ≤ 2 * (halfEven a d * d) + d ∧ 2 * (halfEven a d * d) ≤ 2 * a + d := by
  have h1 : a / d * d + a % d = a := by rw [Nat.mul_comm]; exact Nat.div_add_mod a d
  have h2 := Nat.mod_lt a hd
  have h3 : (a / d + 1) * d = a / d * d + d := by rw [Nat.add_mul, Nat.one_mul]
  unfold halfEven
  split
  · omega
  · split
    · rw [h3]; omega
    · split
      · omega
      · rw [h3]; omega

/-- What is nearest is found. -/
theorem halfEven_near {a d n : Nat} (hd : 0 < d) (h1 : 2 * a < 2 * (n * d) + d) (h2 : 2 * (n * d) < 2 * a + d) :
    halfEven a d = n := by
  obtain ⟨g1, g2⟩ := halfEven_bounds a hd
  generalize halfEven a d = h at *
  rcases Nat.lt_trichotomy h n with hl | he | hl
  · have : (h + 1) * d ≤ n * d := Nat.mul_le_mul_right d hl
    rw [Nat.add_mul, Nat.one_mul] at this
    omega
  · exact he
  · have : (n + 1) * d ≤ h * d := Nat.mul_le_mul_right d hl
    rw [Nat.add_mul, Nat.one_mul] at this
    omega

theorem halfEven_exact (n : Nat) {d : Nat} (hd : 0 < d) : halfEven (n * d) d = n :=
  halfEven_near hd (by omega) (by omega)

/-- A whole number below is not passed. -/
theorem halfEven_ge {a d n : Nat} (hd : 0 < d) (h : 2 * (n * d) < 2 * a + d) : n ≤ halfEven a d := by
  obtain ⟨g1, g2⟩ := halfEven_bounds a hd
  rcases Nat.lt_or_ge (halfEven a d) n with hl | hl
  · have : (halfEven a d + 1) * d ≤ n * d := Nat.mul_le_mul_right d hl
    rw [Nat.add_mul, Nat.one_mul] at this
    omega
  · exact hl

/-- A whole number above is not passed. -/
theorem halfEven_le {a d n : Nat} (hd : 0 < d) (h : 2 * a < 2 * (n * d) + d) : halfEven a d ≤ n := by
  obtain ⟨g1, g2⟩ := halfEven_bounds a hd
  rcases Nat.lt_or_ge n (halfEven a d) with hl | hl
  · have : (n + 1) * d ≤ halfEven a d * d := Nat.mul_le_mul_right d hl
    rw [Nat.add_mul, Nat.one_mul] at this
    omega
  · exact hl

theorem halfEven_zero {d : Nat} (hd : 0 < d) : halfEven 0 d = 0 := by
  have := halfEven_exact 0 hd
  rwa [Nat.zero_mul] at this

/-- There are 53 binary digits, unless the number is tiny. -/
theorem bits_spec {a d : Nat} (ha : 0 < a) (hd : 0 < d) (h : a < d * 2 ^ 53) :
    a * 2 ^ bits a d < d * 2 ^ 53 ∧ (bits a d = 1074 ∨ d * 2 ^ 52 ≤ a * 2 ^ bits a d) := by
  unfold bits
  split
  · rename_i hda
    have hq : a / d ≠ 0 := by
      have := Nat.div_pos hda hd
      omega
    have l1 := Nat.log2_self_le hq
    have l2 := Nat.lt_log2_self (n := a / d)
    have hlt : a / d < 2 ^ 53 := Nat.div_lt_of_lt_mul h
    have hl : (a / d).log2 ≤ 52 := by
      have := (Nat.log2_lt hq).2 hlt
      omega
    generalize (a / d).log2 = l at *
    have e1 : 2 ^ l * 2 ^ (52 - l) = 2 ^ 52 := by rw [← Nat.pow_add]; congr 1; omega
    have e2 : 2 ^ (l + 1) * 2 ^ (52 - l) = 2 ^ 53 := by rw [← Nat.pow_add]; congr 1; omega
    have g1 : 2 ^ l * d ≤ a := Nat.le_trans (Nat.mul_le_mul_right d l1) (Nat.div_mul_le_self a d)
    have g2 : a < 2 ^ (l + 1) * d := (Nat.div_lt_iff_lt_mul hd).1 l2
    constructor
    · calc a * 2 ^ (52 - l) < 2 ^ (l + 1) * d * 2 ^ (52 - l) := Nat.mul_lt_mul_of_pos_right g2 (two_pow_pos _)
        _ = d * 2 ^ 53 := by rw [Nat.mul_right_comm, e2, Nat.mul_comm]
    · right
      calc d * 2 ^ 52 = 2 ^ l * d * 2 ^ (52 - l) := by rw [Nat.mul_right_comm, e1, Nat.mul_comm]
        _ ≤ a * 2 ^ (52 - l) := Nat.mul_le_mul_right _ g1
  · rename_i hda
    have hc : (d - 1) / a ≠ 0 := by
      have := Nat.div_pos (a := d - 1) (b := a) (by omega) ha
      omega
    have l1 := Nat.log2_self_le hc
    have l2 := Nat.lt_log2_self (n := (d - 1) / a)
    generalize ((d - 1) / a).log2 = l at *
    have g1 : 2 ^ l * a < d := by
      have := Nat.le_trans (Nat.mul_le_mul_right a l1) (Nat.div_mul_le_self (d - 1) a)
      omega
    have g2 : d ≤ 2 ^ (l + 1) * a := by
      have := (Nat.div_lt_iff_lt_mul ha).1 l2
      omega
    have e1 : a * 2 ^ (53 + l) < d * 2 ^ 53 := by
      calc a * 2 ^ (53 + l) = 2 ^ l * a * 2 ^ 53 := by rw [Nat.pow_add, Nat.mul_comm (2 ^ l) a, Nat.mul_assoc, Nat.mul_comm (2 ^ l)]
        _ < d * 2 ^ 53 := Nat.mul_lt_mul_of_pos_right g1 (two_pow_pos _)
    rcases Nat.le_total 1074 (53 + l) with hm | hm
    · rw [Nat.min_eq_left hm]
      refine ⟨Nat.lt_of_le_of_lt ?_ e1, .inl rfl⟩
      exact Nat.mul_le_mul_left a (Nat.pow_le_pow_right (by decide) hm)
    · rw [Nat.min_eq_right hm]
      refine ⟨e1, .inr ?_⟩
      calc d * 2 ^ 52 ≤ 2 ^ (l + 1) * a * 2 ^ 52 := Nat.mul_le_mul_right _ g2
        _ = a * 2 ^ (53 + l) := by
          rw [show 53 + l = (l + 1) + 52 by omega, Nat.pow_add 2 (l + 1) 52, Nat.mul_comm (2 ^ (l + 1)) a, Nat.mul_assoc]

theorem rnd_zero (neg : Bool) (d : Nat) : rnd neg 0 d = .fin neg 0 0 := by
  unfold rnd
  rw [if_pos rfl]

theorem rnd_small (neg : Bool) {a d : Nat} (ha : 0 < a) (h : a < d * 2 ^ 53) :
    rnd neg a d = .fin neg (halfEven (a * 2 ^ bits a d) d) (bits a d) := by
  unfold rnd
  rw [if_neg (by omega), if_pos h]

/-- A whole number up to 2^53 is not rounded. -/
theorem rnd_whole (neg : Bool) (n : Nat) {d : Nat} (hd : 0 < d) (hn : n ≤ 2 ^ 53) :
    ∃ m k, rnd neg (n * d) d = .fin neg m k ∧ m = n * 2 ^ k := by
  rcases Nat.eq_zero_or_pos n with rfl | hp
  · exact ⟨0, 0, by rw [Nat.zero_mul, rnd_zero], rfl⟩
  · rcases Nat.lt_or_ge n (2 ^ 53) with hl | hl
    · have h : n * d < d * 2 ^ 53 := by rw [Nat.mul_comm d]; exact Nat.mul_lt_mul_of_pos_right hl hd
      refine ⟨_, _, rnd_small neg (Nat.mul_pos hp hd) h, ?_⟩
      rw [Nat.mul_right_comm, halfEven_exact _ hd]
    · have he : n = 2 ^ 53 := by omega
      subst he
      refine ⟨2 ^ 53, 0, ?_, by simp⟩
      unfold rnd
      have h1 : 2 ^ 53 * d ≠ 0 := Nat.mul_ne_zero (by decide) (by omega)
      have h2 : ¬ 2 ^ 53 * d < d * 2 ^ 53 := by rw [Nat.mul_comm]; omega
      have h3 : 2 ^ 53 * d / d = 2 ^ 53 := Nat.mul_div_cancel _ hd
      have h4 : (2 ^ 53 : Nat).log2 = 53 := by decide
      rw [if_neg h1, if_neg h2, h3, h4]
      have h5 : 2 ^ 53 * d = 2 ^ 52 * (d * 2 ^ 1) := by omega
      have h6 : halfEven (2 ^ 53 * d) (d * 2 ^ (53 - 52)) = 2 ^ 52 := by
        rw [h5]; exact halfEven_exact _ (by omega)
      have h7 : 2 ^ 52 * 2 ^ (53 - 52) = 2 ^ 53 := rfl
      have h8 : 2 ^ 53 < 2 ^ 1024 := Nat.pow_lt_pow_right (by decide) (by decide)
      simp only [h6, h7]
      rw [if_pos h8]

/-- Rounding errs by at most half a place of 53 binary digits. -/
theorem rnd_error (neg : Bool) {a d b : Nat} (ha : 0 < a) (hd : 0 < d) (hb : b ≤ 53) (h : a < d * 2 ^ b) :
    ∃ m k, rnd neg a d = .fin neg m k ∧ 53 ≤ b + k ∧
      2 * (a * 2 ^ k) ≤ 2 * (m * d) + d ∧ 2 * (m * d) ≤ 2 * (a * 2 ^ k) + d := by
  have h53 : a < d * 2 ^ 53 := Nat.lt_of_lt_of_le h (Nat.mul_le_mul_left d (Nat.pow_le_pow_right (by decide) hb))
  obtain ⟨b1, b2⟩ := bits_spec ha hd h53
  refine ⟨_, _, rnd_small neg ha h53, ?_, halfEven_bounds _ hd⟩
  rcases b2 with b2 | b2
  · omega
  · generalize bits a d = k at *
    rcases Nat.lt_or_ge (b + k) 53 with hl | hl
    · exfalso
      have : d * 2 ^ 52 < d * 2 ^ 52 := by
        calc d * 2 ^ 52 ≤ a * 2 ^ k := b2
          _ < d * 2 ^ b * 2 ^ k := Nat.mul_lt_mul_of_pos_right h (two_pow_pos k)
          _ = d * 2 ^ (b + k) := by rw [Nat.pow_add, Nat.mul_assoc]
          _ ≤ d * 2 ^ 52 := Nat.mul_le_mul_left d (Nat.pow_le_pow_right (by decide) (by omega))
      omega
    · exact hl

/-! ### Whole numbers -/

/-- `± m`. -/
def signed (n : Bool) (m : Nat) : Int := if n then -(m : Int) else m

/-- The `double` is the whole number `z`. -/
def Holds (x : F) (z : Int) : Prop := ∃ n m k, x = .fin n m k ∧ signed n m = z * 2 ^ k

theorem holds_iff {n : Bool} {m k : Nat} {z : Int} :
    signed n m = z * 2 ^ k ↔ m = z.natAbs * 2 ^ k ∧ (z ≠ 0 → n = decide (z < 0)) := by
  have hp : (0 : Int) < 2 ^ k := Int.pow_pos (by decide)
  have habs : ((z * 2 ^ k).natAbs) = z.natAbs * 2 ^ k := by
    rw [Int.natAbs_mul, Int.natAbs_pow]; rfl
  have hsg : (signed n m).natAbs = m := by unfold signed; cases n <;> simp
  constructor
  · intro h
    refine ⟨by rw [← habs, ← h, hsg], fun hz => ?_⟩
    rcases Int.lt_or_lt_of_ne hz with hz | hz
    · have h1 : z * 2 ^ k < 0 := Int.mul_neg_of_neg_of_pos hz hp
      rw [← h] at h1
      cases n
      · exfalso; simp only [signed, Bool.false_eq_true, if_false] at h1; omega
      · simp [hz]
    · have h1 : 0 < z * 2 ^ k := Int.mul_pos hz hp
      rw [← h] at h1
      cases n
      · rw [decide_eq_false (by omega)]
      · exfalso; simp only [signed, if_true] at h1; omega
  · rintro ⟨rfl, hs⟩
    unfold signed
    rcases Int.lt_trichotomy z 0 with hz | rfl | hz
    · rw [hs (by omega), decide_eq_true hz, if_pos rfl, Int.natCast_mul, Int.natCast_pow, ← Int.neg_mul]
      congr 1
      omega
    · cases n <;> simp
    · rw [hs (by omega), decide_eq_false (by omega), if_neg (by decide), Int.natCast_mul, Int.natCast_pow]
      congr 1
      omega

theorem Holds.of {x : F} {z : Int} {n : Bool} {m k : Nat} (h : x = .fin n m k) (hm : m = z.natAbs * 2 ^ k)
    (hs : z ≠ 0 → n = decide (z < 0)) : Holds x z := ⟨n, m, k, h, holds_iff.2 ⟨hm, hs⟩⟩

theorem Holds.get {x : F} {z : Int} (h : Holds x z) :
    ∃ n m k, x = .fin n m k ∧ m = z.natAbs * 2 ^ k ∧ (z ≠ 0 → n = decide (z < 0)) := by
  obtain ⟨n, m, k, e, h⟩ := h
  exact ⟨n, m, k, e, holds_iff.1 h⟩

/-- A whole number is rounded to itself. -/
theorem rnd_holds {neg : Bool} {z : Int} {a d : Nat} (hd : 0 < d) (ha : a = z.natAbs * d) (hz : z.natAbs ≤ 2 ^ 53)
    (hs : z ≠ 0 → neg = decide (z < 0)) : Holds (rnd neg a d) z := by
  subst ha
  obtain ⟨m, k, e, hm⟩ := rnd_whole neg z.natAbs hd hz
  exact .of e hm hs

theorem Holds.neg {x : F} {z : Int} (h : Holds x z) : Holds (Float.neg x) (-z) := by
  obtain ⟨n, m, k, rfl, hm, hs⟩ := h.get
  refine .of (n := !n) (m := m) (k := k) rfl (by rw [hm, Int.natAbs_neg]) (fun hz => ?_)
  have hz' : z ≠ 0 := by omega
  rw [hs hz', ← decide_not]
  simp only [decide_eq_decide]
  omega

theorem Holds.add {x y : F} {z w : Int} (hx : Holds x z) (hy : Holds y w) (hb : (z + w).natAbs ≤ 2 ^ 53) :
    Holds (Float.add x y) (z + w) := by
  obtain ⟨n, m, k, rfl, hm, hs⟩ := hx.get
  obtain ⟨n', m', k', rfl, hm', hs'⟩ := hy.get
  have e1 : m * 2 ^ k' = z.natAbs * 2 ^ (k + k') := by rw [hm, Nat.pow_add, Nat.mul_assoc]
  have e2 : m' * 2 ^ k = w.natAbs * 2 ^ (k + k') := by rw [hm', Nat.add_comm k, Nat.pow_add, Nat.mul_assoc]
  have hp := two_pow_pos (k + k')
  show Holds (if n = n' then rnd n (m * 2 ^ k' + m' * 2 ^ k) (2 ^ (k + k'))
    else if m * 2 ^ k' = m' * 2 ^ k then .fin false 0 0
    else if m' * 2 ^ k < m * 2 ^ k' then rnd n (m * 2 ^ k' - m' * 2 ^ k) (2 ^ (k + k'))
    else rnd n' (m' * 2 ^ k - m * 2 ^ k') (2 ^ (k + k'))) (z + w)
  rw [e1, e2, ← Nat.add_mul, ← Nat.sub_mul, ← Nat.sub_mul]
  simp only [Nat.mul_left_inj (show 2 ^ (k + k') ≠ 0 by omega), Nat.mul_lt_mul_right hp]
  split
  · rename_i hn
    have habs : (z + w).natAbs = z.natAbs + w.natAbs := by
      rcases Decidable.em (z = 0) with hz | hz
      · omega
      · rcases Decidable.em (w = 0) with hw | hw
        · omega
        · have := hs hz
          have := hs' hw
          have h3 : decide (z < 0) = decide (w < 0) := by rw [← hs hz, ← hs' hw, hn]
          simp only [decide_eq_decide] at h3
          omega
    refine rnd_holds hp (by rw [habs]) hb (fun h => ?_)
    rcases Decidable.em (z = 0) with hz | hz
    · rw [hn, hs' (by omega)]; simp only [decide_eq_decide]; omega
    · rcases Decidable.em (w = 0) with hw | hw
      · rw [hs hz]; simp only [decide_eq_decide]; omega
      · have h3 : decide (z < 0) = decide (w < 0) := by rw [← hs hz, ← hs' hw, hn]
        simp only [decide_eq_decide] at h3
        rw [hs hz]
        simp only [decide_eq_decide]
        omega
  · rename_i hn
    have hsg : z ≠ 0 → w ≠ 0 → (z < 0 ↔ ¬ w < 0) := by
      intro hz hw
      have h1 := hs hz
      have h2 := hs' hw
      rw [h1, h2] at hn
      rcases Decidable.em (z < 0) with a | a <;> rcases Decidable.em (w < 0) with b | b <;> simp_all
    split
    · rename_i he
      have h0 : z + w = 0 := by
        rcases Decidable.em (z = 0) with hz | hz
        · omega
        · rcases Decidable.em (w = 0) with hw | hw
          · omega
          · have := hsg hz hw; omega
      exact .of rfl (by rw [h0]; rfl) (fun h => absurd h0 h)
    · split
      · rename_i hlt
        have habs : (z + w).natAbs = z.natAbs - w.natAbs := by
          rcases Decidable.em (w = 0) with hw | hw
          · omega
          · have := hsg (by omega) hw; omega
        refine rnd_holds hp (by rw [habs]) hb (fun h => ?_)
        rw [hs (by omega)]
        simp only [decide_eq_decide]
        rcases Decidable.em (w = 0) with hw | hw
        · omega
        · have := hsg (by omega) hw; omega
      · rename_i hlt
        have habs : (z + w).natAbs = w.natAbs - z.natAbs := by
          rcases Decidable.em (z = 0) with hz | hz
          · omega
          · have := hsg hz (by omega); omega
        refine rnd_holds hp (by rw [habs]) hb (fun h => ?_)
        rw [hs' (by omega)]
        simp only [decide_eq_decide]
        rcases Decidable.em (z = 0) with hz | hz
        · omega
        · have := hsg hz (by omega); omega

theorem Holds.sub {x y : F} {z w : Int} (hx : Holds x z) (hy : Holds y w) (hb : (z - w).natAbs ≤ 2 ^ 53) :
    Holds (Float.sub x y) (z - w) := by
  rw [Int.sub_eq_add_neg] at hb ⊢
  exact hx.add hy.neg hb

/-- The sign of a product or a quotient. -/
theorem sign_xor {n n' : Bool} {z w v : Int} (h : n = decide (z < 0)) (h' : n' = decide (w < 0))
    (hv : v < 0 ↔ ¬ (z < 0 ↔ w < 0)) : (n != n') = decide (v < 0) := by
  subst h h'
  rcases Decidable.em (z < 0) with a | a <;> rcases Decidable.em (w < 0) with b | b <;>
    rcases Decidable.em (v < 0) with c | c <;> simp only [a, b, c, decide_true, decide_false] <;>
    first | rfl | (exfalso; revert hv; simp [a, b, c])

theorem Holds.mul {x y : F} {z w : Int} (hx : Holds x z) (hy : Holds y w) (hb : (z * w).natAbs ≤ 2 ^ 53) :
    Holds (Float.mul x y) (z * w) := by
  obtain ⟨n, m, k, rfl, hm, hs⟩ := hx.get
  obtain ⟨n', m', k', rfl, hm', hs'⟩ := hy.get
  show Holds (rnd (n != n') (m * m') (2 ^ (k + k'))) (z * w)
  refine rnd_holds (two_pow_pos _) ?_ hb (fun h => ?_)
  · rw [hm, hm', Int.natAbs_mul, Nat.pow_add]; ac_rfl
  · have hz : z ≠ 0 := fun e => h (by rw [e, Int.zero_mul])
    have hw : w ≠ 0 := fun e => h (by rw [e, Int.mul_zero])
    refine sign_xor (hs hz) (hs' hw) ?_
    constructor
    · intro hv hiff
      rcases Decidable.em (z < 0) with a | a
      · have := Int.mul_pos_of_neg_of_neg a (hiff.1 a); omega
      · have : ¬ w < 0 := fun b => a (hiff.2 b)
        have := Int.mul_pos (a := z) (b := w) (by omega) (by omega)
        omega
    · intro hn
      rcases Decidable.em (z < 0) with a | a
      · have hw0 : 0 < w := by
          rcases Decidable.em (w < 0) with b | b
          · exact absurd ⟨fun _ => b, fun _ => a⟩ hn
          · omega
        exact Int.mul_neg_of_neg_of_pos a hw0
      · have hw0 : w < 0 := by
          rcases Decidable.em (w < 0) with b | b
          · exact b
          · exact absurd ⟨fun h => absurd h a, fun h => absurd h b⟩ hn
        exact Int.mul_neg_of_pos_of_neg (by omega) hw0

theorem Holds.isZero {x : F} {z : Int} (h : Holds x z) : isZero x = decide (z = 0) := by
  obtain ⟨n, m, k, rfl, hm, hs⟩ := h.get
  show (m == 0) = _
  have hp := two_pow_pos k
  rcases Decidable.em (z = 0) with rfl | hz
  · rw [hm]; simp
  · have : m ≠ 0 := by rw [hm]; exact Nat.mul_ne_zero (by omega) (by omega)
    simp [this, hz]

/-- A quotient is the fraction of the whole numbers, rounded once. -/
theorem Holds.quotient_rnd {x y : F} {z w : Int} (hx : Holds x z) (hy : Holds y w) :
    ∃ neg D, 0 < D ∧ quotient x y = rnd neg (z.natAbs * D) (w.natAbs * D) ∧
      (z ≠ 0 → w ≠ 0 → neg = (decide (z < 0) != decide (w < 0))) := by
  obtain ⟨n, m, k, rfl, hm, hs⟩ := hx.get
  obtain ⟨n', m', k', rfl, hm', hs'⟩ := hy.get
  refine ⟨n != n', 2 ^ (k + k'), two_pow_pos _, ?_, fun hz hw => by rw [hs hz, hs' hw]⟩
  show rnd (n != n') (m * 2 ^ k') (m' * 2 ^ k) = _
  have e1 : m * 2 ^ k' = z.natAbs * 2 ^ (k + k') := by rw [hm, Nat.pow_add, Nat.mul_assoc]
  have e2 : m' * 2 ^ k = w.natAbs * 2 ^ (k + k') := by rw [hm', Nat.add_comm k, Nat.pow_add, Nat.mul_assoc]
  rw [e1, e2]

/-- Division without remainder is exact. -/
theorem Holds.quotient {x y : F} {z w v : Int} (hx : Holds x z) (hy : Holds y w) (hw : w ≠ 0) (he : z = v * w)
    (hb : v.natAbs ≤ 2 ^ 53) : Holds (quotient x y) v := by
  obtain ⟨neg, D, hD, e, hn⟩ := hx.quotient_rnd hy
  rw [e]
  refine rnd_holds (Nat.mul_pos (by omega) hD) ?_ hb (fun hv => ?_)
  · rw [he, Int.natAbs_mul, Nat.mul_assoc]
  · have hz : z ≠ 0 := by rw [he]; exact Int.mul_ne_zero hv hw
    rw [hn hz hw]
    refine sign_xor rfl rfl ?_
    rw [he]
    rcases Int.lt_or_lt_of_ne hw with b | b
    · rcases Int.lt_or_lt_of_ne hv with a | a
      · have := Int.mul_pos_of_neg_of_neg a b; omega
      · have := Int.mul_neg_of_pos_of_neg a b; omega
    · rcases Int.lt_or_lt_of_ne hv with a | a
      · have := Int.mul_neg_of_neg_of_pos a b; omega
      · have := Int.mul_pos a b; omega

theorem Holds.fmod {x y : F} {z w : Int} (hx : Holds x z) (hy : Holds y w) : Holds (fmod x y) (z.tmod w) := by
  obtain ⟨n, m, k, rfl, hm, hs⟩ := hx.get
  obtain ⟨n', m', k', rfl, hm', hs'⟩ := hy.get
  have e1 : m * 2 ^ k' = z.natAbs * 2 ^ (k + k') := by rw [hm, Nat.pow_add, Nat.mul_assoc]
  have e2 : m' * 2 ^ k = w.natAbs * 2 ^ (k + k') := by rw [hm', Nat.add_comm k, Nat.pow_add, Nat.mul_assoc]
  refine .of (n := n) (m := m * 2 ^ k' % (m' * 2 ^ k)) (k := k + k') rfl ?_ (fun hv => ?_)
  · rw [e1, e2, Nat.mul_mod_mul_right, Int.natAbs_tmod]
  · have hz : z ≠ 0 := fun h => hv (by rw [h, Int.zero_tmod])
    rw [hs hz]
    simp only [decide_eq_decide]
    constructor
    · intro h
      have h1 := Int.tmod_nonneg (a := -z) w (by omega)
      rw [Int.neg_tmod] at h1
      omega
    · intro h
      rcases Int.lt_or_le z 0 with h1 | h1
      · exact h1
      · have := Int.tmod_nonneg w h1
        omega

theorem Holds.abs {x : F} {z : Int} (h : Holds x z) : Holds (Float.abs x) z.natAbs := by
  obtain ⟨n, m, k, rfl, hm, hs⟩ := h.get
  exact .of (n := false) (m := m) (k := k) rfl (by rw [hm]; rfl) (fun _ => by
    rw [decide_eq_false (by omega)])

theorem ceilDiv_exact (n k : Nat) : ceilDiv (n * 2 ^ k) k = n := by
  unfold ceilDiv
  have hp := two_pow_pos k
  rw [Nat.mul_comm n, Nat.mul_add_div hp, Nat.div_eq_of_lt (by omega), Nat.add_zero]

theorem roundDiv_exact (n k : Nat) : (2 * (n * 2 ^ k) + 2 ^ k) / 2 ^ (k + 1) = n := by
  have hp := two_pow_pos k
  have e : 2 * (n * 2 ^ k) = 2 ^ (k + 1) * n := by rw [Nat.pow_succ]; ac_rfl
  have e2 : 2 ^ (k + 1) = 2 ^ k * 2 := Nat.pow_succ ..
  rw [e, Nat.mul_add_div (by omega), Nat.div_eq_of_lt (by omega), Nat.add_zero]

theorem Holds.floor {x : F} {z : Int} (h : Holds x z) : Holds (Float.floor x) z := by
  obtain ⟨n, m, k, rfl, hm, hs⟩ := h.get
  have hp := two_pow_pos k
  cases n
  · exact .of (n := false) (k := 0) rfl (by rw [hm, Nat.mul_div_cancel _ hp]; simp) hs
  · exact .of (n := true) (k := 0) rfl (by rw [hm, ceilDiv_exact]; simp) hs

theorem Holds.ceil {x : F} {z : Int} (h : Holds x z) : Holds (Float.ceil x) z := by
  obtain ⟨n, m, k, rfl, hm, hs⟩ := h.get
  have hp := two_pow_pos k
  cases n
  · exact .of (n := false) (k := 0) rfl (by rw [hm, ceilDiv_exact]; simp) hs
  · exact .of (n := true) (k := 0) rfl (by rw [hm, Nat.mul_div_cancel _ hp]; simp) hs

theorem Holds.round {x : F} {z : Int} (h : Holds x z) : Holds (Float.round x) z := by
  obtain ⟨n, m, k, rfl, hm, hs⟩ := h.get
  exact .of (n := n) (k := 0) rfl (by rw [hm, roundDiv_exact]; simp) hs

/-- A fraction of two whole numbers is rounded to a number with the same whole part; unless it is whole, it stays apart
from the whole numbers. -/
theorem rnd_between (neg : Bool) {a d D : Nat} (ha : 0 < a) (hd : 0 < d) (hD : 0 < D) (ha53 : a < 2 ^ 53) (hd53 : d ≤ 2 ^ 53) :
    ∃ m k, rnd neg (a * D) (d * D) = .fin neg m k ∧ a / d * 2 ^ k ≤ m ∧ m < (a / d + 1) * 2 ^ k ∧
      (a % d ≠ 0 → a / d * 2 ^ k < m) ∧ (a % d = 0 → m = a / d * 2 ^ k) := by
  have hdD := Nat.mul_pos hd hD
  have h53 : a * D < d * D * 2 ^ 53 := by
    calc a * D < 2 ^ 53 * D := Nat.mul_lt_mul_of_pos_right ha53 hD
      _ ≤ 2 ^ 53 * (d * D) := Nat.mul_le_mul_left _ (Nat.le_mul_of_pos_left D hd)
      _ = d * D * 2 ^ 53 := Nat.mul_comm _ _
  obtain ⟨_, b2⟩ := bits_spec (Nat.mul_pos ha hD) hdD h53
  refine ⟨_, _, rnd_small neg (Nat.mul_pos ha hD) h53, ?_⟩
  generalize bits (a * D) (d * D) = k at *
  have hp := two_pow_pos k
  have hdk : d < 2 * 2 ^ k := by
    rcases b2 with rfl | b2
    · refine Nat.lt_of_le_of_lt hd53 (Nat.lt_of_lt_of_le (m := 2 ^ 1074) ?_ (by omega))
      exact Nat.pow_lt_pow_right (by decide) (by decide)
    · have h1 : d * 2 ^ 52 * D < 2 ^ 53 * 2 ^ k * D := by
        calc d * 2 ^ 52 * D = d * D * 2 ^ 52 := Nat.mul_right_comm ..
          _ ≤ a * D * 2 ^ k := b2
          _ < 2 ^ 53 * D * 2 ^ k := Nat.mul_lt_mul_of_pos_right (Nat.mul_lt_mul_of_pos_right ha53 hD) hp
          _ = 2 ^ 53 * 2 ^ k * D := Nat.mul_right_comm ..
      have h2 := Nat.lt_of_mul_lt_mul_right h1
      generalize 2 ^ k = p at *
      omega
  have hda : a / d * d + a % d = a := by rw [Nat.mul_comm]; exact Nat.div_add_mod a d
  have hr := Nat.mod_lt a hd
  generalize a / d = q at *
  generalize a % d = r at *
  have key : a * D * 2 ^ k = q * 2 ^ k * (d * D) + r * (D * 2 ^ k) := by
    rw [← hda, Nat.add_mul, Nat.add_mul]; ac_rfl
  have hP : d * D < 2 * (D * 2 ^ k) := by
    calc d * D < 2 * 2 ^ k * D := Nat.mul_lt_mul_of_pos_right hdk hD
      _ = 2 * (D * 2 ^ k) := by ac_rfl
  have up : (r + 1) * (D * 2 ^ k) ≤ d * (D * 2 ^ k) := Nat.mul_le_mul_right _ hr
  rw [Nat.add_mul, Nat.one_mul] at up
  have hdD2 : d * (D * 2 ^ k) = 2 ^ k * (d * D) := by ac_rfl
  have hone : ((q + 1) * 2 ^ k - 1) * (d * D) = q * 2 ^ k * (d * D) + 2 ^ k * (d * D) - d * D := by
    rw [Nat.sub_mul, Nat.one_mul, Nat.add_mul, Nat.add_mul, Nat.one_mul]
  have hge : d * D ≤ 2 ^ k * (d * D) := Nat.le_mul_of_pos_left _ hp
  have hq1 : (q + 1) * 2 ^ k = q * 2 ^ k + 2 ^ k := by rw [Nat.add_mul, Nat.one_mul]
  have hr0 : r ≠ 0 → D * 2 ^ k ≤ r * (D * 2 ^ k) := fun h => Nat.le_mul_of_pos_left _ (by omega)
  have hqq : (q * 2 ^ k + 1) * (d * D) = q * 2 ^ k * (d * D) + d * D := by rw [Nat.add_mul, Nat.one_mul]
  rw [key]
  refine ⟨halfEven_ge hdD (by omega), ?_, fun h => ?_, fun h => ?_⟩
  · have : halfEven (q * 2 ^ k * (d * D) + r * (D * 2 ^ k)) (d * D) ≤ (q + 1) * 2 ^ k - 1 := by
      apply halfEven_le hdD
      rw [hone]
      omega
    omega
  · apply halfEven_ge hdD
    have := hr0 h
    rw [hqq]
    omega
  · rw [h, Nat.zero_mul, Nat.add_zero]
    exact halfEven_exact _ hdD

/-- The whole part of a rounded fraction, and the next whole number. -/
theorem floor_ceil_between {m k q : Nat} (h1 : q * 2 ^ k ≤ m) (h2 : m < (q + 1) * 2 ^ k) :
    m / 2 ^ k = q ∧ (q * 2 ^ k < m → ceilDiv m k = q + 1) := by
  have hp := two_pow_pos k
  rw [Nat.add_mul, Nat.one_mul] at h2
  refine ⟨Nat.div_eq_of_lt_le h1 (by rw [Nat.add_mul, Nat.one_mul]; omega), fun h => ?_⟩
  unfold ceilDiv
  apply Nat.div_eq_of_lt_le
  · rw [Nat.add_mul, Nat.one_mul]; omega
  · rw [Nat.add_mul, Nat.add_mul, Nat.one_mul]; omega

theorem fdiv_cases {z w : Int} (hw : w ≠ 0) :
    ((z < 0 ↔ w < 0) ∨ z = 0 → z.fdiv w = ((z.natAbs / w.natAbs : Nat) : Int)) ∧
    (¬ (z < 0 ↔ w < 0) → z ≠ 0 →
      z.fdiv w = -(((z.natAbs / w.natAbs : Nat) : Int) + if z.natAbs % w.natAbs = 0 then 0 else 1)) := by
  have pos : ∀ a d : Nat, (a : Int).fdiv d = ((a / d : Nat) : Int) := fun a d => by
    rw [Int.fdiv_eq_ediv_of_nonneg _ (by omega)]; rfl
  have neg : ∀ a d : Nat, 0 < d → (-(a : Int)).fdiv d = -(((a / d : Nat) : Int) + if a % d = 0 then 0 else 1) := by
    intro a d hd
    rw [Int.fdiv_eq_ediv_of_nonneg _ (by omega)]
    have h1 : d * (a / d) + a % d = a := Nat.div_add_mod a d
    have h2 := Nat.mod_lt a hd
    have h1' : (d : Int) * ((a / d : Nat) : Int) + ((a % d : Nat) : Int) = (a : Int) := by exact_mod_cast h1
    have h2' : ((a % d : Nat) : Int) < d := by exact_mod_cast h2
    generalize a / d = q at *
    generalize a % d = r at *
    split
    · rename_i h
      refine ((Int.ediv_emod_unique (r := 0) (by omega)).2 ⟨?_, by omega, by omega⟩).1
      rw [Int.add_zero, Int.mul_neg]
      subst h
      omega
    · rename_i h
      refine ((Int.ediv_emod_unique (r := d - r) (by omega)).2 ⟨?_, by omega, by omega⟩).1
      rw [Int.mul_neg, Int.mul_add]
      omega
  constructor
  · intro h
    rcases Decidable.em (z = 0) with rfl | hz
    · simp
    · have h := h.resolve_right hz
      rcases Int.lt_or_lt_of_ne hw with b | b
      · have a := h.2 b
        have e := pos z.natAbs w.natAbs
        rw [← e, ← Int.neg_fdiv_neg]
        congr 1 <;> omega
      · have a : ¬ z < 0 := fun a => by have := h.1 a; omega
        rw [← pos]
        congr 1 <;> omega
  · intro h hz
    rcases Int.lt_or_lt_of_ne hw with b | b
    · have a : ¬ z < 0 := fun a => h ⟨fun _ => b, fun _ => a⟩
      rw [← neg _ _ (by omega), ← Int.neg_fdiv_neg]
      congr 1 <;> omega
    · have a : z < 0 := by
        rcases Decidable.em (z < 0) with a | a
        · exact a
        · exact absurd ⟨fun h => absurd h a, fun h => by omega⟩ h
      rw [← neg _ _ (by omega)]
      congr 1 <;> omega

theorem sign_iff {z w : Int} : (decide (z < 0) != decide (w < 0)) = true ↔ ¬ (z < 0 ↔ w < 0) := by
  rcases Decidable.em (z < 0) with a | a <;> rcases Decidable.em (w < 0) with b | b <;> simp [a, b]

/-- Whole division. -/
theorem Holds.floor_quotient {x y : F} {z w : Int} (hx : Holds x z) (hy : Holds y w) (hw : w ≠ 0)
    (hz53 : z.natAbs < 2 ^ 53) (hw53 : w.natAbs ≤ 2 ^ 53) : Holds (Float.floor (Float.quotient x y)) (z.fdiv w) := by
  obtain ⟨f1, f2⟩ := fdiv_cases (z := z) hw
  obtain ⟨neg, D, hD, e, hn⟩ := hx.quotient_rnd hy
  rw [e]
  rcases Decidable.em (z = 0) with rfl | hz
  · rw [f1 (.inr rfl), show (0 : Int).natAbs * D = 0 by simp, rnd_zero]
    cases neg
    · exact .of (n := false) (m := 0) (k := 0) rfl (by simp) (by simp)
    · exact .of (n := true) (m := 0) (k := 0) rfl (by simp) (by simp)
  · obtain ⟨m, k, er, b1, b2, b3, b4⟩ := rnd_between neg (by omega) (by omega) hD hz53 hw53
    obtain ⟨g1, g2⟩ := floor_ceil_between b1 b2
    rw [er]
    generalize z.natAbs / w.natAbs = q at *
    generalize z.natAbs % w.natAbs = r at *
    have hn := hn hz hw
    rcases Decidable.em (z < 0 ↔ w < 0) with hs | hs
    · have hneg : neg = false := by rw [hn]; exact Bool.eq_false_iff.2 fun h => sign_iff.1 h hs
      subst hneg
      rw [f1 (.inl hs)]
      exact .of (n := false) (m := m / 2 ^ k) (k := 0) rfl (by rw [g1]; simp) (fun _ => (decide_eq_false (by omega)).symm)
    · have hneg : neg = true := by rw [hn]; exact sign_iff.2 hs
      subst hneg
      rw [f2 hs hz]
      have hc : ceilDiv m k = q + if r = 0 then 0 else 1 := by
        split
        · rename_i h
          rw [b4 h, ceilDiv_exact]; rfl
        · rename_i h
          exact g2 (b3 h)
      refine .of (n := true) (m := ceilDiv m k) (k := 0) rfl ?_ (fun h => (decide_eq_true ?_).symm)
      · rw [hc, Int.natAbs_neg, Nat.pow_zero, Nat.mul_one]
        split <;> omega
      · revert h
        split <;> omega

/-- Whole division, rounded up. -/
theorem Holds.ceil_quotient {x y : F} {z w : Int} (hx : Holds x z) (hy : Holds y w) (hw : w ≠ 0)
    (hz53 : z.natAbs < 2 ^ 53) (hw53 : w.natAbs ≤ 2 ^ 53) :
    Holds (Float.ceil (Float.quotient x y)) (-((-z).fdiv w)) := by
  obtain ⟨f1, f2⟩ := fdiv_cases (z := -z) hw
  rw [Int.natAbs_neg] at f1 f2
  obtain ⟨neg, D, hD, e, hn⟩ := hx.quotient_rnd hy
  rw [e]
  rcases Decidable.em (z = 0) with rfl | hz
  · rw [f1 (.inr rfl), show (0 : Int).natAbs * D = 0 by simp, rnd_zero]
    cases neg
    · exact .of (n := false) (m := 0) (k := 0) rfl (by simp) (by simp)
    · exact .of (n := true) (m := 0) (k := 0) rfl (by simp) (by simp)
  · obtain ⟨m, k, er, b1, b2, b3, b4⟩ := rnd_between neg (by omega) (by omega) hD hz53 hw53
    obtain ⟨g1, g2⟩ := floor_ceil_between b1 b2
    rw [er]
    generalize z.natAbs / w.natAbs = q at *
    generalize z.natAbs % w.natAbs = r at *
    have hn := hn hz hw
    rcases Decidable.em (z < 0 ↔ w < 0) with hs | hs
    · have hneg : neg = false := by rw [hn]; exact Bool.eq_false_iff.2 fun h => sign_iff.1 h hs
      subst hneg
      have hs' : ¬ (-z < 0 ↔ w < 0) := by omega
      rw [f2 hs' (by omega)]
      have hc : ceilDiv m k = q + if r = 0 then 0 else 1 := by
        split
        · rename_i h
          rw [b4 h, ceilDiv_exact]; rfl
        · rename_i h
          exact g2 (b3 h)
      refine .of (n := false) (m := ceilDiv m k) (k := 0) rfl ?_ (fun h => (decide_eq_false ?_).symm)
      · rw [hc, Int.neg_neg, Nat.pow_zero, Nat.mul_one]
        split <;> omega
      · split <;> omega
    · have hneg : neg = true := by rw [hn]; exact sign_iff.2 hs
      subst hneg
      rw [f1 (.inl (by omega))]
      exact .of (n := true) (m := m / 2 ^ k) (k := 0) rfl (by rw [g1]; simp) (fun h => (decide_eq_true (by omega)).symm)

/-- A fraction of two whole numbers is rounded to a number with the same nearest whole number. -/
theorem rnd_nearest (neg : Bool) {a d D u : Nat} (ha : 0 < a) (hd : 0 < d) (hD : 0 < D) (ha52 : a < 2 ^ 52)
    (hd53 : d ≤ 2 ^ 53) (hu1 : 2 * (u * d) ≤ 2 * a + d) (hu2 : 2 * a < 2 * (u * d) + d) :
    ∃ m k, rnd neg (a * D) (d * D) = .fin neg m k ∧ (2 * m + 2 ^ k) / 2 ^ (k + 1) = u := by
  have hdD := Nat.mul_pos hd hD
  have h53 : a * D < d * D * 2 ^ 53 := by
    calc a * D < 2 ^ 53 * D := Nat.mul_lt_mul_of_pos_right (Nat.lt_trans ha52 (by decide)) hD
      _ ≤ 2 ^ 53 * (d * D) := Nat.mul_le_mul_left _ (Nat.le_mul_of_pos_left D hd)
      _ = d * D * 2 ^ 53 := Nat.mul_comm _ _
  obtain ⟨_, b2⟩ := bits_spec (Nat.mul_pos ha hD) hdD h53
  refine ⟨_, _, rnd_small neg (Nat.mul_pos ha hD) h53, ?_⟩
  generalize bits (a * D) (d * D) = k at *
  have hp := two_pow_pos k
  have hdk : d < 2 ^ k := by
    rcases b2 with rfl | b2
    · exact Nat.lt_of_le_of_lt hd53 (Nat.pow_lt_pow_right (by decide) (by decide))
    · have h1 : d * 2 ^ 52 * D < 2 ^ 52 * 2 ^ k * D := by
        calc d * 2 ^ 52 * D = d * D * 2 ^ 52 := Nat.mul_right_comm ..
          _ ≤ a * D * 2 ^ k := b2
          _ < 2 ^ 52 * D * 2 ^ k := Nat.mul_lt_mul_of_pos_right (Nat.mul_lt_mul_of_pos_right ha52 hD) hp
          _ = 2 ^ 52 * 2 ^ k * D := Nat.mul_right_comm ..
      have h2 := Nat.lt_of_mul_lt_mul_right h1
      generalize 2 ^ k = p at *
      omega
  obtain ⟨j, rfl⟩ : ∃ j, k = j + 1 := by
    rcases k with _ | j
    · simp at hdk; omega
    · exact ⟨j, rfl⟩
  have hj := two_pow_pos j
  have e2 : 2 ^ (j + 1) = 2 * 2 ^ j := by rw [Nat.pow_succ, Nat.mul_comm]
  have e3 : 2 ^ (j + 1 + 1) = 4 * 2 ^ j := by rw [Nat.pow_succ, e2]; omega
  rw [e2] at hdk
  rw [e3, e2]
  clear e2 e3 b2 h53
  generalize 2 ^ j = p at *
  -- everything in units of `p`
  have lower : 2 * u * p ≤ halfEven (a * D * (2 * p)) (d * D) + p := by
    rcases Nat.eq_zero_or_pos u with rfl | hu
    · omega
    · obtain ⟨v, rfl⟩ : ∃ v, u = v + 1 := ⟨u - 1, by omega⟩
      have : (2 * v + 1) * p ≤ halfEven (a * D * (2 * p)) (d * D) := by
        apply halfEven_ge hdD
        have h1 : (2 * v + 1) * d ≤ 2 * a := by
          rw [Nat.add_mul, Nat.one_mul] at hu1 ⊢
          rw [Nat.mul_assoc]
          omega
        have h2 : (2 * v + 1) * d * (D * p) ≤ 2 * a * (D * p) := Nat.mul_le_mul_right _ h1
        have h3 : (2 * v + 1) * p * (d * D) = (2 * v + 1) * d * (D * p) := by ac_rfl
        have h4 : a * D * (2 * p) = 2 * a * (D * p) := by ac_rfl
        rw [h3, h4]
        omega
      calc 2 * (v + 1) * p = (2 * v + 1) * p + p := by rw [Nat.mul_add, Nat.add_mul, Nat.add_mul]; omega
        _ ≤ _ := by omega
  have upper : halfEven (a * D * (2 * p)) (d * D) < (2 * u + 1) * p := by
    have h0 : 0 < (2 * u + 1) * p := Nat.mul_pos (by omega) hj
    have : halfEven (a * D * (2 * p)) (d * D) ≤ (2 * u + 1) * p - 1 := by
      apply halfEven_le hdD
      have h1 : 2 * a + 1 ≤ (2 * u + 1) * d := by
        rw [Nat.add_mul, Nat.one_mul, Nat.mul_assoc]
        omega
      have h2 : (2 * a + 1) * (D * p) ≤ (2 * u + 1) * d * (D * p) := Nat.mul_le_mul_right _ h1
      have h3 : ((2 * u + 1) * p - 1) * (d * D) = (2 * u + 1) * d * (D * p) - d * D := by
        rw [Nat.sub_mul, Nat.one_mul]; congr 1; ac_rfl
      have h4 : a * D * (2 * p) = 2 * a * (D * p) := by ac_rfl
      have h5 : d * D < 2 * (D * p) := by
        calc d * D < 2 * p * D := Nat.mul_lt_mul_of_pos_right hdk hD
          _ = 2 * (D * p) := by ac_rfl
      have h6 : d * D ≤ (2 * u + 1) * d * (D * p) := by
        calc d * D ≤ d * D * ((2 * u + 1) * p) := Nat.le_mul_of_pos_right _ h0
          _ = _ := by ac_rfl
      rw [h3, h4]
      rw [Nat.add_mul, Nat.one_mul] at h2
      omega
    omega
  generalize halfEven (a * D * (2 * p)) (d * D) = m at *
  have e1 : 2 * u * p = 2 * (u * p) := Nat.mul_assoc ..
  have e2 : (2 * u + 1) * p = 2 * (u * p) + p := by rw [Nat.add_mul, Nat.one_mul, Nat.mul_assoc]
  apply Nat.div_eq_of_lt_le
  · have : u * (4 * p) = 4 * (u * p) := by ac_rfl
    omega
  · have : (u + 1) * (4 * p) = 4 * (u * p) + 4 * p := by rw [Nat.add_mul, Nat.one_mul]; ac_rfl
    omega

/-- The nearest whole number to a quotient, halves away from zero. -/
theorem Holds.round_quotient {x y : F} {z w v : Int} (hx : Holds x z) (hy : Holds y w) (hw : w ≠ 0)
    (hz52 : z.natAbs < 2 ^ 52) (hw53 : w.natAbs ≤ 2 ^ 53) (h1 : 2 * (v.natAbs * w.natAbs) ≤ 2 * z.natAbs + w.natAbs)
    (h2 : 2 * z.natAbs < 2 * (v.natAbs * w.natAbs) + w.natAbs) (hs : v ≠ 0 → (v < 0 ↔ ¬ (z < 0 ↔ w < 0))) :
    Holds (Float.round (Float.quotient x y)) v := by
  obtain ⟨neg, D, hD, e, hn⟩ := hx.quotient_rnd hy
  rw [e]
  rcases Decidable.em (z = 0) with rfl | hz
  · have hv : v = 0 := by
      rcases Decidable.em (v = 0) with h | h
      · exact h
      · have : 1 * w.natAbs ≤ v.natAbs * w.natAbs := Nat.mul_le_mul_right _ (by omega)
        have e0 : (0 : Int).natAbs = 0 := rfl
        omega
    subst hv
    rw [show (0 : Int).natAbs * D = 0 by simp, rnd_zero]
    exact .of (n := neg) (m := 0) (k := 0) rfl (by simp) (by simp)
  · obtain ⟨m, k, er, hr⟩ := rnd_nearest neg (by omega) (by omega) hD hz52 hw53 h1 h2
    rw [er]
    refine .of (n := neg) (k := 0) rfl (by rw [hr]; simp) (fun hv => ?_)
    rw [hn hz hw]
    exact sign_xor rfl rfl (hs hv)

end Verif.Model.Float
