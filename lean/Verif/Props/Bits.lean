import Verif.Model.Bits
import Verif.Spec.Bits
import Verif.Lemmas.Num

/-!
# Bits of numbers (C106)
-/

namespace Verif.Props.Bits
open Verif Verif.Model Verif.Model.Num Verif.Spec

theorem pow_split {k : Nat} (h : k < 32) : (2 : Int) ^ 32 = 2 * 2 ^ (31 - k) * 2 ^ k := by
  rw [Int.mul_assoc, ← Int.pow_add, show 31 - k + k = 31 by omega]
  rfl

/-- The places of a number of 32 bits. -/
theorem bit_toInt (v : BitVec 32) (k : Nat) : Bit k v.toInt ↔ (if k < 32 then v.getLsbD k else v.msb) = true := by
  have hp : (0 : Int) < 2 ^ k := Int.pow_pos (by decide)
  by_cases hk : k < 32
  · rw [if_pos hk]
    have hn : (v.toNat : Int) / 2 ^ k % 2 = 1 ↔ v.getLsbD k = true := by
      unfold BitVec.getLsbD
      rw [Nat.testBit_eq_decide_div_mod_eq, decide_eq_true_iff]
      have : ((v.toNat / 2 ^ k % 2 : Nat) : Int) = (v.toNat : Int) / 2 ^ k % 2 := by
        rw [Int.natCast_emod, Int.natCast_ediv, Int.natCast_pow]
        rfl
      omega
    rw [← hn]
    unfold Bit
    rw [BitVec.toInt_eq_toNat_cond]
    split
    · exact Iff.rfl
    · rw [show (((2 ^ 32 : Nat) : Int)) = 2 * 2 ^ (31 - k) * 2 ^ k from pow_split hk, Int.sub_eq_add_neg, ← Int.neg_mul,
        Int.add_mul_ediv_right _ _ (by omega)]
      generalize (v.toNat : Int) / 2 ^ k = q
      generalize (2 : Int) ^ (31 - k) = r
      omega
  · rw [if_neg hk]
    have h1 := BitVec.toInt_lt (x := v)
    have h2 := BitVec.le_toInt v
    have h3 : (2 : Int) ^ 31 ≤ 2 ^ k := by
      rw [show k = k - 31 + 31 by omega, Int.pow_add]
      have h4 : (1 : Int) ≤ 2 ^ (k - 31) := Int.pow_pos (by decide)
      have := Int.mul_le_mul_of_nonneg_right h4 (show (0 : Int) ≤ 2 ^ 31 by decide)
      omega
    have hm : v.msb = true ↔ v.toInt < 0 := by
      rw [BitVec.msb_eq_toInt, decide_eq_true_iff]
    rw [hm]
    unfold Bit
    have h1 : v.toInt < 2 ^ 31 := h1
    have h2 : -2 ^ 31 ≤ v.toInt := h2
    by_cases h0 : v.toInt < 0
    · have : v.toInt / 2 ^ k = -1 := by
        have e : v.toInt / 2 ^ k = (v.toInt + 1 * 2 ^ k) / 2 ^ k - 1 := by
          rw [Int.add_mul_ediv_right _ _ (by omega)]
          omega
        rw [e, Int.ediv_eq_zero_of_lt (by omega) (by omega)]
        rfl
      rw [this]
      exact ⟨fun _ => h0, fun _ => rfl⟩
    · rw [Int.ediv_eq_zero_of_lt (by omega) (by omega)]
      omega

theorem bit_ofInt {n : Int} (h : InInt n) : (BitVec.ofInt 32 n).toInt = n := by
  rw [BitVec.toInt_ofInt]
  unfold InInt at h
  exact Int.bmod_eq_of_le (by omega) (by omega)

theorem inInt_toInt (v : BitVec 32) : InInt v.toInt := by
  have h1 : v.toInt < 2 ^ 31 := BitVec.toInt_lt
  have h2 : -2 ^ 31 ≤ v.toInt := BitVec.le_toInt v
  unfold InInt
  omega

theorem bits_and (v w : BitVec 32) (k : Nat) : Bit k (v &&& w).toInt ↔ Bit k v.toInt ∧ Bit k w.toInt := by
  rw [bit_toInt, bit_toInt, bit_toInt]
  split
  · rw [BitVec.getLsbD_and, Bool.and_eq_true]
  · rw [BitVec.msb_and, Bool.and_eq_true]

theorem bits_or (v w : BitVec 32) (k : Nat) : Bit k (v ||| w).toInt ↔ Bit k v.toInt ∨ Bit k w.toInt := by
  rw [bit_toInt, bit_toInt, bit_toInt]
  split
  · rw [BitVec.getLsbD_or, Bool.or_eq_true]
  · rw [BitVec.msb_or, Bool.or_eq_true]

theorem bits_xor (v w : BitVec 32) (k : Nat) : Bit k (v ^^^ w).toInt ↔ ¬ (Bit k v.toInt ↔ Bit k w.toInt) := by
  rw [bit_toInt, bit_toInt, bit_toInt]
  split
  · rw [BitVec.getLsbD_xor]
    cases v.getLsbD k <;> cases w.getLsbD k <;> decide
  · rw [BitVec.msb_xor]
    cases v.msb <;> cases w.msb <;> decide

/-- **C106**, as far as it holds: for whole numbers in the range of `int`, the binary places of the answers of `&`, `|` and
`^` are those where both numbers, one of the numbers, exactly one of the numbers has a 1 — at all places, so also for
negative numbers — and the answers are in that range again. -/
theorem C106_partial (a b : Int) (ha : InInt a) (hb : InInt b) :
    ∃ x y z : Int, bitAnd (.ofInt a) (.ofInt b) = .ok (.ofInt x) ∧ bitOr (.ofInt a) (.ofInt b) = .ok (.ofInt y) ∧
      bitXor (.ofInt a) (.ofInt b) = .ok (.ofInt z) ∧
      (∀ k, Bit k x ↔ Bit k a ∧ Bit k b) ∧ (∀ k, Bit k y ↔ Bit k a ∨ Bit k b) ∧ (∀ k, Bit k z ↔ ¬ (Bit k a ↔ Bit k b)) ∧
      InInt x ∧ InInt y ∧ InInt z := by
  refine ⟨(BitVec.ofInt 32 a &&& BitVec.ofInt 32 b).toInt, (BitVec.ofInt 32 a ||| BitVec.ofInt 32 b).toInt,
    (BitVec.ofInt 32 a ^^^ BitVec.ofInt 32 b).toInt, ?_, ?_, ?_, ?_, ?_, ?_, inInt_toInt _, inInt_toInt _, inInt_toInt _⟩
  · unfold bitAnd onBits
    rw [toInt_ofInt ha, toInt_ofInt hb, Out.ok_bind, Out.ok_bind]
  · unfold bitOr onBits
    rw [toInt_ofInt ha, toInt_ofInt hb, Out.ok_bind, Out.ok_bind]
  · unfold bitXor onBits
    rw [toInt_ofInt ha, toInt_ofInt hb, Out.ok_bind, Out.ok_bind]
  · intro k; rw [bits_and, bit_ofInt ha, bit_ofInt hb]
  · intro k; rw [bits_or, bit_ofInt ha, bit_ofInt hb]
  · intro k; rw [bits_xor, bit_ofInt ha, bit_ofInt hb]

example : InInt 12 ∧ InInt (-6) ∧ bitAnd (.ofInt 12) (.ofInt (-6)) = .ok (.ofInt 8) ∧
    bitOr (.ofInt 12) (.ofInt (-6)) = .ok (.ofInt (-2)) ∧ bitXor (.ofInt 12) (.ofInt (-6)) = .ok (.ofInt (-10)) := by
  decide +kernel

theorem bit_low (n : Int) (k : Nat) : Bit (k + 1) n ↔ Bit k (n / 2) := by
  unfold Bit
  rw [Int.pow_succ, Int.mul_comm, ← Int.ediv_ediv_of_nonneg (by decide)]

/-- The binary places of a number in the range of `int` determine it, so `C106_partial` says which number is answered. -/
theorem C106_determined (x y : Int) (hx : InInt x) (hy : InInt y) (h : ∀ k, Bit k x ↔ Bit k y) : x = y := by
  have key : ∀ (n : Nat) (x y : Int), -2 ^ n ≤ x → x < 2 ^ n → -2 ^ n ≤ y → y < 2 ^ n → (∀ k, Bit k x ↔ Bit k y) → x = y := by
    intro n
    induction n with
    | zero =>
      intro x y h1 h2 h3 h4 h
      have := h 0
      unfold Bit at this
      rw [Int.pow_zero] at h1 h2 h3 h4 this
      omega
    | succ n ih =>
      intro x y h1 h2 h3 h4 h
      rw [Int.pow_succ] at h1 h2 h3 h4
      have h0 := h 0
      unfold Bit at h0
      rw [Int.pow_zero] at h0
      have := ih (x / 2) (y / 2) (by omega) (by omega) (by omega) (by omega)
        (fun k => (bit_low x k).symm.trans ((h (k + 1)).trans (bit_low y k)))
      omega
  unfold InInt at hx hy
  exact key 31 x y (by omega) (by omega) (by omega) (by omega) h

example : InInt 12 ∧ ¬ Bit 0 12 ∧ ¬ Bit 1 12 ∧ Bit 2 12 ∧ Bit 3 12 ∧ Bit 40 (-6) := by decide +kernel

/-- **C106**: fractions are dropped first: a number between two whole numbers counts as the one nearer to zero. -/
theorem C106_fraction (m : Int) (k : Nat) (y : Dbl) (x : Int) (hx : WholePart m k x) :
    bitAnd (.fin m k) y = bitAnd (.ofInt x) y ∧ bitAnd y (.fin m k) = bitAnd y (.ofInt x) ∧
    bitOr (.fin m k) y = bitOr (.ofInt x) y ∧ bitOr y (.fin m k) = bitOr y (.ofInt x) ∧
    bitXor (.fin m k) y = bitXor (.ofInt x) y ∧ bitXor y (.fin m k) = bitXor y (.ofInt x) := by
  have hp : (0 : Int) < 2 ^ k := Int.pow_pos (by decide)
  have hd : m.tdiv (2 ^ k) = x := by
    by_cases h0 : 0 ≤ m
    · obtain ⟨h1, h2⟩ := hx.1 h0
      rw [Int.tdiv_eq_ediv_of_nonneg h0]
      have := Int.le_ediv_of_mul_le hp h1
      have := Int.ediv_lt_of_lt_mul hp h2
      omega
    · obtain ⟨h1, h2⟩ := hx.2 (by omega)
      have h3 : m = -(-m) := by omega
      rw [h3, Int.neg_tdiv, Int.tdiv_eq_ediv_of_nonneg (by omega)]
      have h4 : -x * 2 ^ k ≤ -m := by rw [Int.neg_mul]; omega
      have h5 : -m < (-x + 1) * 2 ^ k := by
        rw [show -x + 1 = -(x - 1) by omega, Int.neg_mul]; omega
      have := Int.le_ediv_of_mul_le hp h4
      have := Int.ediv_lt_of_lt_mul hp h5
      omega
  have ht : Dbl.toInt (.fin m k) = Dbl.toInt (.ofInt x) := by
    unfold Dbl.toInt Dbl.ofInt
    dsimp only
    rw [hd, Int.pow_zero, Int.tdiv_one]
  unfold bitAnd bitOr bitXor onBits
  rw [ht]
  exact ⟨rfl, rfl, rfl, rfl, rfl, rfl⟩

/-- -3.75 counts as -3. -/
example : WholePart (-15) 2 (-3) ∧ bitAnd (.fin (-15) 2) (.ofInt 7) = .ok (.ofInt 5) := by
  refine ⟨⟨fun h => absurd h (by decide), fun _ => by decide⟩, by decide +kernel⟩

/-- **C106** is violated: for a number outside the range of `int` the answer is undefined. -/
theorem C106_violated (b : Dbl) : bitAnd (.ofInt 4294967296) b = .ub ∧ bitOr (.ofInt 4294967296) b = .ub ∧
    bitXor (.ofInt 4294967296) b = .ub := ⟨rfl, rfl, rfl⟩

end Verif.Props.Bits
