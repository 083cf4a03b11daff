import Verif.Model.Text
import Verif.Spec.Text

/-!
# Lemmas: rounding to single precision
-/

namespace Verif.Model.Txt
open Verif.Spec

theorem single_of_le {m : Nat} (e : Nat) (h : m ≤ 16777216) : Single (m * 2 ^ e) := by
  rcases Nat.lt_or_ge m 16777216 with h1 | h1
  · exact ⟨m, e, h1, rfl⟩
  · have : m = 16777216 := by omega
    subst this
    exact ⟨8388608, e + 1, by decide, by rw [Nat.pow_succ]; omega⟩

/-- A multiple of `b` is `q * b` or at least one step away. -/
theorem mul_far {q b c : Nat} : c * b = q * b ∨ c * b + b ≤ q * b ∨ q * b + b ≤ c * b := by
  rcases Nat.lt_trichotomy c q with h | h | h
  · right; left
    calc c * b + b = (c + 1) * b := by rw [Nat.add_mul, Nat.one_mul]
      _ ≤ q * b := Nat.mul_le_mul_right b h
  · left; rw [h]
  · right; right
    calc q * b + b = (q + 1) * b := by rw [Nat.add_mul, Nat.one_mul]
      _ ≤ c * b := Nat.mul_le_mul_right b h

theorem toFloat32_rounded (n : Nat) : Rounded n (toFloat32 n) := by
  unfold toFloat32
  by_cases h : n < 16777216
  · rw [if_pos h]
    refine ⟨⟨n, 0, h, by simp⟩, fun x _ => ⟨by simp, fun hx he => absurd he (by omega)⟩⟩
  rw [if_neg h]
  simp only
  have hn : n ≠ 0 := by omega
  have hlog : 24 ≤ n.log2 := by
    rcases Nat.lt_or_ge n.log2 24 with h1 | h1
    · have h2 := (Nat.log2_lt hn).mp h1
      have : (2 : Nat) ^ 24 = 16777216 := by decide
      omega
    · exact h1
  obtain ⟨e, he⟩ : ∃ e, n.log2 - 23 = e + 1 := ⟨n.log2 - 24, by omega⟩
  have hl : n.log2 = e + 24 := by omega
  rw [he, Nat.add_sub_cancel]
  have hlo : 8388608 * 2 ^ (e + 1) ≤ n := by
    have h1 := Nat.log2_self_le hn
    rw [hl, show e + 24 = (e + 1) + 23 by omega, Nat.pow_add] at h1
    have : (2 : Nat) ^ 23 = 8388608 := by decide
    rw [this, Nat.mul_comm] at h1
    exact h1
  have hhi : n < 16777216 * 2 ^ (e + 1) := by
    have h1 : n < 2 ^ (e + 25) := (Nat.log2_lt hn).mp (by omega)
    rw [show e + 25 = (e + 1) + 24 by omega, Nat.pow_add, Nat.mul_comm] at h1
    have : (2 : Nat) ^ 24 = 16777216 := by decide
    rw [this] at h1
    exact h1
  have hb : 0 < 2 ^ e := Nat.pow_pos (by decide)
  have hbb : 2 ^ (e + 1) = 2 * 2 ^ e := by rw [Nat.pow_succ]; omega
  have hq1 : 8388608 ≤ n / 2 ^ (e + 1) := (Nat.le_div_iff_mul_le (by omega)).mpr hlo
  have hq2 : n / 2 ^ (e + 1) < 16777216 := (Nat.div_lt_iff_lt_mul (by omega)).mpr hhi
  have hdm := Nat.div_add_mod n (2 ^ (e + 1))
  rw [Nat.mul_comm] at hdm
  have hr := Nat.mod_lt n (show 2 ^ (e + 1) > 0 by omega)
  generalize n / 2 ^ (e + 1) = q at *
  generalize n % 2 ^ (e + 1) = r at *
  have hsucc : (q + 1) * 2 ^ (e + 1) = q * 2 ^ (e + 1) + 2 ^ (e + 1) := by rw [Nat.add_mul, Nat.one_mul]
  -- any other number of single precision is a multiple of the step, or lies below
  have hother : ∀ x, Single x → x = q * 2 ^ (e + 1) ∨ x + 1 ≤ q * 2 ^ (e + 1) ∧ x + 2 ^ (e + 1) ≤ q * 2 ^ (e + 1) ∨
      q * 2 ^ (e + 1) + 2 ^ (e + 1) ≤ x ∨ (x < 8388608 * 2 ^ (e + 1)) := by
    rintro x ⟨m, e', hm, rfl⟩
    rcases Nat.lt_or_ge e' (e + 1) with h1 | h1
    · right; right; right
      calc m * 2 ^ e' ≤ m * 2 ^ e := Nat.mul_le_mul_left m (Nat.pow_le_pow_right (by decide) (by omega))
        _ < 16777216 * 2 ^ e := Nat.mul_lt_mul_of_pos_right hm hb
        _ = 8388608 * 2 ^ (e + 1) := by rw [hbb]; omega
    · have : m * 2 ^ e' = m * 2 ^ (e' - (e + 1)) * 2 ^ (e + 1) := by
        rw [Nat.mul_assoc, ← Nat.pow_add]; congr 2; omega
      rw [this]
      rcases @mul_far q (2 ^ (e + 1)) (m * 2 ^ (e' - (e + 1))) with h2 | h2 | h2
      · left; exact h2
      · right; left; omega
      · right; right; left; exact h2
  have hqlo : 8388608 * 2 ^ (e + 1) ≤ q * 2 ^ (e + 1) := Nat.mul_le_mul_right _ hq1
  by_cases hc : r > 2 ^ e ∨ (r = 2 ^ e ∧ q % 2 = 1)
  · rw [if_pos hc]
    refine ⟨single_of_le _ (by omega), ?_⟩
    intro x hx
    rw [hsucc]
    generalize q * 2 ^ (e + 1) = Q at *
    generalize 8388608 * 2 ^ (e + 1) = L at *
    have ho := hother x hx
    constructor
    · rcases hc with hc | hc <;> rcases ho with h1 | h1 | h1 | h1 <;> omega
    · intro hne heq
      have hodd : q % 2 = 1 := by
        rcases hc with hc | hc
        · exfalso
          rcases ho with h1 | h1 | h1 | h1 <;> omega
        · exact hc.2
      rcases Nat.lt_or_ge (q + 1) 16777216 with h2 | h2
      · exact ⟨q + 1, e + 1, hsucc.symm, by omega, h2, by omega⟩
      · refine ⟨8388608, e + 2, ?_, by omega, by omega, by omega⟩
        have h3 : 2 ^ (e + 2) = 2 * 2 ^ (e + 1) := by rw [Nat.pow_succ]; omega
        rw [← hsucc, show q + 1 = 16777216 by omega, h3]
        omega
  · rw [if_neg hc]
    refine ⟨single_of_le _ (by omega), ?_⟩
    intro x hx
    have ho := hother x hx
    constructor
    · generalize q * 2 ^ (e + 1) = Q at *
      generalize 8388608 * 2 ^ (e + 1) = L at *
      rcases ho with h1 | h1 | h1 | h1 <;> omega
    · intro hne heq
      refine ⟨q, e + 1, rfl, hq1, hq2, ?_⟩
      generalize q * 2 ^ (e + 1) = Q at *
      generalize 8388608 * 2 ^ (e + 1) = L at *
      rcases ho with h1 | h1 | h1 | h1 <;> omega

end Verif.Model.Txt
