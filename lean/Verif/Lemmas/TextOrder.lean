import Verif.Lemmas.Text

/-! Helper lemmas for `Props/Text`: comparison, trimming, case. -/

namespace Verif.Model.Txt
open Verif.Spec (encodeNat encodeChar encode lexLt White IsTrimmed)

theorem forall_byte (P : UInt8 → Prop) (h : ∀ n < 256, P (UInt8.ofNat n)) (c : UInt8) : P c := by
  have := h c.toNat c.toNat_lt
  rwa [UInt8.ofNat_toNat] at this

/-! ### strncmp -/

theorem strncmp_ok (s o : Text) (n : Nat) (h1 : n ≤ s.length) (h2 : n ≤ o.length) :
    ∃ r, strncmp s o n = .ok r ∧ strncmp o s n = .ok r.swap := by
  induction s generalizing o n with
  | nil =>
    have : n = 0 := by simpa using h1
    subst this; exact ⟨.eq, by simp [strncmp], by simp [strncmp]⟩
  | cons a s ih =>
    cases n with
    | zero => exact ⟨.eq, by simp [strncmp], by simp [strncmp]⟩
    | succ n =>
      cases o with
      | nil => simp at h2
      | cons b o =>
        simp only [strncmp]
        by_cases hab : a = b
        · subst hab
          simp only [ne_eq, not_true_eq_false, if_false]
          by_cases h0 : a = 0
          · simp [h0]
          · simp only [h0, if_false]
            exact ih o n (by simpa using h1) (by simpa using h2)
        · have hba : b ≠ a := fun h => hab h.symm
          simp only [ne_eq, hab, hba, not_false_eq_true, if_true]
          refine ⟨_, rfl, ?_⟩
          rw [Nat.compare_swap]

theorem cmp_ok (s o : Text) : ∃ r, cmp s o = .ok r ∧ cmp o s = .ok r.swap := by
  unfold cmp
  have hmin : (if s.length < o.length then s.length else o.length) = min s.length o.length := by
    split <;> omega
  have hmin2 : (if o.length < s.length then o.length else s.length) = min s.length o.length := by
    split <;> omega
  simp only [hmin, hmin2]
  exact strncmp_ok s o _ (by omega) (by omega)

theorem strncmp_nulFree (s o : Text) (hs : 0 ∉ s) :
    ∃ r, strncmp s o (min s.length o.length) = .ok r ∧ (r = .eq ↔ s <+: o ∨ o <+: s) ∧
      (r = .lt ↔ lexLt s o ∧ ¬ s <+: o) ∧ (r = .gt ↔ lexLt o s ∧ ¬ o <+: s) := by
  induction s generalizing o with
  | nil => exact ⟨.eq, by simp [strncmp], by simp, by simp, by simp [lexLt]⟩
  | cons a s ih =>
    cases o with
    | nil => exact ⟨.eq, by simp [strncmp], by simp, by simp [lexLt], by simp⟩
    | cons b o =>
      simp only [List.length_cons, Nat.add_min_add_right, strncmp]
      by_cases hab : a = b
      · subst hab
        have h0 : a ≠ 0 := by intro h; simp [h] at hs
        simp only [ne_eq, not_true_eq_false, if_false, h0]
        obtain ⟨r, e, h1, h2, h3⟩ := ih o (by intro h; simp [h] at hs)
        refine ⟨r, e, ?_, ?_, ?_⟩
        · simpa using h1
        · simpa [lexLt] using h2
        · simpa [lexLt] using h3
      · have hba : b ≠ a := fun h => hab h.symm
        have hne : a.toNat ≠ b.toNat := fun h => hab (UInt8.toNat_inj.mp h)
        simp only [ne_eq, hab, not_false_eq_true, if_true]
        refine ⟨_, rfl, ?_, ?_, ?_⟩
        · simp [hab, hba, hne]
        · rw [Nat.compare_eq_lt]; simp [lexLt, hab]
        · rw [Nat.compare_eq_gt]; simp [lexLt, hba]

theorem cmp_nulFree (s o : Text) (hs : 0 ∉ s) :
    ∃ r, cmp s o = .ok r ∧ (r = .eq ↔ s <+: o ∨ o <+: s) ∧
      (r = .lt ↔ lexLt s o ∧ ¬ s <+: o) ∧ (r = .gt ↔ lexLt o s ∧ ¬ o <+: s) := by
  unfold cmp
  have hmin : (if s.length < o.length then s.length else o.length) = min s.length o.length := by
    split <;> omega
  simp only [hmin]
  exact strncmp_nulFree s o hs

theorem lexLt_irrefl (s : List UInt8) : ¬ lexLt s s := by
  induction s with
  | nil => simp [lexLt]
  | cons a s ih => simp [lexLt, ih]

theorem lexLt_trans {s t u : List UInt8} (h1 : lexLt s t) (h2 : lexLt t u) : lexLt s u := by
  induction s generalizing t u with
  | nil => cases t <;> cases u <;> simp_all [lexLt]
  | cons a s ih =>
    cases t with
    | nil => simp [lexLt] at h1
    | cons b t =>
      cases u with
      | nil => simp [lexLt] at h2
      | cons c u =>
        simp only [lexLt] at *
        rcases h1 with h1 | ⟨rfl, h1⟩ <;> rcases h2 with h2 | ⟨rfl, h2⟩
        · left; omega
        · left; exact h1
        · left; exact h2
        · right; exact ⟨rfl, ih h1 h2⟩

theorem lexLt_total (s t : List UInt8) : lexLt s t ∨ s = t ∨ lexLt t s := by
  induction s generalizing t with
  | nil => cases t <;> simp [lexLt]
  | cons a s ih =>
    cases t with
    | nil => simp [lexLt]
    | cons b t =>
      by_cases hab : a = b
      · subst hab
        simpa [lexLt] using ih t
      · have hne : a.toNat ≠ b.toNat := fun h => hab (UInt8.toNat_inj.mp h)
        simp only [lexLt]
        rcases Nat.lt_or_gt_of_ne hne with h | h
        · left; left; exact h
        · right; right; left; exact h

theorem prefix_eq_of_length {s o : List α} (hl : s.length = o.length) (h : s <+: o) : s = o :=
  h.eq_of_length hl

/-! ### Trimming -/

instance (c : UInt8) : Decidable (White c) := inferInstanceAs (Decidable (_ ∈ _))

theorem isspace_iff (c : UInt8) : isspace c = true ↔ White c := by
  have h : ∀ n < 256, isspace (UInt8.ofNat n) = decide (White (UInt8.ofNat n)) := by decide +kernel
  have := forall_byte (fun c => isspace c = decide (White c)) h c
  rw [this]; simp

theorem skipSpaces_spec (s : Text) (fuel i : Nat) (hf : s.length ≤ fuel + i) (hi : i ≤ s.length) :
    ∃ j, skipSpaces s s.length fuel i = .ok j ∧ i ≤ j ∧ j ≤ s.length ∧
      (∀ k c, i ≤ k → k < j → s[k]? = some c → White c) ∧
      (∀ c, s[j]? = some c → ¬ White c) := by
  induction fuel generalizing i with
  | zero =>
    refine ⟨i, rfl, by omega, by omega, fun k c h1 h2 => by omega, fun c h => ?_⟩
    rw [List.getElem?_eq_none (by omega)] at h; simp at h
  | succ fuel ih =>
    simp only [skipSpaces]
    by_cases hlt : i < s.length
    · rw [if_pos hlt, List.getElem?_eq_getElem hlt]
      simp only
      by_cases hsp : isspace s[i] = true
      · rw [if_pos hsp]
        obtain ⟨j, e, h1, h2, h3, h4⟩ := ih (i + 1) (by omega) (by omega)
        refine ⟨j, e, by omega, h2, fun k c hk1 hk2 hk3 => ?_, h4⟩
        by_cases hki : k = i
        · subst hki
          rw [List.getElem?_eq_getElem hlt] at hk3
          simp only [Option.some.injEq] at hk3
          rw [← hk3]; exact (isspace_iff _).mp hsp
        · exact h3 k c (by omega) hk2 hk3
      · rw [if_neg hsp]
        refine ⟨i, rfl, by omega, by omega, fun k c h1 h2 => by omega, fun c h => ?_⟩
        rw [List.getElem?_eq_getElem hlt] at h
        simp only [Option.some.injEq] at h
        rw [← h, ← isspace_iff]; exact hsp
    · rw [if_neg hlt]
      refine ⟨i, rfl, by omega, by omega, fun k c h1 h2 => by omega, fun c h => ?_⟩
      rw [List.getElem?_eq_none (by omega)] at h; simp at h

theorem dropSpaces_spec (s : Text) (b k : Nat) (hk : b + k < s.length)
    (hb : ∀ c, s[b]? = some c → ¬ White c) :
    ∃ j, dropSpaces s b k = .ok j ∧ b ≤ j ∧ j ≤ b + k ∧
      (∀ i c, j < i → i ≤ b + k → s[i]? = some c → White c) ∧
      (∀ c, s[j]? = some c → ¬ White c) := by
  induction k with
  | zero => exact ⟨b, rfl, by omega, by omega, fun i c h1 h2 => by omega, hb⟩
  | succ k ih =>
    simp only [dropSpaces]
    rw [List.getElem?_eq_getElem hk]
    simp only
    by_cases hsp : isspace s[b + (k + 1)] = true
    · rw [if_pos hsp]
      obtain ⟨j, e, h1, h2, h3, h4⟩ := ih (by omega)
      refine ⟨j, e, h1, by omega, fun i c hi1 hi2 hi3 => ?_, h4⟩
      by_cases hki : i = b + (k + 1)
      · subst hki
        rw [List.getElem?_eq_getElem hk] at hi3
        simp only [Option.some.injEq] at hi3
        rw [← hi3]; exact (isspace_iff _).mp hsp
      · exact h3 i c hi1 (by omega) hi3
    · rw [if_neg hsp]
      refine ⟨_, rfl, by omega, by omega, fun i c h1 h2 => by omega, fun c h => ?_⟩
      rw [List.getElem?_eq_getElem hk] at h
      simp only [Option.some.injEq] at h
      rw [← h, ← isspace_iff]; exact hsp

theorem trim_spec (s : Text) : ∃ r, trim s = .ok r ∧ IsTrimmed s r := by
  unfold trim
  simp only
  by_cases h0 : s.length = 0
  · rw [if_pos h0, List.length_eq_zero_iff.mp h0]
    exact ⟨[], rfl, [], [], rfl, by simp, by simp, by simp, by simp⟩
  · rw [if_neg h0]
    obtain ⟨b, e, -, hb, hw, hnw⟩ := skipSpaces_spec s s.length 0 (by omega) (by omega)
    rw [e]; simp only [Out.ok_bind]
    by_cases hbl : b = s.length
    · rw [if_pos hbl]
      refine ⟨[], rfl, s, [], by simp, ?_, by simp, by simp, by simp⟩
      intro c hc
      obtain ⟨k, hk⟩ := List.getElem?_of_mem hc
      have := (List.getElem?_eq_some_iff.mp hk).1
      exact hw k c (by omega) (by omega) hk
    · rw [if_neg hbl]
      obtain ⟨j, e2, h1, h2, h3, h4⟩ := dropSpaces_spec s b (s.length - 1 - b) (by omega) hnw
      rw [e2]; simp only [Out.ok_bind]
      refine ⟨(s.drop b).take (j + 1 - b), by simp [slice]; omega, s.take b, s.drop (j + 1), ?_, ?_, ?_, ?_, ?_⟩
      · have hd : s.drop b = (s.drop b).take (j + 1 - b) ++ s.drop (j + 1) := by
          conv => lhs; rw [← List.take_append_drop (j + 1 - b) (s.drop b), List.drop_drop]
          rw [show b + (j + 1 - b) = j + 1 by omega]
        rw [List.append_assoc, ← hd, List.take_append_drop]
      · intro c hc
        obtain ⟨k, hk⟩ := List.getElem?_of_mem hc
        have hk' := (List.getElem?_eq_some_iff.mp hk).1
        rw [List.length_take] at hk'
        rw [List.getElem?_take_of_lt (by omega)] at hk
        exact hw k c (by omega) (by omega) hk
      · intro c hc
        obtain ⟨k, hk⟩ := List.getElem?_of_mem hc
        have hk' := (List.getElem?_eq_some_iff.mp hk).1
        rw [List.length_drop] at hk'
        rw [List.getElem?_drop] at hk
        exact h3 (j + 1 + k) c (by omega) (by omega) hk
      · intro c hc
        rw [List.head?_eq_getElem?, List.getElem?_take_of_lt (by omega), List.getElem?_drop] at hc
        exact hnw c hc
      · intro c hc
        rw [List.getLast?_eq_getElem?, List.length_take, List.length_drop] at hc
        rw [List.getElem?_take_of_lt (by omega), List.getElem?_drop] at hc
        rw [show b + (min (j + 1 - b) (s.length - b) - 1) = j by omega] at hc
        exact h4 c hc

theorem isTrimmed_unique {t r r' : List UInt8} (h : IsTrimmed t r) (h' : IsTrimmed t r') : r = r' := by
  have drop_white : ∀ (a r b a' r' b' : List UInt8), a ++ r ++ b = a' ++ r' ++ b' → (∀ c ∈ a, White c) →
      (∀ c, r'.head? = some c → ¬ White c) → r' ≠ [] → a.length ≤ a'.length := by
    intro a r b a' r' b' e ha hr' hne
    apply Decidable.byContradiction
    intro hlt
    cases r' with
    | nil => exact hne rfl
    | cons c r' =>
      have h1 := congrArg (fun l => l[a'.length]?) e
      simp only [List.append_assoc] at h1
      rw [List.getElem?_append_left (by omega), List.getElem?_append_right (by omega)] at h1
      simp at h1
      exact hr' c rfl (ha c (List.mem_of_getElem? h1))
  have white_of_empty : ∀ (r : List UInt8), (∀ c ∈ r, White c) → (∀ c, r.head? = some c → ¬ White c) → r = [] := by
    intro r hw hh
    cases r with
    | nil => rfl
    | cons c r => exact absurd (hw c (by simp)) (hh c rfl)
  obtain ⟨a, b, e, ha, hb, hh, hl⟩ := h
  obtain ⟨a', b', e', ha', hb', hh', hl'⟩ := h'
  by_cases hr : r = []
  · subst hr
    refine (white_of_empty r' ?_ hh').symm
    intro c hc
    have : c ∈ a ++ [] ++ b := by rw [← e, e']; simp [hc]
    simp only [List.append_nil, List.mem_append] at this
    exact this.elim (ha c) (hb c)
  · by_cases hr' : r' = []
    · subst hr'
      refine white_of_empty r ?_ hh
      intro c hc
      have : c ∈ a' ++ [] ++ b' := by rw [← e', e]; simp [hc]
      simp only [List.append_nil, List.mem_append] at this
      exact this.elim (ha' c) (hb' c)
    · have ee : a ++ r ++ b = a' ++ r' ++ b' := by rw [← e, e']
      have h1 := drop_white a r b a' r' b' ee ha hh' hr'
      have h2 := drop_white a' r' b' a r b ee.symm ha' hh hr
      have er : b.reverse ++ r.reverse ++ a.reverse = b'.reverse ++ r'.reverse ++ a'.reverse := by
        have := congrArg List.reverse ee
        simpa using this
      have h3 := drop_white b.reverse r.reverse a.reverse b'.reverse r'.reverse a'.reverse er
        (by simpa using hb) (by simpa using hl') (by simpa using hr')
      have h4 := drop_white b'.reverse r'.reverse a'.reverse b.reverse r.reverse a.reverse er.symm
        (by simpa using hb') (by simpa using hl) (by simpa using hr)
      simp only [List.length_reverse] at h3 h4
      have hlen := congrArg List.length ee
      simp at hlen
      rw [List.append_assoc, List.append_assoc] at ee
      exact (List.append_inj (List.append_inj ee (by omega)).2 (by omega)).1

theorem isTrimmed_self {t r : List UInt8} (h : IsTrimmed t r) : IsTrimmed r r := by
  obtain ⟨a, b, e, ha, hb, hh, hl⟩ := h
  exact ⟨[], [], by simp, by simp, by simp, hh, hl⟩

/-! ### Case -/

theorem toupper_high (c : UInt8) (h : 128 ≤ c.toNat) : toupper c = c := by
  have : ∀ n < 256, 128 ≤ (UInt8.ofNat n).toNat → toupper (UInt8.ofNat n) = UInt8.ofNat n := by decide +kernel
  exact forall_byte (fun c => 128 ≤ c.toNat → toupper c = c) this c h

theorem tolower_high (c : UInt8) (h : 128 ≤ c.toNat) : tolower c = c := by
  have : ∀ n < 256, 128 ≤ (UInt8.ofNat n).toNat → tolower (UInt8.ofNat n) = UInt8.ofNat n := by decide +kernel
  exact forall_byte (fun c => 128 ≤ c.toNat → tolower c = c) this c h

theorem encodeChar_high (c : Char) (h : 128 ≤ c.toNat) : ∀ b ∈ encodeChar c, 128 ≤ b.toNat := by
  have hc := char_lt c
  simp only [encodeChar, encodeNat]
  repeat' split
  · omega
  all_goals
    simp only [List.mem_cons, List.not_mem_nil, or_false, forall_eq_or_imp, forall_eq]
    simp (disch := omega) only [toNat_ofNat]
    omega

theorem encodeChar_upper (c : Char) : encodeChar c.toUpper = (encodeChar c).map toupper := by
  by_cases h : c.toNat < 128
  · have : ∀ n < 128, encodeChar (Char.ofNat n).toUpper = (encodeChar (Char.ofNat n)).map toupper := by
      decide +kernel
    have h2 := this c.toNat h
    rwa [Char.ofNat_toNat] at h2
  · have h1 : c.toUpper = c := by
      unfold Char.toUpper
      rw [dif_neg]
      intro hh
      have : c.toNat ≤ 122 := hh.2
      omega
    rw [h1]
    symm
    rw [List.map_congr_left (g := id) (fun b hb => toupper_high b (encodeChar_high c (by omega) b hb))]
    simp

theorem encodeChar_lower (c : Char) : encodeChar c.toLower = (encodeChar c).map tolower := by
  by_cases h : c.toNat < 128
  · have : ∀ n < 128, encodeChar (Char.ofNat n).toLower = (encodeChar (Char.ofNat n)).map tolower := by
      decide +kernel
    have h2 := this c.toNat h
    rwa [Char.ofNat_toNat] at h2
  · have h1 : c.toLower = c := by
      unfold Char.toLower
      rw [dif_neg]
      intro hh
      have : c.toNat ≤ 90 := hh.2
      omega
    rw [h1]
    symm
    rw [List.map_congr_left (g := id) (fun b hb => tolower_high b (encodeChar_high c (by omega) b hb))]
    simp

theorem encode_upper (cs : List Char) : encode (cs.map Char.toUpper) = (encode cs).map toupper := by
  induction cs with
  | nil => rfl
  | cons c cs ih => simp [encode_cons, encodeChar_upper, ih]

theorem encode_lower (cs : List Char) : encode (cs.map Char.toLower) = (encode cs).map tolower := by
  induction cs with
  | nil => rfl
  | cons c cs ih => simp [encode_cons, encodeChar_lower, ih]

end Verif.Model.Txt
