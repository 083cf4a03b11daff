import Verif.Lemmas.Text

/-! Helper lemmas for `Props/Text`: searching, replacing, splitting. -/

namespace Verif.Model.Txt
open Verif.Spec (encodeNat encodeChar encode OccursAt Occurs)

/-! ### Occurrences -/

theorem occursAt_iff {t p : List α} {i : Nat} : OccursAt t p i ↔
    i + p.length ≤ t.length ∧ (t.drop i).take p.length = p := by
  constructor
  · rintro ⟨a, b, rfl, rfl⟩
    simp
  · rintro ⟨h, e⟩
    refine ⟨t.take i, t.drop (i + p.length), ?_, by simp; omega⟩
    have h1 : t.drop i = p ++ t.drop (i + p.length) := by
      rw [← List.drop_drop]
      conv => lhs; rw [← List.take_append_drop p.length (t.drop i)]
      rw [e]
    rw [List.append_assoc, ← h1, List.take_append_drop]

theorem occurs_iff {t p : List α} : Occurs t p ↔ ∃ i, OccursAt t p i := by
  constructor
  · rintro ⟨a, b, e⟩; exact ⟨_, a, b, e, rfl⟩
  · rintro ⟨i, a, b, e, -⟩; exact ⟨a, b, e⟩

theorem matchAt_eq (h n : Text) (i : Nat) (hi : i + n.length ≤ h.length) :
    ∃ b, matchAt h n i = .ok b ∧ (b = true ↔ OccursAt h n i) := by
  refine ⟨(h.drop i).take n.length == n, by simp [matchAt, hi], ?_⟩
  rw [occursAt_iff]; simp [hi]

theorem memmemUp_spec (h n : Text) (k cur : Nat) (hk : cur + k + n.length ≤ h.length + 1) :
    (∃ i, memmemUp h n cur k = .ok (some i) ∧ cur ≤ i ∧ OccursAt h n i ∧ ∀ j, cur ≤ j → j < i → ¬ OccursAt h n j) ∨
      (memmemUp h n cur k = .ok none ∧ ∀ j, cur ≤ j → j < cur + k → ¬ OccursAt h n j) := by
  induction k generalizing cur with
  | zero => right; exact ⟨rfl, fun j _ _ => by omega⟩
  | succ k ih =>
    obtain ⟨b, e, hb⟩ := matchAt_eq h n cur (by omega)
    cases b with
    | true =>
      left
      refine ⟨cur, by simp [memmemUp, e], by omega, hb.mp rfl, fun j _ _ => by omega⟩
    | false =>
      have hno : ¬ OccursAt h n cur := fun hh => by simpa using hb.mpr hh
      have e2 : memmemUp h n cur (k + 1) = memmemUp h n (cur + 1) k := by simp [memmemUp, e]
      rw [e2]
      rcases ih (cur + 1) (by omega) with ⟨i, e1, h1, h2, h3⟩ | ⟨e1, h3⟩
      · left
        refine ⟨i, e1, by omega, h2, fun j hj1 hj2 => ?_⟩
        by_cases hj : j = cur
        · rw [hj]; exact hno
        · exact h3 j (by omega) hj2
      · right
        refine ⟨e1, fun j hj1 hj2 => ?_⟩
        by_cases hj : j = cur
        · rw [hj]; exact hno
        · exact h3 j (by omega) (by omega)

theorem memmemDown_spec (h n : Text) (k : Nat) (hk : k + n.length ≤ h.length + 1) :
    (∃ i, memmemDown h n k = .ok (some i) ∧ i < k ∧ OccursAt h n i ∧ ∀ j, i < j → j < k → ¬ OccursAt h n j) ∨
      (memmemDown h n k = .ok none ∧ ∀ j, j < k → ¬ OccursAt h n j) := by
  induction k with
  | zero => right; exact ⟨rfl, fun j _ => by omega⟩
  | succ k ih =>
    obtain ⟨b, e, hb⟩ := matchAt_eq h n k (by omega)
    cases b with
    | true =>
      left
      refine ⟨k, by simp [memmemDown, e], by omega, hb.mp rfl, fun j _ _ => by omega⟩
    | false =>
      have hno : ¬ OccursAt h n k := fun hh => by simpa using hb.mpr hh
      have e2 : memmemDown h n (k + 1) = memmemDown h n k := by simp [memmemDown, e]
      rw [e2]
      rcases ih (by omega) with ⟨i, e1, h1, h2, h3⟩ | ⟨e1, h3⟩
      · left
        refine ⟨i, e1, by omega, h2, fun j hj1 hj2 => ?_⟩
        by_cases hj : j = k
        · rw [hj]; exact hno
        · exact h3 j (by omega) (by omega)
      · right
        refine ⟨e1, fun j hj2 => ?_⟩
        by_cases hj : j = k
        · rw [hj]; exact hno
        · exact h3 j (by omega)

theorem occursAt_le {t p : List α} {i : Nat} (h : OccursAt t p i) : i + p.length ≤ t.length :=
  (occursAt_iff.mp h).1

theorem memmem_up (h n : Text) (hn : n ≠ []) :
    (∃ i, memmem h n false = .ok (some i) ∧ OccursAt h n i ∧ ∀ j, j < i → ¬ OccursAt h n j) ∨
      (memmem h n false = .ok none ∧ ∀ j, ¬ OccursAt h n j) := by
  have hn' : n.length ≠ 0 := by simpa using hn
  unfold memmem
  rw [if_neg hn']
  by_cases h1 : h.length = 0
  · rw [if_pos h1]; right
    exact ⟨rfl, fun j hj => by have := occursAt_le hj; omega⟩
  · rw [if_neg h1]
    by_cases h2 : h.length < n.length
    · rw [if_pos h2]; right
      exact ⟨rfl, fun j hj => by have := occursAt_le hj; omega⟩
    · rw [if_neg h2]
      simp only [Bool.not_false, if_true]
      rcases memmemUp_spec h n (h.length - n.length + 1) 0 (by omega) with ⟨i, e1, -, h4, h3⟩ | ⟨e1, h3⟩
      · left; exact ⟨i, e1, h4, fun j hj => h3 j (by omega) hj⟩
      · right
        exact ⟨e1, fun j hj => h3 j (by omega) (by have := occursAt_le hj; omega) hj⟩

theorem memmem_down (h n : Text) (hn : n ≠ []) :
    (∃ i, memmem h n true = .ok (some i) ∧ OccursAt h n i ∧ ∀ j, i < j → ¬ OccursAt h n j) ∨
      (memmem h n true = .ok none ∧ ∀ j, ¬ OccursAt h n j) := by
  have hn' : n.length ≠ 0 := by simpa using hn
  unfold memmem
  rw [if_neg hn']
  by_cases h1 : h.length = 0
  · rw [if_pos h1]; right
    exact ⟨rfl, fun j hj => by have := occursAt_le hj; omega⟩
  · rw [if_neg h1]
    by_cases h2 : h.length < n.length
    · rw [if_pos h2]; right
      exact ⟨rfl, fun j hj => by have := occursAt_le hj; omega⟩
    · rw [if_neg h2]
      simp only [Bool.not_true, Bool.false_eq_true, if_false]
      rcases memmemDown_spec h n (h.length - n.length + 1) (by omega) with ⟨i, e1, -, h4, h3⟩ | ⟨e1, h3⟩
      · left
        exact ⟨i, e1, h4, fun j hj1 hj => h3 j hj1 (by have := occursAt_le hj; omega) hj⟩
      · right
        exact ⟨e1, fun j hj => h3 j (by have := occursAt_le hj; omega) hj⟩

/-! ### Character boundaries -/

theorem ofNat_inj {a b : Nat} (ha : a < 256) (hb : b < 256) : UInt8.ofNat a = UInt8.ofNat b ↔ a = b := by
  constructor
  · intro h
    have := congrArg UInt8.toNat h
    rwa [toNat_ofNat _ ha, toNat_ofNat _ hb] at this
  · rintro rfl; rfl

theorem encodeNat_inj {n m : Nat} (hn : n < 1114112) (hm : m < 1114112) (h : encodeNat n = encodeNat m) :
    n = m := by
  unfold encodeNat at h
  repeat' split at h
  all_goals
    simp only [List.cons.injEq, and_true, reduceCtorEq, and_false] at h
  all_goals
    simp (disch := omega) only [ofNat_inj] at h
    omega

theorem encodeChar_inj {c d : Char} (h : encodeChar c = encodeChar d) : c = d := by
  have := encodeNat_inj (char_lt c) (char_lt d) h
  exact Char.ext (UInt32.toNat_inj.mp this)

theorem encodeChar_append_inj {c d : Char} {x y : Text} (h : encodeChar c ++ x = encodeChar d ++ y) :
    c = d ∧ x = y := by
  obtain ⟨b, bs, e, -, hs, -⟩ := encodeChar_shape c
  obtain ⟨b', bs', e', -, hs', -⟩ := encodeChar_shape d
  have hb : b = b' := by rw [e, e'] at h; simpa using congrArg List.head? h
  subst hb
  have hl : (encodeChar c).length = (encodeChar d).length := by rw [e, e']; simp; omega
  obtain ⟨h1, h2⟩ := List.append_inj h hl
  exact ⟨encodeChar_inj h1, h2⟩

theorem encode_prefix {cs ps : List Char} {b : Text} (h : encode cs = encode ps ++ b) :
    ∃ c2, cs = ps ++ c2 ∧ b = encode c2 := by
  induction ps generalizing cs with
  | nil => exact ⟨cs, rfl, by simpa [encode_nil] using h.symm⟩
  | cons p ps ih =>
    cases cs with
    | nil =>
      have := congrArg List.length h
      have hp := encodeChar_pos p
      simp [encode_nil, encode_cons] at this; omega
    | cons c cs =>
      rw [encode_cons, encode_cons, List.append_assoc] at h
      obtain ⟨rfl, h2⟩ := encodeChar_append_inj h
      obtain ⟨c2, rfl, hb⟩ := ih h2
      exact ⟨c2, rfl, hb⟩

theorem encode_inj {cs ps : List Char} (h : encode cs = encode ps) : cs = ps := by
  obtain ⟨c2, rfl, hb⟩ := encode_prefix (b := []) (by simpa using h)
  rw [encode_eq_nil.mp hb.symm]; simp

/-- An occurrence of a valid non-empty text in a valid text starts and ends at character boundaries. -/
theorem encode_mid {cs ps : List Char} (hps : ps ≠ []) {a b : Text} (h : encode cs = a ++ encode ps ++ b) :
    ∃ c1 c2, cs = c1 ++ ps ++ c2 ∧ a = encode c1 ∧ b = encode c2 := by
  induction cs generalizing a with
  | nil =>
    have := congrArg List.length h
    have h2 := length_le_encode ps
    have h3 := List.length_pos_iff.mpr hps
    simp [encode_nil] at this; omega
  | cons c cs ih =>
    by_cases ha : a = []
    · subst ha
      obtain ⟨c2, e, hb⟩ := encode_prefix (by simpa using h)
      exact ⟨[], c2, by simpa using e, rfl, hb⟩
    · obtain ⟨x, xs, e, -, hs, hc⟩ := encodeChar_shape c
      cases ps with
      | nil => exact absurd rfl hps
      | cons p ps =>
        obtain ⟨y, ys, e', hy, -, -⟩ := encodeChar_shape p
        have hlen : (encodeChar c).length ≤ a.length := by
          apply Decidable.byContradiction
          intro hlt
          have h1 : (encode (c :: cs))[a.length]? = some y := by
            rw [h]; simp [encode_cons, e']
          have ha' : 0 < a.length := List.length_pos_iff.mpr ha
          have h2 : (encode (c :: cs))[a.length]? = xs[a.length - 1]? := by
            have hlt2 : a.length - 1 < xs.length := by rw [e] at hlt; simp at hlt; omega
            rw [encode_cons, List.getElem?_append_left (by omega), e]
            rw [show a.length = a.length - 1 + 1 by omega, List.getElem?_cons_succ]; simp
          rw [h1] at h2
          exact hy (hc y (List.mem_of_getElem? h2.symm))
        have ha2 : a = encodeChar c ++ a.drop (encodeChar c).length := by
          have := congrArg (List.take (encodeChar c).length) h
          rw [encode_cons, List.take_left', List.append_assoc, List.take_append_of_le_length hlen] at this
          · conv => lhs; rw [← List.take_append_drop (encodeChar c).length a, ← this]
          · rfl
        rw [encode_cons, ha2, List.append_assoc, List.append_assoc] at h
        have h' := List.append_cancel_left h
        obtain ⟨c1, c2, rfl, e1, e2⟩ := ih (by simpa using h')
        exact ⟨c :: c1, c2, rfl, by rw [ha2, e1]; rfl, e2⟩

theorem occursAt_encode {cs ps : List Char} (hps : ps ≠ []) {i : Nat} :
    OccursAt (encode cs) (encode ps) i ↔ ∃ k, OccursAt cs ps k ∧ i = (encode (cs.take k)).length := by
  constructor
  · rintro ⟨a, b, e, rfl⟩
    obtain ⟨c1, c2, rfl, rfl, rfl⟩ := encode_mid hps e
    exact ⟨c1.length, ⟨c1, c2, rfl, rfl⟩, by simp⟩
  · rintro ⟨k, ⟨a, b, rfl, rfl⟩, rfl⟩
    exact ⟨encode a, encode b, by simp [encode_append], by simp⟩

theorem encode_take_mono {cs : List Char} {k j : Nat} (h : k < j) (hj : j ≤ cs.length) :
    (encode (cs.take k)).length < (encode (cs.take j)).length := by
  have e : cs.take j = cs.take k ++ (cs.take j).drop k := by
    conv => lhs; rw [← List.take_append_drop k (cs.take j)]
    rw [List.take_take, Nat.min_eq_left (by omega)]
  rw [e, encode_append, List.length_append]
  have := length_le_encode ((cs.take j).drop k)
  simp at this
  omega

theorem memmem_encode_up (cs ps : List Char) (hps : ps ≠ []) :
    (∃ k, memmem (encode cs) (encode ps) false = .ok (some (encode (cs.take k)).length) ∧
        OccursAt cs ps k ∧ ∀ j, j < k → ¬ OccursAt cs ps j) ∨
      (memmem (encode cs) (encode ps) false = .ok none ∧ ¬ Occurs cs ps) := by
  rcases memmem_up (encode cs) (encode ps) (by simpa [encode_eq_nil] using hps) with ⟨i, e, h1, h2⟩ | ⟨e, h2⟩
  · left
    obtain ⟨k, hk, rfl⟩ := (occursAt_encode hps).mp h1
    refine ⟨k, e, hk, fun j hj hoc => ?_⟩
    exact h2 _ (encode_take_mono hj (by have := occursAt_le hk; omega)) ((occursAt_encode hps).mpr ⟨j, hoc, rfl⟩)
  · right
    refine ⟨e, fun hoc => ?_⟩
    obtain ⟨k, hk⟩ := occurs_iff.mp hoc
    exact h2 _ ((occursAt_encode hps).mpr ⟨k, hk, rfl⟩)

theorem memmem_encode_down (cs ps : List Char) (hps : ps ≠ []) :
    (∃ k, memmem (encode cs) (encode ps) true = .ok (some (encode (cs.take k)).length) ∧
        OccursAt cs ps k ∧ ∀ j, k < j → ¬ OccursAt cs ps j) ∨
      (memmem (encode cs) (encode ps) true = .ok none ∧ ¬ Occurs cs ps) := by
  rcases memmem_down (encode cs) (encode ps) (by simpa [encode_eq_nil] using hps) with ⟨i, e, h1, h2⟩ | ⟨e, h2⟩
  · left
    obtain ⟨k, hk, rfl⟩ := (occursAt_encode hps).mp h1
    refine ⟨k, e, hk, fun j hj hoc => ?_⟩
    exact h2 _ (encode_take_mono hj (by have := occursAt_le hoc; omega)) ((occursAt_encode hps).mpr ⟨j, hoc, rfl⟩)
  · right
    refine ⟨e, fun hoc => ?_⟩
    obtain ⟨k, hk⟩ := occurs_iff.mp hoc
    exact h2 _ ((occursAt_encode hps).mpr ⟨k, hk, rfl⟩)

theorem getutf8len_take (cs : List Char) (k : Nat) (hk : k ≤ cs.length)
    (hm : (encode cs).length < 18446744073709551616) :
    getutf8len (encode cs) (encode (cs.take k)).length = .ok k := by
  have e : encode cs = encode (cs.take k) ++ encode (cs.drop k) := by
    rw [← encode_append, List.take_append_drop]
  have hl := congrArg List.length e
  rw [List.length_append] at hl
  have := getutf8len_encode (cs.take k) (encode (cs.drop k)) (by omega)
  rwa [← e, List.length_take, Nat.min_eq_left hk] at this

theorem indexOf_encode (cs ps : List Char) (hps : ps ≠ []) (hm : (encode cs).length < 18446744073709551616) :
    (∃ k, indexOf (encode cs) (encode ps) = .ok (some (k + 1)) ∧
        OccursAt cs ps k ∧ ∀ j, j < k → ¬ OccursAt cs ps j) ∨
      (indexOf (encode cs) (encode ps) = .ok none ∧ ¬ Occurs cs ps) := by
  rcases memmem_encode_up cs ps hps with ⟨k, e, h1, h2⟩ | ⟨e, h2⟩
  · left
    refine ⟨k, ?_, h1, h2⟩
    simp [indexOf, e, getutf8len_take cs k (by have := occursAt_le h1; omega) hm]
  · right; exact ⟨by simp [indexOf, e], h2⟩

theorem lastIndexOf_encode (cs ps : List Char) (hps : ps ≠ [])
    (hm : (encode cs).length < 18446744073709551616) :
    (∃ k, lastIndexOf (encode cs) (encode ps) = .ok (some (toFloat32 (toFloat32 k + 1))) ∧
        OccursAt cs ps k ∧ ∀ j, k < j → ¬ OccursAt cs ps j) ∨
      (lastIndexOf (encode cs) (encode ps) = .ok none ∧ ¬ Occurs cs ps) := by
  rcases memmem_encode_down cs ps hps with ⟨k, e, h1, h2⟩ | ⟨e, h2⟩
  · left
    refine ⟨k, ?_, h1, h2⟩
    simp [lastIndexOf, e, getutf8len_take cs k (by have := occursAt_le h1; omega) hm]
  · right; exact ⟨by simp [lastIndexOf, e], h2⟩

theorem contains_eq (s p : Text) (hp : p ≠ []) :
    ∃ b, contains s p = .ok b ∧ (b = true ↔ Occurs s p) := by
  rcases memmem_up s p hp with ⟨i, e, h1, -⟩ | ⟨e, h2⟩
  · have hle := occursAt_le h1
    refine ⟨true, ?_, by simp; exact occurs_iff.mpr ⟨i, h1⟩⟩
    simp only [contains, indexOf, e, Out.ok_bind, getutf8len]
    rw [if_pos (by omega)]
    simp
  · refine ⟨false, by simp [contains, indexOf, e], ?_⟩
    simp only [Bool.false_eq_true, false_iff]
    intro h
    obtain ⟨k, hk⟩ := occurs_iff.mp h
    exact h2 k hk

/-! ### Replacing -/

theorem isPrefixOf_iff_occurs [BEq α] [LawfulBEq α] {p t : List α} :
    p.isPrefixOf t = true ↔ OccursAt t p 0 := by
  rw [List.isPrefixOf_iff_prefix]
  constructor
  · rintro ⟨b, rfl⟩; exact ⟨[], b, rfl, rfl⟩
  · rintro ⟨a, b, rfl, ha⟩
    rw [List.length_eq_zero_iff.mp ha]; exact ⟨b, by simp⟩

theorem occursAt_succ {t p : List α} {x : α} {i : Nat} : OccursAt (x :: t) p (i + 1) ↔ OccursAt t p i := by
  rw [occursAt_iff, occursAt_iff]; simp; omega

theorem replaceFrom_none [BEq α] [LawfulBEq α] (p r t : List α) (h : ∀ j, ¬ OccursAt t p j) :
    Spec.replaceFrom p r 0 t = t := by
  induction t with
  | nil => rfl
  | cons x t ih =>
    have h0 : p.isPrefixOf (x :: t) ≠ true := fun hh => h 0 (isPrefixOf_iff_occurs.mp hh)
    simp only [Spec.replaceFrom]
    rw [if_neg h0, ih (fun j hj => h (j + 1) (occursAt_succ.mpr hj))]

theorem replaceFrom_skip [BEq α] (p r t : List α) (k : Nat) :
    Spec.replaceFrom p r k t = Spec.replaceFrom p r 0 (t.drop k) := by
  induction k generalizing t with
  | zero => rfl
  | succ k ih =>
    cases t with
    | nil => simp [Spec.replaceFrom]
    | cons x t => simp only [Spec.replaceFrom, List.drop_succ_cons]; exact ih t

theorem replaceFrom_some [BEq α] [LawfulBEq α] (p r t : List α) (hp : p ≠ []) (i : Nat) (h : OccursAt t p i)
    (hf : ∀ j, j < i → ¬ OccursAt t p j) :
    Spec.replaceFrom p r 0 t = t.take i ++ r ++ Spec.replaceFrom p r 0 (t.drop (i + p.length)) := by
  induction i generalizing t with
  | zero =>
    cases t with
    | nil =>
      have h5 := occursAt_le h
      have h6 := List.length_pos_iff.mpr hp
      simp only [List.length_nil] at h5; omega
    | cons x t =>
      simp only [Spec.replaceFrom]
      rw [if_pos (isPrefixOf_iff_occurs.mpr h), replaceFrom_skip]
      have := List.length_pos_iff.mpr hp
      simp only [List.take_zero, List.nil_append, Nat.zero_add]
      rw [show p.length = p.length - 1 + 1 by omega, List.drop_succ_cons]; simp
  | succ i ih =>
    cases t with
    | nil => have := occursAt_le h; simp at this
    | cons x t =>
      have h0 : p.isPrefixOf (x :: t) ≠ true := fun hh => hf 0 (by omega) (isPrefixOf_iff_occurs.mp hh)
      simp only [Spec.replaceFrom]
      rw [if_neg h0, ih t (occursAt_succ.mp h) (fun j hj hh => hf (j + 1) (by omega) (occursAt_succ.mpr hh))]
      rw [show i + 1 + p.length = i + p.length + 1 by omega]
      simp

theorem replaceLoop_eq (p r : Text) (hp : p ≠ []) (fuel : Nat) (src dest : Text) (cap dlen : Int)
    (hf : src.length < fuel) (hd : dlen = dest.length + src.length) (hc : dlen ≤ cap) :
    replaceLoop p r fuel src dest cap dlen = .ok (dest ++ Spec.replaceFrom p r 0 src) := by
  induction fuel generalizing src dest cap dlen with
  | zero => omega
  | succ fuel ih =>
    have hp' := List.length_pos_iff.mpr hp
    rcases memmem_up src p hp with ⟨i, e, h1, h2⟩ | ⟨e, h2⟩
    · have hle := occursAt_le h1
      simp only [replaceLoop, e, Out.ok_bind]
      rw [replaceFrom_some p r src hp i h1 h2]
      generalize hcap : (if dlen - p.length + r.length > dlen then dlen - p.length + r.length else cap) = cap'
      have hcap' : dlen - p.length + r.length ≤ cap' := by subst hcap; split <;> omega
      rw [if_pos (by omega)]
      rw [ih _ _ _ _ (by simp; omega) (by simp; omega) hcap']
      simp
    · simp only [replaceLoop, e, Out.ok_bind]
      rw [if_pos (by omega), if_pos (by simp; omega), replaceFrom_none p r src h2]
      rw [show dlen.toNat = (dest ++ src).length by simp; omega, List.take_length]

theorem replace_eq (s p r : Text) : replace s p r = .ok (Spec.replaceAll s p r) := by
  unfold replace Spec.replaceAll
  by_cases hp : p = []
  · subst hp; simp
  · rw [if_neg hp]
    by_cases hs : s.length = 0
    · rw [if_pos (by simp [hs]), List.length_eq_zero_iff.mp hs]; rfl
    · rw [if_neg (by simpa [hs] using hp)]
      have := replaceLoop_eq p r hp (s.length + 1) s [] s.length s.length (by omega) (by simp) (by omega)
      simpa using this

theorem replaceFrom_encode (ps rs : List Char) (hps : ps ≠ []) (n : Nat) (cs : List Char) (hn : cs.length ≤ n) :
    Spec.replaceFrom (encode ps) (encode rs) 0 (encode cs) = encode (Spec.replaceFrom ps rs 0 cs) := by
  induction n generalizing cs with
  | zero =>
    have : cs = [] := List.length_eq_zero_iff.mp (by omega)
    subst this; rfl
  | succ n ih =>
    have hps' := List.length_pos_iff.mpr hps
    rcases memmem_encode_up cs ps hps with ⟨k, e, h1, h2⟩ | ⟨e, h2⟩
    · have hle := occursAt_le h1
      rw [replaceFrom_some ps rs cs hps k h1 h2]
      have hb := (occursAt_encode hps).mpr ⟨k, h1, rfl⟩
      rw [replaceFrom_some (encode ps) (encode rs) (encode cs) (by simpa [encode_eq_nil] using hps) _ hb ?_]
      · have hdrop : (encode cs).drop ((encode (cs.take k)).length + (encode ps).length) =
            encode (cs.drop (k + ps.length)) := by
          obtain ⟨a, b, rfl, rfl⟩ := h1
          rw [show List.take a.length (a ++ ps ++ b) = a by simp]
          rw [show List.drop (a.length + ps.length) (a ++ ps ++ b) = b by
            rw [← List.length_append]; simp]
          rw [encode_append, encode_append, ← List.length_append]; simp
        have htake : (encode cs).take (encode (cs.take k)).length = encode (cs.take k) := by
          conv => lhs; arg 2; rw [← List.take_append_drop k cs, encode_append]
          simp
        rw [hdrop, htake, ih _ (by simp; omega), encode_append, encode_append]
      · intro j hj hoc
        obtain ⟨k', hk', rfl⟩ := (occursAt_encode hps).mp hoc
        rcases Nat.lt_or_ge k' k with h3 | h3
        · exact h2 k' h3 hk'
        · rcases Nat.lt_or_eq_of_le h3 with h4 | h4
          · have := encode_take_mono h4 (by have := occursAt_le hk'; omega : k' ≤ cs.length)
            omega
          · subst h4; omega
    · rw [replaceFrom_none ps rs cs (fun j hj => h2 (occurs_iff.mpr ⟨j, hj⟩)), replaceFrom_none]
      intro j hj
      obtain ⟨k', hk', -⟩ := (occursAt_encode hps).mp hj
      exact h2 (occurs_iff.mpr ⟨k', hk'⟩)

/-! ### Splitting -/

theorem intercalate_cons {d x : List α} {l : List (List α)} (hl : l ≠ []) :
    Spec.intercalate d (x :: l) = x ++ d ++ Spec.intercalate d l := by
  cases l with
  | nil => exact absurd rfl hl
  | cons y l => rfl

theorem splitLoop_join (len : Nat) (d : Text) (rest buf : Text) (k : Nat) {arr : Seq (Option Text)}
    {l : List (Option Text)} (hr : arr.Rep [] l) (hlen : buf.length + rest.length ≤ len)
    (hk : d = [] ∨ k < d.length) (hb : ∃ b0, buf = b0 ++ d.take k) :
    ∃ arr' parts, splitLoop len d rest buf k arr = .ok arr' ∧ arr'.Rep [] (l ++ parts.map some) ∧
      parts ≠ [] ∧ Spec.intercalate d parts = buf ++ rest := by
  induction rest generalizing buf k arr l with
  | nil =>
    obtain ⟨a1, e1, r1⟩ := Seq.push_rep hr (some buf)
    exact ⟨a1, [buf], e1, r1, by simp, by simp [Spec.intercalate]⟩
  | cons c rest ih =>
    simp only [List.length_cons] at hlen
    simp only [splitLoop]
    rw [if_pos (by omega)]
    by_cases hm : d.length > 0 ∧ some c = d[k]?
    · rw [if_pos hm]
      obtain ⟨hd, hc⟩ := hm
      have hkd : k < d.length := by
        rcases hk with rfl | h
        · simp at hd
        · exact h
      have htk : d.take (k + 1) = d.take k ++ [c] := by
        rw [List.take_add_one, ← hc]; rfl
      obtain ⟨b0, rfl⟩ := hb
      by_cases hend : k + 1 ≥ d.length
      · rw [if_pos hend]
        have hd2 : d.take k ++ [c] = d := by rw [← htk, List.take_of_length_le hend]
        have hpart : (b0 ++ d.take k ++ [c]).take ((b0 ++ d.take k).length + 1 - d.length) = b0 := by
          rw [List.append_assoc, hd2, List.length_append, List.length_take]
          rw [show b0.length + min k d.length + 1 - d.length = b0.length by omega]; simp
        rw [hpart]
        obtain ⟨a1, e1, r1⟩ := Seq.push_rep hr (some b0)
        obtain ⟨a2, parts, e2, r2, hne, hi⟩ := ih [] 0 r1 (by simp; omega) (Or.inr (by omega)) ⟨[], by simp⟩
        refine ⟨a2, b0 :: parts, by simp [e1, e2], by simpa using r2, by simp, ?_⟩
        rw [intercalate_cons hne, hi]
        conv => lhs; lhs; rhs; rw [← hd2]
        simp
      · rw [if_neg hend]
        obtain ⟨a2, parts, e2, r2, hne, hi⟩ := ih (b0 ++ d.take k ++ [c]) (k + 1) hr
          (by simp at hlen ⊢; omega) (Or.inr (by omega)) ⟨b0, by simp [htk]⟩
        exact ⟨a2, parts, e2, r2, hne, by rw [hi]; simp⟩
    · rw [if_neg hm]
      obtain ⟨a2, parts, e2, r2, hne, hi⟩ := ih (buf ++ [c]) 0 hr (by simp; omega)
        (hk.imp id (by omega)) ⟨buf ++ [c], by simp⟩
      exact ⟨a2, parts, e2, r2, hne, by rw [hi]; simp⟩

theorem split_join (s d : Text) : ∃ arr parts, split s d = .ok arr ∧ arr.Rep [] (parts.map some) ∧
    parts ≠ [] ∧ Spec.intercalate d parts = s := by
  have := splitLoop_join s.length d s [] 0 Seq.rep_new (by simp)
    ((Classical.em (d = [])).imp id List.length_pos_iff.mpr) ⟨[], by simp⟩
  simpa [split] using this

/-- An occurrence in `x ++ [c]` lies in `x` or ends with `c`. -/
theorem occurs_snoc {x p : List α} {c : α} (h : Occurs (x ++ [c]) p) :
    Occurs x p ∨ ∃ a, x ++ [c] = a ++ p := by
  obtain ⟨a, b, e⟩ := h
  rcases List.eq_nil_or_concat b with rfl | ⟨b', y, rfl⟩
  · right; exact ⟨a, by simpa using e⟩
  · left
    rw [List.concat_eq_append, ← List.append_assoc] at e
    exact ⟨a, b', (List.append_inj' e rfl).1⟩

theorem splitLoop_runs (len : Nat) (b : UInt8) (n : Nat) (hn : 0 < n) (rest buf : Text) (k : Nat)
    {arr : Seq (Option Text)} {l : List (Option Text)} (hr : arr.Rep [] l)
    (hlen : buf.length + rest.length ≤ len) (hk : k < n)
    (hb : ∃ b0, buf = b0 ++ List.replicate k b ∧ (b0.getLast? ≠ some b))
    (hno : ¬ Occurs buf (List.replicate n b)) :
    ∃ (arr' : Seq (Option Text)) (parts : List Text), splitLoop len (List.replicate n b) rest buf k arr = .ok arr' ∧
      arr'.Rep [] (l ++ parts.map some) ∧ ∀ p ∈ parts, ¬ Occurs p (List.replicate n b) := by
  induction rest generalizing buf k arr l with
  | nil =>
    obtain ⟨a1, e1, r1⟩ := Seq.push_rep hr (some buf)
    exact ⟨a1, [buf], e1, r1, by simpa using hno⟩
  | cons c rest ih =>
    simp only [List.length_cons] at hlen
    simp only [splitLoop, List.length_replicate]
    rw [if_pos (by omega)]
    have hget : (List.replicate n b)[k]? = some b := by simp [hk]
    rw [hget]
    by_cases hm : n > 0 ∧ some c = some b
    · rw [if_pos hm]
      obtain ⟨-, hc⟩ := hm
      simp only [Option.some.injEq] at hc; subst hc
      obtain ⟨b0, rfl, hl0⟩ := hb
      by_cases hend : k + 1 ≥ n
      · rw [if_pos hend]
        have hpart : (b0 ++ List.replicate k c ++ [c]).take ((b0 ++ List.replicate k c).length + 1 - n) = b0 := by
          rw [List.append_assoc, List.length_append, List.length_replicate]
          rw [show b0.length + k + 1 - n = b0.length by omega]; simp
        rw [hpart]
        obtain ⟨a1, e1, r1⟩ := Seq.push_rep hr (some b0)
        have hnil : ¬ Occurs ([] : Text) (List.replicate n c) := by
          rintro ⟨x, y, e⟩
          have := congrArg List.length e
          simp at this; omega
        obtain ⟨a2, parts, e2, r2, h3⟩ := ih [] 0 r1 (by simp; omega) hn ⟨[], by simp, by simp⟩ hnil
        refine ⟨a2, b0 :: parts, by simp [e1, e2], by simpa using r2, ?_⟩
        intro p hp
        rcases List.mem_cons.mp hp with rfl | hp
        · rintro ⟨x, y, e⟩
          exact hno ⟨x, y ++ List.replicate k c, by rw [e]; simp⟩
        · exact h3 p hp
      · rw [if_neg hend]
        have hno' : ¬ Occurs (b0 ++ List.replicate k c ++ [c]) (List.replicate n c) := by
          intro h
          rcases occurs_snoc h with h | ⟨a, e⟩
          · exact hno h
          · have hrep : List.replicate k c ++ [c] = List.replicate (k + 1) c := by
              rw [List.replicate_succ']
            have hrn : List.replicate n c = List.replicate (n - (k + 1) - 1) c ++ [c] ++ List.replicate (k + 1) c := by
              rw [← List.replicate_succ', List.replicate_append_replicate]
              congr 1; omega
            rw [List.append_assoc, hrep, hrn, ← List.append_assoc] at e
            have e2 := (List.append_inj' e rfl).1
            apply hl0
            rw [e2]; simp [← List.append_assoc]
        obtain ⟨a2, parts, e2, r2, h3⟩ := ih (b0 ++ List.replicate k c ++ [c]) (k + 1) hr
          (by simp at hlen ⊢; omega) (by omega) ⟨b0, by rw [List.replicate_succ']; simp, hl0⟩ hno'
        exact ⟨a2, parts, e2, r2, h3⟩
    · rw [if_neg hm]
      have hcb : c ≠ b := fun h => hm ⟨hn, by rw [h]⟩
      have hno' : ¬ Occurs (buf ++ [c]) (List.replicate n b) := by
        intro h
        rcases occurs_snoc h with h | ⟨a, e⟩
        · exact hno h
        · rw [show n = n - 1 + 1 by omega, List.replicate_succ', ← List.append_assoc] at e
          have e2 := (List.append_inj' e rfl).2
          simp at e2; exact hcb e2
      obtain ⟨a2, parts, e2, r2, h3⟩ := ih (buf ++ [c]) 0 hr (by simp; omega) hn
        ⟨buf ++ [c], by simp, by simp [hcb]⟩ hno'
      exact ⟨a2, parts, e2, r2, h3⟩

theorem splitLoop_noCut (len : Nat) (d : Text) (rest buf : Text) (k : Nat) (arr : Seq (Option Text))
    (hlen : buf.length + rest.length ≤ len) (hk : k + rest.length < d.length) :
    splitLoop len d rest buf k arr = arr.push (some (buf ++ rest)) := by
  induction rest generalizing buf k with
  | nil => simp [splitLoop]
  | cons c rest ih =>
    simp only [List.length_cons] at hlen hk
    simp only [splitLoop]
    rw [if_pos (by omega)]
    split
    · rw [if_neg (by omega), ih _ _ (by simp; omega) (by omega)]; simp
    · rw [ih _ _ (by simp; omega) (by omega)]; simp

theorem splitLoop_match (len : Nat) (d : Text) (b : UInt8) (j : Nat) (rest buf : Text) (k : Nat)
    (arr : Seq (Option Text)) (hlen : buf.length + j + rest.length ≤ len)
    (hk : k + j < d.length) (hd : ∀ i, k ≤ i → i < k + j → d[i]? = some b) :
    splitLoop len d (List.replicate j b ++ rest) buf k arr =
      splitLoop len d rest (buf ++ List.replicate j b) (k + j) arr := by
  induction j generalizing buf k with
  | zero => simp
  | succ j ih =>
    rw [List.replicate_succ, List.cons_append]
    conv => lhs; rw [splitLoop]
    rw [if_pos (by omega), if_pos ⟨by omega, (hd k (by omega) (by omega)).symm⟩, if_neg (by omega)]
    rw [ih _ _ (by simp; omega) (by omega) (fun i h1 h2 => hd i (by omega) (by omega))]
    simp; congr 1; omega

/-- The delimiter is missed when it follows its own first byte. -/
theorem split_misses (b c : UInt8) (m : Nat) (tl : Text) (hm : 0 < m) (hc : c ≠ b) :
    ∃ arr, split (b :: (List.replicate m b ++ c :: tl)) (List.replicate m b ++ c :: tl) = .ok arr ∧
      arr.Rep [] [some (b :: (List.replicate m b ++ c :: tl))] := by
  generalize hd : List.replicate m b ++ c :: tl = d
  have hdl : d.length = m + tl.length + 1 := by rw [← hd]; simp; omega
  have hs : b :: d = List.replicate m b ++ (b :: c :: tl) := by
    rw [← hd]
    rw [show b :: (List.replicate m b ++ c :: tl) = List.replicate (m + 1) b ++ c :: tl by
      simp [List.replicate_succ], List.replicate_succ']
    simp
  obtain ⟨a1, e1, r1⟩ := Seq.push_rep (Seq.rep_new : (Seq.new : Seq (Option Text)).Rep [] []) (some (b :: d))
  refine ⟨a1, ?_, by simpa using r1⟩
  have hdi : ∀ i, 0 ≤ i → i < 0 + m → d[i]? = some b := by
    intro i _ hi
    rw [← hd, List.getElem?_append_left (by rw [List.length_replicate]; omega)]
    rw [List.getElem?_replicate, if_pos (by omega)]
  unfold split
  conv => lhs; arg 3; rw [hs]
  rw [splitLoop_match _ d b m _ [] 0 _ (by simp; omega) (by omega) hdi]
  rw [splitLoop, if_pos (by simp; omega), if_neg, splitLoop_noCut]
  · rw [← e1, hs]; simp
  · simp; omega
  · simp only [List.length_cons]; omega
  · rintro ⟨-, h⟩
    rw [← hd, List.getElem?_append_right (by simp)] at h
    simp at h; exact hc h.symm

end Verif.Model.Txt
