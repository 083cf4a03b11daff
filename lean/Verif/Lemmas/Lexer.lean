import Verif.Model.Lexer
import Verif.Spec.Lexer

/-!
# Lemmas about the lexer
-/

namespace Verif.Model.Lexer
open Verif.Spec (Dict)
open Verif.Spec.Lexer

theorem isSpace_eq (c : UInt8) : isSpace c = blank c := by
  unfold isSpace blank
  rw [Bool.eq_iff_iff]
  simp [or_assoc]

/-! ## Blanks and comments -/

theorem skip_gap (m : Bool) (code : Text) :
    ∃ pre : Text, code = pre ++ skip m code ∧
      (m = false → Gap pre (skip m code)) ∧
      (m = true → Gap (35 :: pre) (skip m code)) := by
  induction code generalizing m with
  | nil =>
    refine ⟨[], by cases m <;> rfl, fun _ => ?_, fun _ => ?_⟩
    · exact Gap.none _
    · have : skip m [] = [] := by cases m <;> rfl
      rw [this]
      exact Gap.last (fun c hc => by cases hc)
  | cons c r ih =>
    cases m with
    | true =>
      unfold skip
      by_cases h : c == 10
      · rw [if_pos h]
        obtain ⟨pre, h1, h2, _⟩ := ih false
        refine ⟨c :: pre, by rw [List.cons_append, ← h1], (by intro h; cases h), fun _ => ?_⟩
        have hc : c = 10 := by simpa using h
        subst hc
        exact Gap.comment (b := []) (fun c hc => by cases hc) (h2 rfl)
      · rw [if_neg h]
        obtain ⟨pre, h1, _, h3⟩ := ih true
        refine ⟨c :: pre, by rw [List.cons_append, ← h1], (by intro h; cases h), fun _ => ?_⟩
        have h3 := h3 rfl
        have hc : c ≠ 10 := by simpa using h
        generalize hx : skip true r = x at h3 ⊢
        generalize hy : (35 :: pre : Text) = y at h3
        cases h3 with
        | none => cases hy
        | blank hb _ => cases hy; exact absurd hb (by decide)
        | @comment b p _ hb hg =>
          simp only [List.cons_append, List.cons.injEq, true_and] at hy
          subst hy
          exact Gap.comment (b := c :: b) (fun z hz => by
            rcases List.mem_cons.1 hz with h | h
            · exact h ▸ hc
            · exact hb z h) hg
        | @last b hb =>
          simp only [List.cons.injEq, true_and] at hy
          subst hy
          exact Gap.last (fun z hz => by
            rcases List.mem_cons.1 hz with h | h
            · exact h ▸ hc
            · exact hb z h)
    | false =>
      unfold skip
      by_cases h : isSpace c
      · rw [if_pos h]
        obtain ⟨pre, h1, h2, _⟩ := ih false
        refine ⟨c :: pre, by rw [List.cons_append, ← h1], fun _ => ?_, by intro h; cases h⟩
        exact Gap.blank (by rw [← isSpace_eq]; exact h) (h2 rfl)
      · rw [if_neg h]
        by_cases h' : c == 35
        · rw [if_pos h']
          obtain ⟨pre, h1, _, h3⟩ := ih true
          have hc : c = 35 := by simpa using h'
          subst hc
          exact ⟨35 :: pre, by rw [List.cons_append, ← h1], fun _ => h3 rfl, by intro h; cases h⟩
        · rw [if_neg h']
          exact ⟨[], rfl, fun _ => Gap.none _, by intro h; cases h⟩

theorem skip_suffix (m : Bool) (code : Text) : skip m code <:+ code := by
  obtain ⟨pre, h, _⟩ := skip_gap m code
  exact ⟨pre, h.symm⟩

theorem skip_head {code : Text} {c : UInt8} {r : Text} (h : skip m code = c :: r) : isSpace c = false ∧ c ≠ 35 := by
  induction code generalizing m with
  | nil => cases m <;> cases h
  | cons a b ih =>
    cases m with
    | true =>
      unfold skip at h
      by_cases h1 : a == 10
      · rw [if_pos h1] at h; exact ih h
      · rw [if_neg h1] at h; exact ih h
    | false =>
      unfold skip at h
      by_cases h1 : isSpace a
      · rw [if_pos h1] at h; exact ih h
      · rw [if_neg h1] at h
        by_cases h2 : a == 35
        · rw [if_pos h2] at h; exact ih h
        · rw [if_neg h2] at h
          cases h
          exact ⟨by simpa using h1, by simpa using h2⟩

/-! ## Progress -/

theorem put_ok {acc : Text} {c : UInt8} {a : Text} (h : put acc c = .ok a) : a = acc ++ [c] ∧ acc.length < 255 := by
  unfold put bflmt at h
  by_cases h1 : acc.length < 255
  · rw [if_pos h1] at h; cases h; exact ⟨rfl, h1⟩
  · rw [if_neg h1] at h; cases h

theorem put_eq {acc : Text} (c : UInt8) (h : acc.length < 255) : put acc c = .ok (acc ++ [c]) := by
  unfold put bflmt; rw [if_pos h]

theorem intPart_suffix (d : Dict) {k : Nat} {acc code v rest : Text} (h : intPart d k acc code = .ok (v, rest)) :
    rest <:+ code ∧ (k = 0 → digitAt code = true → rest.length < code.length) := by
  induction code generalizing k acc with
  | nil => unfold intPart at h; cases h; exact ⟨List.suffix_refl _, fun _ h => by cases h⟩
  | cons c r ih =>
    cases k with
    | succ k =>
      unfold intPart at h
      exact ⟨List.IsSuffix.trans (ih h).1 (List.suffix_cons _ _), fun h => by omega⟩
    | zero =>
      unfold intPart at h
      by_cases hc : isDigit c
      · rw [if_pos hc] at h
        obtain ⟨a, _, h2⟩ := Out.bind_eq_ok.1 h
        have := (ih h2).1
        exact ⟨List.IsSuffix.trans this (List.suffix_cons _ _), fun _ _ => by
          have := this.length_le; rw [List.length_cons]; omega⟩
      · rw [if_neg hc] at h
        cases h
        exact ⟨List.suffix_refl _, fun _ h => by exact absurd h hc⟩

theorem fracPart_suffix {acc code v rest : Text} (h : fracPart acc code = .ok (v, rest)) : rest <:+ code := by
  induction code generalizing acc with
  | nil => unfold fracPart at h; cases h; exact List.suffix_refl _
  | cons c r ih =>
    unfold fracPart at h
    by_cases hc : isDigit c
    · rw [if_pos hc] at h
      obtain ⟨a, _, h2⟩ := Out.bind_eq_ok.1 h
      exact List.IsSuffix.trans (ih h2) (List.suffix_cons _ _)
    · rw [if_neg hc] at h; cases h; exact List.suffix_refl _

theorem afterInt_suffix (d : Dict) {acc code v rest : Text} (h : afterInt d acc code = .ok (v, rest)) :
    rest <:+ code := by
  unfold afterInt at h
  split at h
  · cases h; exact List.suffix_refl _
  · split at h
    · obtain ⟨a, _, h2⟩ := Out.bind_eq_ok.1 h
      exact List.IsSuffix.trans (fracPart_suffix h2) (List.drop_suffix _ _)
    · exact fracPart_suffix h

theorem number_suffix (d : Dict) {c : UInt8} {r v rest : Text} (h : number d (c :: r) = .ok (v, rest))
    (hc : (c == 45 && digitAt r) || isDigit c) : rest <:+ c :: r ∧ rest.length < (c :: r).length := by
  by_cases h45 : c = 45
  · subst h45
    unfold number at h
    obtain ⟨a, _, h⟩ := Out.bind_eq_ok.1 h
    obtain ⟨⟨b, e⟩, h2, h⟩ := Out.bind_eq_ok.1 h
    have h1 := (intPart_suffix d h2).1
    have h3 := afterInt_suffix d h
    have h4 := List.IsSuffix.trans h3 h1
    refine ⟨List.IsSuffix.trans h4 (List.suffix_cons _ _), ?_⟩
    have := h4.length_le
    rw [List.length_cons]; omega
  · have hd : digitAt (c :: r) = true := by
      have : (c == 45) = false := by simpa using h45
      rw [this, Bool.false_and, Bool.false_or] at hc
      exact hc
    have h' : ((intPart d 0 [] (c :: r)) >>= fun p => afterInt d p.1 p.2) = .ok (v, rest) := by
      unfold number at h
      split at h
      · rename_i h0; cases h0; exact absurd rfl h45
      · exact h
    obtain ⟨⟨b, e⟩, h2, h⟩ := Out.bind_eq_ok.1 h'
    have h1 := intPart_suffix d h2
    have h3 := afterInt_suffix d h
    refine ⟨List.IsSuffix.trans h3 h1.1, ?_⟩
    have := h1.2 rfl hd
    have h4 : rest.length ≤ e.length := h3.length_le
    omega

theorem refLoop_suffix (d : Dict) {acc code v rest : Text} (h : refLoop d acc code = .ok (v, rest)) :
    rest <:+ code ∧ (isDelim d code = false → code ≠ [] → rest.length < code.length) := by
  induction code generalizing acc with
  | nil => unfold refLoop at h; cases h; exact ⟨List.suffix_refl _, fun _ h => absurd rfl h⟩
  | cons c r ih =>
    unfold refLoop at h
    by_cases hd : isDelim d (c :: r) = true
    · rw [if_pos hd] at h
      cases h
      exact ⟨List.suffix_refl _, fun h => by rw [h] at hd; cases hd⟩
    · rw [if_neg hd] at h
      obtain ⟨st, _, h2⟩ := Out.bind_eq_ok.1 h
      dsimp only at h2
      generalize (if c == 35 && decide (acc.length > 0) then st.take 1 else st) = acc' at h2
      by_cases hl : acc'.length > bflmt
      · rw [if_pos hl] at h2; cases h2
      · rw [if_neg hl] at h2
        have := (ih h2).1
        exact ⟨List.IsSuffix.trans this (List.suffix_cons _ _), fun _ _ => by
          have := this.length_le; rw [List.length_cons]; omega⟩

/-- A value bound from an `Out` pair. -/
theorem bind_pair_ok {x : Out (Text × Text)} {t t' : Tok} {v rest : Text}
    (h : (x >>= fun p => Out.ok (t, p.1, p.2)) = .ok (t', v, rest)) : x = .ok (v, rest) ∧ t' = t := by
  obtain ⟨⟨a, b⟩, h1, h2⟩ := Out.bind_eq_ok.1 h
  cases h2
  exact ⟨h1, rfl⟩

/-- At a place where the earlier tests of `ctr_clex_tok` failed there is no delimiter. -/
theorem isDelim_false {d : Dict} (hd : 2 ≤ d.assign.length) {c : UInt8} {r : Text} (hs : isSpace c = false)
    (h40 : ¬ (c == 40) = true) (h41 : ¬ (c == 41) = true)
    (heol : ¬ d.eol.isPrefixOf (c :: r) = true) (hch : ¬ d.chain.isPrefixOf (c :: r) = true)
    (has : ¬ d.assign.isPrefixOf (c :: r) = true) (hce : ¬ ([58, 61] : Text).isPrefixOf (c :: r) = true)
    (hp : ¬ (c == d.param) = true) (hq : ¬ d.qo.isPrefixOf (c :: r) = true) : isDelim d (c :: r) = false := by
  have hcol : colonEquals d (c :: r) = false := by
    unfold colonEquals
    by_cases h2 : d.assign.length ≤ 2
    · have : d.assign.length = 2 := by omega
      rw [if_pos h2, this]
      exact Bool.not_eq_true _ ▸ hce
    · rw [if_neg h2]
      rw [Bool.not_eq_true] at hce
      rw [hce]; rfl
  simp only [Bool.not_eq_true] at h40 h41 heol hch has hp hq
  unfold isDelim
  simp only [heol, hq, has, hcol, hch, h40, h41, hp, hs, Bool.or_false]

theorem scan_suffix (d : Dict) (hd : Usable d) {code : Text} {t : Tok} {v rest : Text}
    (hs : ∀ c r, code = c :: r → isSpace c = false)
    (h : scan d code = .ok (t, v, rest)) :
    rest <:+ code ∧ ((t = .fin ∧ code = [] ∧ rest = []) ∨ (t ≠ .fin ∧ rest.length < code.length)) := by
  obtain ⟨e1, e2, e3, e4, e5, _⟩ := hd
  have drop_lt : ∀ {K : Text} {c : UInt8} {r : Text}, K ≠ [] → ((c :: r).drop K.length).length < (c :: r).length := by
    intro K c r hK
    have : 0 < K.length := List.length_pos_iff.2 hK
    rw [List.length_drop]
    simp only [List.length_cons]
    omega
  cases code with
  | nil => unfold scan at h; cases h; exact ⟨List.suffix_refl _, Or.inl ⟨rfl, rfl, rfl⟩⟩
  | cons c r =>
    have hsp := hs c r rfl
    unfold scan at h
    dsimp only at h
    by_cases h40 : c == 40
    · rw [if_pos h40] at h; cases h; exact ⟨List.suffix_cons _ _, Or.inr ⟨by simp, by simp⟩⟩
    rw [if_neg h40] at h
    by_cases h41 : c == 41
    · rw [if_pos h41] at h; cases h; exact ⟨List.suffix_cons _ _, Or.inr ⟨by simp, by simp⟩⟩
    rw [if_neg h41] at h
    by_cases h123 : c == 123
    · rw [if_pos h123] at h; cases h; exact ⟨List.suffix_cons _ _, Or.inr ⟨by simp, by simp⟩⟩
    rw [if_neg h123] at h
    by_cases h125 : c == 125
    · rw [if_pos h125] at h; cases h; exact ⟨List.suffix_cons _ _, Or.inr ⟨by simp, by simp⟩⟩
    rw [if_neg h125] at h
    by_cases heol : d.eol.isPrefixOf (c :: r) = true
    · rw [if_pos heol] at h; cases h; exact ⟨List.drop_suffix _ _, Or.inr ⟨by simp, drop_lt e1⟩⟩
    rw [if_neg heol] at h
    by_cases hch : d.chain.isPrefixOf (c :: r) = true
    · rw [if_pos hch] at h; cases h; exact ⟨List.drop_suffix _ _, Or.inr ⟨by simp, drop_lt e2⟩⟩
    rw [if_neg hch] at h
    by_cases has : d.assign.isPrefixOf (c :: r) = true
    · rw [if_pos has] at h; cases h
      exact ⟨List.drop_suffix _ _, Or.inr ⟨by simp, drop_lt (by intro h; rw [h] at e3; simp at e3)⟩⟩
    rw [if_neg has] at h
    by_cases hce : ([58, 61] : Text).isPrefixOf (c :: r) = true
    · rw [if_pos hce] at h; cases h
      exact ⟨List.drop_suffix _ _, Or.inr ⟨by simp, drop_lt (K := [58, 61]) (by simp)⟩⟩
    rw [if_neg hce] at h
    by_cases hp : c == d.param
    · rw [if_pos hp] at h; cases h; exact ⟨List.suffix_cons _ _, Or.inr ⟨by simp, by simp⟩⟩
    rw [if_neg hp] at h
    by_cases hr : (d.ret.isPrefixOf (c :: r) && ((c :: r).drop d.ret.length).head? == some 32) = true
    · rw [if_pos hr] at h; cases h; exact ⟨List.drop_suffix _ _, Or.inr ⟨by simp, drop_lt e4⟩⟩
    rw [if_neg hr] at h
    by_cases hq : d.qo.isPrefixOf (c :: r) = true
    · rw [if_pos hq] at h; cases h; exact ⟨List.drop_suffix _ _, Or.inr ⟨by simp, drop_lt e5⟩⟩
    rw [if_neg hq] at h
    by_cases hn : ((c == 45 && digitAt r) || isDigit c) = true
    · rw [if_pos hn] at h
      obtain ⟨h1, h2⟩ := bind_pair_ok h
      obtain ⟨h3, h4⟩ := number_suffix d h1 hn
      exact ⟨h3, Or.inr ⟨by rw [h2]; simp, h4⟩⟩
    · rw [if_neg hn] at h
      obtain ⟨h1, h2⟩ := bind_pair_ok h
      obtain ⟨h3, h4⟩ := refLoop_suffix d h1
      exact ⟨h3, Or.inr ⟨by rw [h2]; simp, h4 (isDelim_false e3 hsp h40 h41 heol hch has hce hp hq) (by simp)⟩⟩

theorem tok_code {d : Dict} {s s' : LS} {t : Tok} (h : tok d s = .ok (t, s')) :
    scan d (skip false s.code) = .ok (t, s'.val, s'.code) ∧ s'.old = s.code ∧ s'.older = s.old := by
  unfold tok at h
  obtain ⟨⟨a, b, c⟩, h1, h2⟩ := Out.bind_eq_ok.1 h
  cases h2
  exact ⟨h1, rfl, rfl⟩

theorem tok_suffix {d : Dict} (hd : Usable d) {s s' : LS} {t : Tok} (h : tok d s = .ok (t, s')) :
    s'.code <:+ s.code ∧ ((t = .fin ∧ skip false s.code = [] ∧ s'.code = []) ∨
      (t ≠ .fin ∧ s'.code.length < s.code.length)) := by
  obtain ⟨h1, _, _⟩ := tok_code h
  obtain ⟨h2, h3⟩ := scan_suffix d hd (fun c r h => (skip_head h).1) h1
  have hsk := skip_suffix false s.code
  refine ⟨List.IsSuffix.trans h2 hsk, ?_⟩
  rcases h3 with h3 | h3
  · exact Or.inl h3
  · have := hsk.length_le
    exact Or.inr ⟨h3.1, by omega⟩

/-! ## The token buffer -/

/-- The bytes up to the next blank. -/
def wd (code : Text) : Text := code.takeWhile (fun c => !blank c)

theorem wd_cons {c : UInt8} {r : Text} (h : isSpace c = false) : wd (c :: r) = c :: wd r := by
  unfold wd
  rw [List.takeWhile_cons, ← isSpace_eq, h]
  rfl

theorem isDigit_solid {c : UInt8} (h : isDigit c = true) : isSpace c = false := by
  unfold isDigit at h
  have h := of_decide_eq_true h
  unfold isSpace
  simp only [Bool.or_eq_false_iff, beq_eq_false_iff_ne, ne_eq]
  refine ⟨⟨⟨?_, ?_⟩, ?_⟩, ?_⟩ <;> (rintro rfl; revert h; decide)

theorem isDelim_solid {d : Dict} {c : UInt8} {r : Text} (h : ¬ isDelim d (c :: r) = true) : isSpace c = false := by
  unfold isDelim at h
  simp only [Bool.or_eq_true, not_or, Bool.not_eq_true] at h
  exact h.2.2

theorem refLoop_safe (d : Dict) (acc code : Text) (h : acc.length + (wd code).length ≤ 255) :
    ∃ v rest, refLoop d acc code = .ok (v, rest) := by
  induction code generalizing acc with
  | nil => exact ⟨_, _, rfl⟩
  | cons c r ih =>
    unfold refLoop
    by_cases hd : isDelim d (c :: r) = true
    · rw [if_pos hd]; exact ⟨_, _, rfl⟩
    · rw [if_neg hd]
      rw [wd_cons (isDelim_solid hd), List.length_cons] at h
      rw [put_eq _ (by omega), Out.ok_bind]
      dsimp only
      have hl : (if (c == 35 && decide (acc.length > 0)) = true then (acc ++ [c]).take 1 else acc ++ [c]).length
          ≤ acc.length + 1 := by
        split
        · rw [List.length_take]; omega
        · rw [List.length_append]; simp
      generalize (if (c == 35 && decide (acc.length > 0)) = true then (acc ++ [c]).take 1 else acc ++ [c]) = acc' at hl
      have hle : ¬ acc'.length > bflmt := by unfold bflmt; omega
      rw [if_neg hle]
      exact ih acc' (by omega)

theorem digitAt_solid {code : Text} (h : digitAt code = true) :
    ∃ c r, code = c :: r ∧ isDigit c = true := by
  cases code with
  | nil => cases h
  | cons c r => exact ⟨c, r, rfl, h⟩

theorem not_any_take {tho r : Text} (h1 : tho.any blank = false) (h2 : tho.isPrefixOf r = true) :
    (r.take tho.length).any blank = false := by
  rw [List.isPrefixOf_iff_prefix] at h2
  obtain ⟨z, rfl⟩ := h2
  rw [List.take_left']
  · exact h1
  · rfl

theorem intPart_safe (d : Dict) (hd : SolidSeparators d) (k : Nat) (acc code : Text)
    (hk : (code.take k).any blank = false)
    (h : acc.length + (wd code).length ≤ 255) :
    ∃ v rest, intPart d k acc code = .ok (v, rest) ∧ v.length + (wd rest).length ≤ 255 := by
  induction code generalizing k acc with
  | nil => exact ⟨acc, [], by unfold intPart; rfl, h⟩
  | cons c r ih =>
    cases k with
    | succ k =>
      unfold intPart
      rw [List.take_succ_cons, List.any_cons, Bool.or_eq_false_iff, ← isSpace_eq] at hk
      rw [wd_cons hk.1, List.length_cons] at h
      exact ih k acc hk.2 (by omega)
    | zero =>
      unfold intPart
      by_cases hc : isDigit c
      · rw [if_pos hc]
        rw [wd_cons (isDigit_solid hc), List.length_cons] at h
        rw [put_eq _ (by omega), Out.ok_bind]
        apply ih
        · split
          · rename_i ht; exact not_any_take hd.1 ht.1
          · rw [List.take_zero]; rfl
        · rw [List.length_append, List.length_singleton]; omega
      · rw [if_neg hc]
        exact ⟨_, _, rfl, h⟩

theorem fracPart_safe (acc code : Text) (h : acc.length + (wd code).length ≤ 255) :
    ∃ v rest, fracPart acc code = .ok (v, rest) := by
  induction code generalizing acc with
  | nil => exact ⟨_, _, rfl⟩
  | cons c r ih =>
    unfold fracPart
    by_cases hc : isDigit c
    · rw [if_pos hc]
      rw [wd_cons (isDigit_solid hc), List.length_cons] at h
      rw [put_eq _ (by omega), Out.ok_bind]
      exact ih _ (by rw [List.length_append, List.length_singleton]; omega)
    · rw [if_neg hc]; exact ⟨_, _, rfl⟩

theorem afterInt_safe (d : Dict) (hd : SolidSeparators d) (acc code : Text) (h : acc.length + (wd code).length ≤ 255) :
    ∃ v rest, afterInt d acc code = .ok (v, rest) := by
  unfold afterInt
  split
  · exact ⟨_, _, rfl⟩
  · split
    · rename_i h2
      obtain ⟨h2, h3, h4⟩ := h2
      cases code with
      | nil => simp at h2
      | cons c r =>
        have hc : isSpace c = false := by
          cases hdec : d.dec with
          | nil => rw [hdec] at h3; exact isDigit_solid h3
          | cons x y =>
            have hs := hd.2
            rw [hdec] at h4 hs
            rw [List.isPrefixOf_cons_cons, Bool.and_eq_true, beq_iff_eq] at h4
            rw [List.any_cons, Bool.or_eq_false_iff, ← isSpace_eq] at hs
            rw [← h4.1]; exact hs.1
        rw [wd_cons hc, List.length_cons] at h
        rw [put_eq _ (by omega), Out.ok_bind]
        exact fracPart_safe _ _ (by
          rw [List.length_append, List.length_singleton]
          show _ + (wd r).length ≤ _
          omega)
    · exact fracPart_safe _ _ h

theorem number_safe (d : Dict) (hd : SolidSeparators d) {c : UInt8} {r : Text}
    (h : (wd (c :: r)).length ≤ 255) : ∃ v rest, number d (c :: r) = .ok (v, rest) := by
  unfold number
  split
  · rename_i r' heq
    cases heq
    rw [wd_cons (by decide), List.length_cons] at h
    rw [put_eq _ (by decide), Out.ok_bind]
    obtain ⟨v, rest, h1, h2⟩ := intPart_safe d hd 0 ([] ++ [45]) r (by rw [List.take_zero]; rfl)
      (by rw [List.length_append]; simp only [List.length_nil, List.length_singleton]; omega)
    rw [h1, Out.ok_bind]
    exact afterInt_safe d hd v rest h2
  · obtain ⟨v, rest, h1, h2⟩ := intPart_safe d hd 0 [] (c :: r) (by rw [List.take_zero]; rfl)
      (by rw [List.length_nil]; omega)
    rw [h1, Out.ok_bind]
    exact afterInt_safe d hd v rest h2

theorem ite_ok {p : Prop} [Decidable p] {a b : Out α} (ha : ∃ x, a = .ok x) (hb : ∃ x, b = .ok x) :
    ∃ x, (if p then a else b) = .ok x := by
  by_cases h : p
  · rw [if_pos h]; exact ha
  · rw [if_neg h]; exact hb

theorem scan_safe (d : Dict) (hd : SolidSeparators d) (code : Text) (h : (wd code).length ≤ 255) :
    ∃ p, scan d code = .ok p := by
  cases code with
  | nil => exact ⟨_, rfl⟩
  | cons c r =>
    unfold scan
    dsimp only
    repeat' first | exact ⟨_, rfl⟩ | apply ite_ok
    · obtain ⟨v, rest, h1⟩ := number_safe d hd h
      rw [h1]; exact ⟨_, rfl⟩
    · obtain ⟨v, rest, h1⟩ := refLoop_safe d [] (c :: r) (by rw [List.length_nil]; omega)
      rw [h1]; exact ⟨_, rfl⟩

theorem shortWords_suffix {p q : Text} (h : ShortWords p) (hq : q <:+ p) : ShortWords q := by
  obtain ⟨a, rfl⟩ := hq
  intro i hi hl
  have := h (a.length + i) (by rw [List.length_append]; omega) (by rw [List.length_append]; omega)
  rwa [List.drop_append, List.drop_eq_nil_of_le (by omega), List.nil_append, Nat.add_sub_cancel_left] at this

theorem takeWhile_prefix' (p : UInt8 → Bool) (l : Text) : l.takeWhile p <+: l := List.takeWhile_prefix p

theorem wd_short {p : Text} (h : ShortWords p) : (wd p).length ≤ 255 := by
  by_cases hl : (wd p).length ≤ 255
  · exact hl
  · exfalso
    have hp : wd p <+: p := List.takeWhile_prefix _
    have hle := hp.length_le
    have h1 := h 0 (by omega) (by omega)
    rw [List.drop_zero] at h1
    obtain ⟨z, hz⟩ := hp
    have h2 : p.take 256 = (wd p).take 256 := by
      conv => lhs; rw [← hz]
      rw [List.take_append_of_le_length (by omega)]
    rw [h2] at h1
    obtain ⟨x, hx, hb⟩ := List.any_eq_true.1 h1
    have hx := List.mem_of_mem_take hx
    have : ∀ (l : Text) (x : UInt8), x ∈ l.takeWhile (fun c => !blank c) → blank x = false := by
      intro l
      induction l with
      | nil => intro x hx; cases hx
      | cons a b ih =>
        intro x hx
        rw [List.takeWhile_cons] at hx
        split at hx
        · rename_i ha
          rcases List.mem_cons.1 hx with h | h
          · rw [h]; simpa using ha
          · exact ih x h
        · cases hx
    rw [this p x hx] at hb
    cases hb

/-! ## Text literals -/

theorem write_ok {st : RS} {bs : Text} (h : st.acc.length + bs.length ≤ st.mem) :
    st.write bs = .ok { st with acc := st.acc ++ bs } := by
  unfold RS.write; rw [if_pos h]

/-- Room in the buffer of `ctr_clex_readstr`. -/
def Room (st : RS) : Prop := st.acc.length + 9 + (if st.esc then 0 else 1) < st.mem

theorem room_next {st : RS} {bs : Text} (h : st.acc.length + 9 < st.mem) (hb : bs.length ≤ 10) (n : Nat) :
    Room (RS.next { st with acc := st.acc ++ bs, nest := n }) := by
  unfold Room RS.next
  dsimp only
  rw [List.length_append, if_neg (by simp)]
  by_cases hm : st.mem ≤ st.acc.length + bs.length + 10
  · rw [if_pos hm]; omega
  · rw [if_neg hm]; omega

theorem rstep_safe (d : Dict) (hq : d.qo.length ≤ 10 ∧ d.qc.length ≤ 10) (ig : Bool) (st : RS) (c : UInt8) (r : Text)
    (h : Room st) : ∃ st' k, rstep d ig st c r = .ok (st', k) ∧ Room st' := by
  have h9 : st.acc.length + 9 < st.mem := by unfold Room at h; omega
  have one : ∀ b : UInt8, st.acc.length + [b].length ≤ st.mem := by intro b; simp; omega
  unfold rstep
  split
  · rename_i hc
    have he : st.esc = false := by
      rw [Bool.and_eq_true] at hc; simpa using hc.2
    have h10 : st.acc.length + 10 < st.mem := by unfold Room at h; rw [he] at h; simpa using h
    split
    · rw [write_ok (one _), Out.ok_bind]
      refine ⟨_, _, rfl, ?_⟩
      unfold Room; simp; omega
    · refine ⟨_, _, rfl, ?_⟩
      unfold Room; simp; omega
  · split
    · rw [write_ok (one _), Out.ok_bind]
      exact ⟨_, _, rfl, room_next h9 (by simp) _⟩
    · split
      · rw [write_ok (one _), Out.ok_bind]
        exact ⟨_, _, rfl, room_next h9 (by simp) _⟩
      · split
        · rw [write_ok (one _), Out.ok_bind]
          exact ⟨_, _, rfl, room_next h9 (by simp) _⟩
        · split
          · rw [write_ok (by omega), Out.ok_bind]
            refine ⟨_, _, rfl, ?_⟩
            split
            · exact room_next h9 hq.2 _
            · exact room_next h9 hq.2 _
          · split
            · rw [write_ok (by omega), Out.ok_bind]
              refine ⟨_, _, rfl, ?_⟩
              split
              · exact room_next h9 hq.1 _
              · exact room_next h9 hq.1 _
            · rw [write_ok (one _), Out.ok_bind]
              exact ⟨_, _, rfl, room_next h9 (by simp) _⟩

theorem finish_suffix (d : Dict) (st : RS) (code : Text) : (finish d st code).2 <:+ code := by
  unfold finish
  dsimp only
  split
  · exact List.drop_suffix _ _
  · exact List.suffix_refl _

theorem readLoop_safe (d : Dict) (hq : d.qo.length ≤ 10 ∧ d.qc.length ≤ 10) (ig : Bool) (k : Nat) (st : RS) (code : Text)
    (h : Room st) : ∃ v rest, readLoop d ig k st code = .ok (v, rest) ∧ rest <:+ code := by
  induction code generalizing k st with
  | nil => exact ⟨_, _, by cases k <;> (unfold readLoop; rfl), finish_suffix d st _⟩
  | cons c r ih =>
    cases k with
    | succ k =>
      obtain ⟨v, rest, h1, h2⟩ := ih k st h
      exact ⟨v, rest, by unfold readLoop; exact h1, List.IsSuffix.trans h2 (List.suffix_cons _ _)⟩
    | zero =>
      unfold readLoop
      split
      · obtain ⟨st', k', h1, h2⟩ := rstep_safe d hq ig st c r h
        rw [h1]
        obtain ⟨v, rest, h3, h4⟩ := ih k' st' h2
        exact ⟨v, rest, h3, List.IsSuffix.trans h4 (List.suffix_cons _ _)⟩
      · exact ⟨_, _, rfl, finish_suffix d st _⟩

theorem readstr_safe (d : Dict) (hq : d.qo.length ≤ 10 ∧ d.qc.length ≤ 10) (ig : Bool) (code : Text) :
    ∃ v rest, readstr d ig code = .ok (v, rest) ∧ rest <:+ code :=
  readLoop_safe d hq ig 0 _ code (by unfold Room; simp)

end Verif.Model.Lexer
