import Verif.Lemmas.LexerCode

/-!
# Lemmas about the values of tokens
-/

namespace Verif.Model.Lexer
open Verif.Spec (Dict)
open Verif.Spec.Lexer

theorem isDigit_eq (c : UInt8) : isDigit c = digit c := by
  have h : ∀ n : Fin 256, isDigit (UInt8.ofNat n.val) = digit (UInt8.ofNat n.val) := by decide +kernel
  have := h ⟨c.toNat, c.toNat_lt⟩
  simpa using this

theorem stops_of_isDelim {d : Dict} (hd : 2 ≤ d.assign.length) {code : Text} (h : isDelim d code = true)
    (hne : code ≠ []) : Stops d code := by
  unfold isDelim at h
  simp only [Bool.or_eq_true] at h
  rcases h with ((((h | h) | h) | h) | h) | h
  · exact Or.inr (Or.inl ⟨d.eol, by simp, pfx_iff.1 h⟩)
  · exact Or.inr (Or.inl ⟨d.qo, by simp, pfx_iff.1 h⟩)
  · exact Or.inr (Or.inl ⟨d.assign, by simp, pfx_iff.1 h⟩)
  · refine Or.inr (Or.inl ⟨[58, 61], by simp, ?_⟩)
    unfold colonEquals at h
    by_cases h2 : d.assign.length ≤ 2
    · have h2' : d.assign.length = 2 := by omega
      rw [if_pos h2, h2'] at h
      exact pfx_iff.1 h
    · rw [if_neg h2, Bool.and_eq_true] at h
      exact pfx_iff.1 h.1
  · exact Or.inr (Or.inl ⟨d.chain, by simp, pfx_iff.1 h⟩)
  · cases code with
    | nil => exact absurd rfl hne
    | cons c r =>
      refine Or.inr (Or.inr ⟨c, r, rfl, ?_⟩)
      simp only [Bool.or_eq_true, beq_iff_eq] at h
      rcases h with ((h | h) | h) | h
      · exact Or.inl (by simp [h])
      · exact Or.inl (by simp [h])
      · exact Or.inl (by simp [h])
      · exact Or.inr (by rw [← isSpace_eq]; exact h)

theorem not_isDelim {d : Dict} {code : Text} (h : ¬ isDelim d code = true) :
    (∀ K ∈ [d.eol, d.qo, d.assign, d.chain], ¬ K <+: code) ∧
      ∀ c r, code = c :: r → c ∉ [40, 41, d.param] ∧ blank c = false := by
  unfold isDelim at h
  simp only [Bool.or_eq_true, not_or] at h
  obtain ⟨⟨⟨⟨⟨h1, h2⟩, h3⟩, _⟩, h5⟩, h6⟩ := h
  constructor
  · intro K hK
    simp only [List.mem_cons, List.not_mem_nil, or_false] at hK
    rcases hK with rfl | rfl | rfl | rfl
    · exact fun h => h1 (pfx_iff.2 h)
    · exact fun h => h2 (pfx_iff.2 h)
    · exact fun h => h3 (pfx_iff.2 h)
    · exact fun h => h5 (pfx_iff.2 h)
  · rintro c r rfl
    simp only [Bool.or_eq_true, not_or, beq_iff_eq] at h6
    obtain ⟨⟨⟨h1, h2⟩, h3⟩, h4⟩ := h6
    refine ⟨by simp [h1, h2, h3], ?_⟩
    rw [← isSpace_eq]
    simpa using h4

theorem refLoop_val (d : Dict) (hd : 2 ≤ d.assign.length) {acc code v rest : Text}
    (h : refLoop d acc code = .ok (v, rest)) :
    ∃ w, code = w ++ rest ∧ (35 ∉ w → v = acc ++ w) ∧ Stops d rest ∧
      ∀ i < w.length, (∀ K ∈ [d.eol, d.qo, d.assign, d.chain], ¬ K <+: w.drop i ++ rest) ∧
        ∀ c ∈ w, c ∉ [40, 41, d.param] ∧ blank c = false := by
  induction code generalizing acc with
  | nil =>
    unfold refLoop at h
    cases h
    exact ⟨[], rfl, fun _ => by rw [List.append_nil], Or.inl rfl, fun i hi => by simp at hi⟩
  | cons c r ih =>
    unfold refLoop at h
    by_cases hdl : isDelim d (c :: r) = true
    · rw [if_pos hdl] at h
      cases h
      exact ⟨[], rfl, fun _ => by rw [List.append_nil], stops_of_isDelim hd hdl (by simp), fun i hi => by simp at hi⟩
    · rw [if_neg hdl] at h
      obtain ⟨st, hput, h2⟩ := Out.bind_eq_ok.1 h
      dsimp only at h2
      generalize hacc' : (if c == 35 && decide (acc.length > 0) then st.take 1 else st) = acc' at h2
      by_cases hl : acc'.length > bflmt
      · rw [if_pos hl] at h2; cases h2
      · rw [if_neg hl] at h2
        obtain ⟨w, h3, h4, h5, h6⟩ := ih h2
        have hn := not_isDelim hdl
        refine ⟨c :: w, by rw [List.cons_append, ← h3], ?_, h5, ?_⟩
        · intro hnot
          have hc : ¬ (c == 35 && decide (acc.length > 0)) = true := by
            rw [Bool.and_eq_true, beq_iff_eq]
            exact fun h => hnot (by rw [h.1]; exact List.mem_cons_self)
          rw [if_neg hc] at hacc'
          rw [h4 (fun hm => hnot (List.mem_cons_of_mem _ hm)), ← hacc', (put_ok hput).1]
          simp
        · have hall : ∀ x ∈ c :: w, x ∉ [40, 41, d.param] ∧ blank x = false := by
            intro x hx
            rcases List.mem_cons.1 hx with hx | hx
            · rw [hx]; exact hn.2 c r rfl
            · have : 0 < w.length := List.length_pos_iff.2 (by rintro rfl; cases hx)
              exact (h6 0 this).2 x hx
          intro i hi
          refine ⟨?_, hall⟩
          cases i with
          | zero => rw [List.drop_zero, List.cons_append, ← h3]; exact hn.1
          | succ i =>
            rw [List.drop_succ_cons]
            exact (h6 i (by simpa using hi)).1

theorem intPart_skip (d : Dict) (k : Nat) (acc code : Text) : intPart d k acc code = intPart d 0 acc (code.drop k) := by
  induction code generalizing k with
  | nil => cases k <;> (unfold intPart; simp)
  | cons c r ih =>
    cases k with
    | zero => rfl
    | succ k =>
      rw [List.drop_succ_cons, ← ih k]
      rfl

theorem digitAt_iff {code : Text} : digitAt code = true ↔ ∃ c r, code = c :: r ∧ digit c = true := by
  constructor
  · intro h
    obtain ⟨c, r, h1, h2⟩ := digitAt_solid h
    exact ⟨c, r, h1, by rw [← isDigit_eq]; exact h2⟩
  · rintro ⟨c, r, rfl, h⟩
    show isDigit c = true
    rw [isDigit_eq]; exact h

theorem intPart_nodigit (d : Dict) {acc code : Text} (h : digitAt code = false) : intPart d 0 acc code = .ok (acc, code) := by
  cases code with
  | nil => unfold intPart; rfl
  | cons c r =>
    unfold intPart
    have : ¬ isDigit c = true := by rw [Bool.not_eq_true]; exact h
    rw [if_neg this]

theorem intPart_val (d : Dict) (n : Nat) {acc code v rest : Text} (hn : code.length ≤ n)
    (h : intPart d 0 acc code = .ok (v, rest)) (hdig : digitAt code = true) :
    ∃ gs : List Text, gs ≠ [] ∧ (∀ g ∈ gs, g ≠ [] ∧ ∀ c ∈ g, digit c = true) ∧
      code = d.tho.intercalate gs ++ rest ∧ v = acc ++ gs.flatten ∧ digitAt rest = false := by
  induction n generalizing acc code with
  | zero =>
    have : code = [] := List.length_eq_zero_iff.1 (by omega)
    subst this; cases hdig
  | succ n ih =>
    obtain ⟨c, r, rfl, hc⟩ := digitAt_iff.1 hdig
    unfold intPart at h
    rw [if_pos (by rw [isDigit_eq]; exact hc)] at h
    obtain ⟨a, hput, h⟩ := Out.bind_eq_ok.1 h
    have ha := (put_ok hput).1
    have hlen : r.length ≤ n := by simpa using hn
    rw [intPart_skip] at h
    by_cases ht : d.tho.isPrefixOf r ∧ d.tho.length + 1 ≤ r.length ∧ digitAt (r.drop d.tho.length) = true
    · rw [if_pos ht] at h
      obtain ⟨gs, h1, h2, h3, h4, h5⟩ := ih (by rw [List.length_drop]; omega) h ht.2.2
      refine ⟨[c] :: gs, by simp, ?_, ?_, ?_, h5⟩
      · intro g hg
        rcases List.mem_cons.1 hg with rfl | hg
        · exact ⟨by simp, by simpa using hc⟩
        · exact h2 g hg
      · obtain ⟨z, hz⟩ := pfx_iff.1 ht.1
        have hzd : r.drop d.tho.length = z := by rw [← hz, List.drop_left']; rfl
        rw [hzd] at h3
        cases gs with
        | nil => exact absurd rfl h1
        | cons g gs =>
          rw [List.intercalate_cons_cons]
          simp only [List.append_assoc, List.cons_append, List.nil_append]
          rw [← h3, hz]
      · rw [h4, ha]; simp
    · rw [if_neg ht, List.drop_zero] at h
      by_cases hr : digitAt r = true
      · obtain ⟨gs, h1, h2, h3, h4, h5⟩ := ih hlen h hr
        cases gs with
        | nil => exact absurd rfl h1
        | cons g gs =>
          refine ⟨(c :: g) :: gs, by simp, ?_, ?_, ?_, h5⟩
          · intro g' hg
            rcases List.mem_cons.1 hg with rfl | hg
            · refine ⟨by simp, fun x hx => ?_⟩
              rcases List.mem_cons.1 hx with rfl | hx
              · exact hc
              · exact (h2 g List.mem_cons_self).2 x hx
            · exact h2 g' (List.mem_cons_of_mem _ hg)
          · rw [h3]
            cases gs with
            | nil => rw [List.intercalate_singleton, List.intercalate_singleton]; rfl
            | cons g' gs =>
              rw [List.intercalate_cons_cons, List.intercalate_cons_cons]
              simp only [List.cons_append]
          · rw [h4, ha]; simp
      · rw [Bool.not_eq_true] at hr
        rw [intPart_nodigit d hr] at h
        cases h
        refine ⟨[[c]], by simp, ?_, ?_, ?_, hr⟩
        · intro g hg
          rw [List.mem_singleton] at hg
          subst hg
          exact ⟨by simp, by simpa using hc⟩
        · rw [List.intercalate_singleton]; rfl
        · rw [ha]; simp

theorem fracPart_val {acc code v rest : Text} (h : fracPart acc code = .ok (v, rest)) :
    ∃ w, code = w ++ rest ∧ v = acc ++ w ∧ (∀ c ∈ w, digit c = true) ∧ (digitAt code = true → w ≠ []) ∧
      (digitAt code = false → w = []) ∧ digitAt rest = false := by
  induction code generalizing acc with
  | nil =>
    unfold fracPart at h
    cases h
    exact ⟨[], rfl, by simp, (fun c hc => by cases hc), (fun h => by cases h), fun _ => rfl, rfl⟩
  | cons c r ih =>
    unfold fracPart at h
    by_cases hc : isDigit c = true
    · rw [if_pos hc] at h
      obtain ⟨a, hput, h⟩ := Out.bind_eq_ok.1 h
      obtain ⟨w, h1, h2, h3, _, _, h6⟩ := ih h
      refine ⟨c :: w, by rw [h1]; rfl, by rw [h2, (put_ok hput).1]; simp, ?_, fun _ => by simp, fun h => ?_, h6⟩
      · intro x hx
        rcases List.mem_cons.1 hx with rfl | hx
        · rw [← isDigit_eq]; exact hc
        · exact h3 x hx
      · have : digitAt (c :: r) = isDigit c := rfl
        rw [this, hc] at h; cases h
    · rw [if_neg hc] at h
      cases h
      refine ⟨[], rfl, by simp, (fun c hc => by cases hc), fun h => absurd h hc, fun _ => rfl, ?_⟩
      show isDigit c = false
      simpa using hc

theorem afterInt_val (d : Dict) (hdec : d.dec.length = 1) {acc code v rest : Text} (hnd : digitAt code = false)
    (h : afterInt d acc code = .ok (v, rest)) :
    ∃ f : Text, (∀ c ∈ f, digit c = true) ∧ code = fraction d.dec f ++ rest ∧ v = acc ++ fraction [46] f := by
  unfold afterInt at h
  split at h
  · cases h
    exact ⟨[], (fun c hc => by cases hc), by unfold fraction; simp, by unfold fraction; simp⟩
  · split at h
    · rename_i h2
      obtain ⟨a, hput, h⟩ := Out.bind_eq_ok.1 h
      obtain ⟨w, h3, h4, h5, h6, _, _⟩ := fracPart_val h
      have hdd : digitAt (code.drop 1) = true := by rw [← hdec]; exact h2.2.1
      have hw := h6 hdd
      refine ⟨w, h5, ?_, ?_⟩
      · unfold fraction
        rw [if_neg hw, List.append_assoc, ← h3]
        obtain ⟨z, hz⟩ := pfx_iff.1 h2.2.2
        have : code.drop 1 = z := by rw [← hz, ← hdec, List.drop_left']; rfl
        rw [this, hz]
      · unfold fraction
        rw [if_neg hw, h4, (put_ok hput).1]; simp
    · obtain ⟨w, h3, h4, _, _, h7, _⟩ := fracPart_val h
      have := h7 hnd
      subst this
      exact ⟨[], (fun c hc => by cases hc), by unfold fraction; simpa using h3, by unfold fraction; simpa using h4⟩

theorem number_val (d : Dict) (hdec : d.dec.length = 1) {c : UInt8} {r v rest : Text}
    (h : number d (c :: r) = .ok (v, rest)) (hc : ((c == 45 && digitAt r) || isDigit c) = true) :
    ∃ (sign : Text) (gs : List Text) (f : Text), (sign = [] ∨ sign = [45]) ∧ gs ≠ [] ∧
      (∀ g ∈ gs, g ≠ [] ∧ ∀ c ∈ g, digit c = true) ∧ (∀ c ∈ f, digit c = true) ∧
      c :: r = sign ++ d.tho.intercalate gs ++ fraction d.dec f ++ rest ∧
      v = sign ++ gs.flatten ++ fraction [46] f := by
  by_cases h45 : c = 45
  · subst h45
    have hr : digitAt r = true := by
      have h1 : isDigit 45 = false := by decide
      rw [h1, Bool.or_false] at hc
      exact hc
    unfold number at h
    obtain ⟨a, hput, h⟩ := Out.bind_eq_ok.1 h
    obtain ⟨⟨b, e⟩, h2, h⟩ := Out.bind_eq_ok.1 h
    obtain ⟨gs, g1, g2, g3, g4, g5⟩ := intPart_val d _ (Nat.le_refl _) h2 hr
    obtain ⟨f, f1, f2, f3⟩ := afterInt_val d hdec g5 h
    refine ⟨[45], gs, f, Or.inr rfl, g1, g2, f1, ?_, ?_⟩
    · rw [g3, f2]; simp
    · rw [f3, g4, (put_ok hput).1]; simp
  · have hd : digitAt (c :: r) = true := by
      have : (c == 45) = false := by simpa using h45
      rw [this, Bool.false_and, Bool.false_or] at hc
      exact hc
    have h' : ((intPart d 0 [] (c :: r)) >>= fun p => afterInt d p.1 p.2) = .ok (v, rest) := by
      unfold number at h
      split at h
      · rename_i h0; cases h0; exact absurd rfl h45
      · exact h
    obtain ⟨⟨b, e⟩, h2, h⟩ := Out.bind_eq_ok.1 h'
    obtain ⟨gs, g1, g2, g3, g4, g5⟩ := intPart_val d _ (Nat.le_refl _) h2 hd
    obtain ⟨f, f1, f2, f3⟩ := afterInt_val d hdec g5 h
    refine ⟨[], gs, f, Or.inl rfl, g1, g2, f1, ?_, ?_⟩
    · rw [g3, f2]; simp
    · rw [f3, g4]

theorem ite_inv {p : Prop} [Decidable p] {a b x : α} (h : (if p then a else b) = x) : (p ∧ a = x) ∨ (¬ p ∧ b = x) := by
  by_cases hp : p
  · rw [if_pos hp] at h; exact Or.inl ⟨hp, h⟩
  · rw [if_neg hp] at h; exact Or.inr ⟨hp, h⟩

/-- How a reference or number comes out of `scan`. -/
theorem scan_ref {d : Dict} {code v rest : Text} (h : scan d code = .ok (.ref, v, rest)) :
    refLoop d [] code = .ok (v, rest) := by
  cases code with
  | nil => unfold scan at h; cases h
  | cons c r =>
    unfold scan at h
    dsimp only at h
    iterate 11 (rcases ite_inv h with ⟨_, h'⟩ | ⟨_, h⟩; · cases h')
    rcases ite_inv h with ⟨_, h⟩ | ⟨_, h⟩
    · exact absurd (bind_pair_ok h).2 (by simp)
    · exact (bind_pair_ok h).1

theorem scan_number {d : Dict} {code v rest : Text} (h : scan d code = .ok (.number, v, rest)) :
    ∃ c r, code = c :: r ∧ ((c == 45 && digitAt r) || isDigit c) = true ∧ number d (c :: r) = .ok (v, rest) := by
  cases code with
  | nil => unfold scan at h; cases h
  | cons c r =>
    refine ⟨c, r, rfl, ?_⟩
    unfold scan at h
    dsimp only at h
    iterate 11 (rcases ite_inv h with ⟨_, h'⟩ | ⟨_, h⟩; · cases h')
    rcases ite_inv h with ⟨hn, h⟩ | ⟨_, h⟩
    · exact ⟨hn, (bind_pair_ok h).1⟩
    · exact absurd (bind_pair_ok h).2 (by simp)

end Verif.Model.Lexer
