import Verif.Lemmas.ParserFwd

/-!
# Lemmas: keyword messages that are too long for their buffer
-/

namespace Verif.Model.Parser
open Verif.Spec (Dict Node)
open Verif.Spec.Lexer
open Verif.Spec.Parser
open Verif.Model.Lexer (Tok LS kind value whole)

/-- No answer, for all sufficiently large fuel. -/
def Stops {α : Type} (f : Nat → PR α) (bad : Bool) : Prop := ∃ N, ∀ m, N ≤ m → f m = if bad then .ub else .fail

theorem stop_bind {α β : Type} {x : PR α} {bad : Bool} (h : x = if bad then .ub else .fail) (f : α → PS → PR β) :
    x.bind f = if bad then .ub else .fail := by
  rw [h]; cases bad <;> rfl

/-- The part `p` does not fit. -/
theorem keywords_long {d : Dict} (hd : GoodDict d) (p : Text) (rs : List Text) (qs : List Text) (as : List Node) (a : Node)
    (done : List Text) (dargs : List Node) (rest : List Lexeme) (s : PS) (hlen : (qs ++ p :: rs).length = as.length)
    (hga : gram d 1 a = true) (hg : gramArgs d as = true) (hsum : partsLen (done ++ qs) ≤ 255)
    (hp : 255 ≤ partsLen (done ++ qs) + p.length)
    (h : Lay d (lexemes d a ++ (lexArgs d (qs ++ p :: rs) as ++ rest)) s.lx.code) :
    Stops (fun m => keywords d m done dargs s) (decide (partsLen (done ++ qs) + p.length = 255)) := by
  induction qs generalizing a as done dargs s with
  | nil =>
    cases as with
    | nil => cases hlen
    | cons a2 as =>
      have e1 : lexArgs d ([] ++ p :: rs) (a2 :: as) = .word p :: .colon :: (lexemes d a2 ++ lexArgs d rs as) := by
        rw [List.nil_append]
        conv => lhs; unfold lexArgs
        rfl
      rw [e1] at h
      simp only [List.cons_append, List.append_assoc] at h
      rw [List.append_nil] at hsum hp ⊢
      obtain ⟨s1, l1, r1, N, hN⟩ := expr_ok hd _ a 1 _ s (Nat.le_refl _) hga (by omega)
        (Or.inr (Or.inr (Or.inr (Or.inl ⟨by omega, Or.inr ⟨p, _, rfl⟩⟩)))) h
      obtain ⟨s2, h2⟩ := rd hd l1
      have v2' : val s2 = p := (h2.lay _ _ rfl rfl).1
      refine ⟨N + 1, ?_⟩
      intro m hm
      obtain ⟨m, rfl⟩ : ∃ m', m = m' + 1 := ⟨m - 1, by omega⟩
      show keywords d (m + 1) done dargs s = _
      have hN' := hN m (by omega)
      dsimp only at hN'
      unfold keywords
      rw [hN', PR.ok_bind, h2.tok, PR.ok_bind, if_neg (by intro h; cases h),
        if_pos (show kindOf (Lexeme.word _ :: _) = Tok.ref from rfl), v2']
      by_cases hlt : partsLen done + p.length = 255
      · rw [if_neg (by unfold msgMax; omega), if_pos (by unfold msgMax; omega), decide_eq_true hlt, if_pos rfl]
      · rw [if_pos (by unfold msgMax; omega), decide_eq_false hlt, if_neg (by simp)]
  | cons q qs ih =>
    cases as with
    | nil => cases hlen
    | cons a2 as =>
      have e1 : lexArgs d (q :: qs ++ p :: rs) (a2 :: as) = .word q :: .colon :: (lexemes d a2 ++ lexArgs d (qs ++ p :: rs) as) := by
        rw [List.cons_append]
        conv => lhs; unfold lexArgs
        rfl
      rw [e1] at h
      simp only [List.cons_append, List.append_assoc] at h
      simp only [List.cons_append, List.length_cons, Nat.add_right_cancel_iff] at hlen
      unfold gramArgs at hg
      rw [Bool.and_eq_true] at hg
      obtain ⟨s1, l1, r1, N, hN⟩ := expr_ok hd _ a 1 _ s (Nat.le_refl _) hga (by omega)
        (Or.inr (Or.inr (Or.inr (Or.inl ⟨by omega, Or.inr ⟨q, _, rfl⟩⟩)))) h
      obtain ⟨s2, h2⟩ := rd hd l1
      obtain ⟨v2, l2⟩ := h2.lay _ _ rfl rfl
      have v2' : val s2 = q := v2
      obtain ⟨s3, h3⟩ := rd hd l2
      obtain ⟨v3, l3⟩ := h3.lay _ _ rfl rfl
      have hsum' : partsLen done + (q.length + 1 + partsLen qs) ≤ 255 := by
        rw [← partsLen_cons, ← partsLen_append]; exact hsum
      have ea : done ++ [q] ++ qs = done ++ q :: qs := by simp
      have := ih as a2 (done ++ [q]) (dargs ++ [a]) { s3 with err := s3.err || false } hlen hg.1 hg.2
        (by rw [ea]; exact hsum) (by rw [ea]; exact hp) l3
      rw [ea] at this
      obtain ⟨N4, hN4⟩ := this
      refine ⟨max N N4 + 1, ?_⟩
      intro m hm
      obtain ⟨m, rfl⟩ : ∃ m', m = m' + 1 := ⟨m - 1, by omega⟩
      show keywords d (m + 1) done dargs s = _
      have hN' := hN m (by omega)
      have hN4' := hN4 m (by omega)
      dsimp only at hN' hN4'
      unfold keywords
      rw [hN', PR.ok_bind, h2.tok, PR.ok_bind, if_neg (by intro h; cases h),
        if_pos (show kindOf (Lexeme.word _ :: _) = Tok.ref from rfl), v2',
        if_neg (by unfold msgMax; omega), if_neg (by unfold msgMax; omega), h3.tok, PR.ok_bind]
      exact hN4'

/-- A message one of whose parts does not fit. -/
theorem message_long {d : Dict} (hd : GoodDict d) (p : Text) (rs qs : List Text) (as : List Node)
    (rest : List Lexeme) (s : PS) (hlen : (qs ++ p :: rs).length = as.length) (hg : gramArgs d as = true)
    (hsum : partsLen qs ≤ 255) (hp : 255 ≤ partsLen qs + p.length)
    (h : Lay d (lexArgs d (qs ++ p :: rs) as ++ rest) s.lx.code) :
    (∃ w r, lexArgs d (qs ++ p :: rs) as ++ rest = .word w :: .colon :: r) ∧
    Stops (fun m => message d m 0 s) (decide (partsLen qs + p.length = 255)) := by
  obtain ⟨v, ps, a, as', hps, rfl⟩ : ∃ v ps a as', qs ++ p :: rs = v :: ps ∧ as = a :: as' := by
    cases as with
    | nil => cases qs <;> cases hlen
    | cons a as =>
      cases qs with
      | nil => exact ⟨p, rs, a, as, rfl, rfl⟩
      | cons q qs => exact ⟨q, qs ++ p :: rs, a, as, rfl, rfl⟩
  have e1 : lexArgs d (v :: ps) (a :: as') = .word v :: .colon :: (lexemes d a ++ lexArgs d ps as') := by
    conv => lhs; unfold lexArgs
    rfl
  rw [hps, e1] at h ⊢
  refine ⟨⟨v, _, rfl⟩, ?_⟩
  simp only [List.cons_append, List.append_assoc] at h
  unfold gramArgs at hg
  rw [Bool.and_eq_true] at hg
  obtain ⟨s1, h1⟩ := rd hd h
  obtain ⟨v1, l1⟩ := h1.lay _ _ rfl rfl
  obtain ⟨w1, w2⟩ := h1.word _ _ rfl
  obtain ⟨s2, h2⟩ := rd hd l1
  obtain ⟨s3, h3⟩ := rd hd (s := back s2) (by rw [h2.again.1]; exact l1)
  obtain ⟨s4, h4⟩ := rd hd (s := back s3) (by rw [h3.again.1, h2.again.1]; exact l1)
  have l4 := (h4.lay _ _ rfl rfl).2
  have v1' : val s1 = v := v1
  have start : ∀ f, message d (f + 1) 0 s = if v.length ≥ msgMax then .ub else keywords d f [v] [] s4 := by
    intro f
    unfold message
    rw [h1.tok, PR.ok_bind]
    dsimp only
    rw [v1', if_neg (by unfold msgMax; omega), w2 s1, PR.ok_bind, h2.tok, PR.ok_bind,
      if_neg (by rintro ⟨h, _⟩; omega), if_neg (by rintro ⟨_, h⟩; exact h rfl), h3.tok, PR.ok_bind,
      if_pos (show kindOf (Lexeme.colon :: _) = Tok.colon from rfl), if_neg (by omega)]
    by_cases hv : v.length ≥ msgMax
    · rw [if_pos hv, if_pos hv]
    · rw [if_neg hv, if_neg hv, h4.tok, PR.ok_bind]
  cases qs with
  | nil =>
    cases hps
    have e0 : partsLen [] = 0 := rfl
    rw [e0] at hp ⊢
    refine ⟨1, ?_⟩
    intro m hm
    obtain ⟨m, rfl⟩ : ∃ m', m = m' + 1 := ⟨m - 1, by omega⟩
    show message d (m + 1) 0 s = _
    rw [start m, if_pos (by unfold msgMax; omega), decide_eq_true (by omega), if_pos rfl]
  | cons q qs =>
    cases hps
    simp only [List.cons_append, List.length_cons, Nat.add_right_cancel_iff] at hlen
    rw [partsLen_cons] at hsum
    obtain ⟨N, hN⟩ := keywords_long hd p rs qs as' a [v] [] rest s4 hlen hg.1 hg.2
      (by rw [List.cons_append, List.nil_append, partsLen_cons]; exact hsum) hp l4
    refine ⟨N + 1, ?_⟩
    intro m hm
    obtain ⟨m, rfl⟩ : ∃ m', m = m' + 1 := ⟨m - 1, by omega⟩
    show message d (m + 1) 0 s = _
    rw [start m, if_neg (by unfold msgMax; omega)]
    exact hN m (by omega)

/-- A statement whose first message is too long. -/
theorem parse_long {d : Dict} (hd : GoodDict d) {r : Node} {qs rs : List Text} {p : Text} {as : List Node} {after : List Lexeme}
    {prg : Text} (hr : prim r = true) (hgr : gram d 0 r = true)
    (hlen : (qs ++ p :: rs).length = as.length) (hg : gramArgs d as = true) (hsum : partsLen qs ≤ 255)
    (hp : 255 ≤ partsLen qs + p.length)
    (h : Lay d (lexemes d (.msg r [.kw (qs ++ p :: rs) as]) ++ after) prg) :
    parse d prg = if partsLen qs + p.length = 255 then .ub else .fail := by
  have e1 : lexemes d (.msg r [.kw (qs ++ p :: rs) as]) ++ after = lexemes d r ++ (lexArgs d (qs ++ p :: rs) as ++ after) := by
    conv => lhs; unfold lexemes lexMsgs lexMsgs
    simp [lexemes]
  rw [e1] at h
  generalize hs0 : (⟨Lexer.load prg, false⟩ : PS) = s0
  have h0 : Lay d (lexemes d r ++ (lexArgs d (qs ++ p :: rs) as ++ after)) s0.lx.code := by rw [← hs0]; exact h
  obtain ⟨l, ls, k1, k2, k3, k4⟩ := lex_head hgr
  obtain ⟨s1, h1⟩ := rd hd h0
  have hb : Lay d (lexemes d r ++ (lexArgs d (qs ++ p :: rs) as ++ after)) (back s1).lx.code := by rw [h1.again.1]; exact h0
  obtain ⟨s2, l2, r2, N2, hN2⟩ := receiver_ok hd (expr_ok hd (lexemes d r).length) r _ (back s1) (by omega) hr hgr hb
  obtain ⟨⟨w, tl, hw⟩, _⟩ := message_long hd p rs qs as after s2 hlen hg hsum hp l2
  obtain ⟨s3, s4, t3, t4, b1, b2⟩ := look2' hd l2 (by rw [hw]; intro l r h; cases h; rfl)
  have lb : Lay d (lexArgs d (qs ++ p :: rs) as ++ after) (back (back s4)).lx.code := by rw [b1]; exact l2
  obtain ⟨s5, h5⟩ := rd hd lb
  have lb5 : Lay d (lexArgs d (qs ++ p :: rs) as ++ after) (back s5).lx.code := by rw [h5.again.1]; exact lb
  obtain ⟨_, N6, hN6⟩ := message_long hd p rs qs as after (back s5) hlen hg hsum hp lb5
  have hrun : ∀ m, max N2 N6 ≤ m → program d (m + 3) [] s0 = if partsLen qs + p.length = 255 then .ub else .fail := by
    intro m hm
    have hk : kindOf (lexemes d r ++ (lexArgs d (qs ++ p :: rs) as ++ after)) = kind l := by rw [k1]; rfl
    have hk2 : kind l ≠ .fin := by cases l <;> (intro h; cases h)
    have hk3 : kind l ≠ .ret := by cases l <;> first | exact absurd rfl k4 | (intro h; cases h)
    have hN6' := hN6 m (by omega)
    have hN2' := hN2 (m + 1) (by omega)
    dsimp only at hN6' hN2'
    have hm' : messages d (m + 1) 0 [] false (back (back s4)) =
        if decide (partsLen qs + p.length = 255) then .ub else .fail := by
      unfold messages
      have : kindOf (lexArgs d (qs ++ p :: rs) as ++ after) = .ref := by rw [hw]; rfl
      rw [h5.tok, PR.ok_bind, this, if_pos (Or.inl rfl), if_neg (by intro h; cases h), PR.ok_bind]
      exact stop_bind hN6' _
    have he : expr d (m + 2) 0 (back s1) = if decide (partsLen qs + p.length = 255) then .ub else .fail := by
      unfold expr
      rw [hN2', PR.ok_bind, t3, PR.ok_bind, t4, PR.ok_bind]
      dsimp only
      have tk : kindOf (lexArgs d (qs ++ p :: rs) as ++ after) = .ref := by rw [hw]; rfl
      rw [tk, if_neg (by rintro ⟨h, _⟩; omega), if_neg (by simp), if_neg (by simp), if_neg (by simp),
        if_neg (by intro h; cases h)]
      exact stop_bind hm' _
    rw [program, h1.tok, PR.ok_bind, hk]
    dsimp only
    rw [if_neg hk2, if_neg hk3, stop_bind he]
    by_cases hc : partsLen qs + p.length = 255
    · rw [if_pos hc, decide_eq_true hc, if_pos rfl]
    · rw [if_neg hc, decide_eq_false hc, if_neg (by simp)]
  have hne : program d (4 * prg.length + 8) [] ⟨Lexer.load prg, false⟩ ≠ .more :=
    (program_fine hd.1 _ _ _ (by show 4 * prg.length + 3 ≤ 4 * prg.length + 8; omega)).ne_more
  unfold parse
  rw [← program_mono hne (max N2 N6), hs0]
  have := hrun (4 * prg.length + 5 + max N2 N6) (by omega)
  rw [show 4 * prg.length + 5 + max N2 N6 + 3 = 4 * prg.length + 8 + max N2 N6 by omega] at this
  exact this

end Verif.Model.Parser
