import Verif.Lemmas.Lexer

/-!
# Lemmas about `code` of texts and reading it back
-/

namespace Verif.Model.Lexer
open Verif.Spec (Dict)
open Verif.Spec.Lexer

theorem pfx_iff {a b : Text} : a.isPrefixOf b = true ↔ a <+: b := List.isPrefixOf_iff_prefix

theorem pfx_false {a b : Text} : a.isPrefixOf b = false ↔ ¬ a <+: b := by
  rw [← Bool.not_eq_true, pfx_iff]

theorem cmpIn_eq (K s : Text) (h : s <+: K → s = K) : cmpIn K s = .ok (K.isPrefixOf s) := by
  induction K generalizing s with
  | nil => unfold cmpIn; simp
  | cons k K ih =>
    cases s with
    | nil => exact absurd (h (List.nil_prefix)) (by simp)
    | cons c s =>
      unfold cmpIn
      rw [List.isPrefixOf_cons_cons]
      by_cases hk : k == c
      · rw [if_pos hk, hk, Bool.true_and]
        have : k = c := by simpa using hk
        subst this
        exact ih s (fun hp => by
          have := h (List.cons_prefix_cons.2 ⟨rfl, hp⟩)
          simpa using this)
      · rw [if_neg hk]
        rw [Bool.not_eq_true] at hk
        rw [hk]; rfl

/-- A quote stands at the start of the bytes. -/
def qAt (d : Dict) (s : Text) : Bool := d.qo.isPrefixOf s || d.qc.isPrefixOf s

/-- Positions of quotes, counting from `i`. -/
def qpos (d : Dict) : Nat → Text → List Nat
  | _, [] => []
  | i, c :: s => if qAt d (c :: s) then i :: qpos d (i + 1) s else qpos d (i + 1) s

theorem qpos_cons (d : Dict) (i : Nat) (c : UInt8) (s : Text) :
    qpos d i (c :: s) = if qAt d (c :: s) then i :: qpos d (i + 1) s else qpos d (i + 1) s := rfl

/-- The bytes with a backslash in front of every quote. -/
def enc (d : Dict) : Text → Text
  | [] => []
  | c :: s => if qAt d (c :: s) then 92 :: c :: enc d s else c :: enc d s

theorem enc_cons (d : Dict) (c : UInt8) (s : Text) :
    enc d (c :: s) = if qAt d (c :: s) then 92 :: c :: enc d s else c :: enc d s := rfl

/-- No part of a quote at the end. -/
def NoPart (d : Dict) (s : Text) : Prop := ∀ u, u <:+ s → u ≠ [] → (u <+: d.qo → u = d.qo) ∧ (u <+: d.qc → u = d.qc)

theorem NoPart.tail {d : Dict} {c : UInt8} {s : Text} (h : NoPart d (c :: s)) : NoPart d s :=
  fun u hu hn => h u (List.IsSuffix.trans hu (List.suffix_cons _ _)) hn

theorem quotePositions_eq (d : Dict) (i : Nat) (s : Text) (h : NoPart d s) :
    quotePositions d i s = .ok (qpos d i s) := by
  induction s generalizing i with
  | nil => rfl
  | cons c s ih =>
    have h0 := h (c :: s) (List.suffix_refl _) (by simp)
    unfold quotePositions
    rw [cmpIn_eq _ _ h0.1, Out.ok_bind, ih (i + 1) h.tail]
    rw [qpos_cons]
    unfold qAt
    by_cases hq : d.qo.isPrefixOf (c :: s) = true
    · rw [hq, Bool.true_or]; rfl
    · rw [Bool.not_eq_true] at hq
      rw [hq, cmpIn_eq _ _ h0.2, Bool.false_or]
      generalize d.qc.isPrefixOf (c :: s) = b
      cases b <;> rfl

theorem qpos_ge (d : Dict) (i : Nat) (s : Text) : ∀ q ∈ qpos d i s, i ≤ q := by
  induction s generalizing i with
  | nil => intro q hq; cases hq
  | cons c s ih =>
    intro q hq
    unfold qpos at hq
    split at hq
    · rcases List.mem_cons.1 hq with h | h
      · omega
      · have := ih (i + 1) q h; omega
    · have := ih (i + 1) q hq; omega

theorem escapeLoop_eq (d : Dict) (i : Nat) (s : Text) (h : ∀ q ∈ qpos d i s, q < 128) :
    escapeLoop (qpos d i s) i s = enc d s := by
  induction s generalizing i with
  | nil => unfold escapeLoop enc; rfl
  | cons c s ih =>
    rw [qpos_cons] at h ⊢
    unfold enc
    by_cases hq : qAt d (c :: s) = true
    · rw [if_pos hq] at h ⊢
      rw [if_pos hq]
      have hi := h i (List.mem_cons_self)
      have hst : i = storedPos i := by unfold storedPos; rw [Nat.mod_eq_of_lt (by omega), if_pos hi]
      unfold escapeLoop
      rw [if_pos hst, ih (i + 1) (fun q hq => h q (List.mem_cons_of_mem _ hq))]
    · rw [if_neg hq] at h ⊢
      rw [if_neg hq]
      have hge := qpos_ge d (i + 1) s
      have hih := ih (i + 1) h
      generalize qpos d (i + 1) s = qs at *
      cases qs with
      | nil => unfold escapeLoop; rw [hih]
      | cons q qs =>
        have h1 := h q List.mem_cons_self
        have h2 := hge q List.mem_cons_self
        have hst : ¬ i = storedPos q := by
          unfold storedPos; rw [Nat.mod_eq_of_lt (by omega), if_pos h1]; omega
        unfold escapeLoop
        rw [if_neg hst, hih]

theorem enc_mem {d : Dict} {s : Text} {x : UInt8} (h : x ∈ enc d s) : x = 92 ∨ x ∈ s := by
  induction s with
  | nil => cases h
  | cons c s ih =>
    unfold enc at h
    split at h
    · rcases List.mem_cons.1 h with h | h
      · exact Or.inl h
      · rcases List.mem_cons.1 h with h | h
        · exact Or.inr (by rw [h]; exact List.mem_cons_self)
        · rcases ih h with h | h
          · exact Or.inl h
          · exact Or.inr (List.mem_cons_of_mem _ h)
    · rcases List.mem_cons.1 h with h | h
      · exact Or.inr (by rw [h]; exact List.mem_cons_self)
      · rcases ih h with h | h
        · exact Or.inl h
        · exact Or.inr (List.mem_cons_of_mem _ h)

theorem prefix_enc {d : Dict} {K s m : Text} (hK : ∀ x ∈ K, x ≠ 92) (h : K <+: enc d s ++ m) : K <+: s ++ m := by
  induction s generalizing K with
  | nil => exact h
  | cons c s ih =>
    cases K with
    | nil => exact List.nil_prefix
    | cons k K =>
      unfold enc at h
      split at h
      · rw [List.cons_append] at h
        exact absurd (List.cons_prefix_cons.1 h).1 (hK k List.mem_cons_self)
      · rw [List.cons_append] at h ⊢
        obtain ⟨h1, h2⟩ := List.cons_prefix_cons.1 h
        exact List.cons_prefix_cons.2 ⟨h1, ih (fun x hx => hK x (List.mem_cons_of_mem _ hx)) h2⟩

theorem not_prefix_enc {d : Dict} {K s m : Text} (hK : ∀ x ∈ K, x ≠ 92) (h1 : ¬ K <+: s)
    (h2 : s <+: K → s = K) : ¬ K <+: enc d s ++ m := by
  intro h
  have h := prefix_enc hK h
  by_cases hl : K.length ≤ s.length
  · exact h1 (List.prefix_of_prefix_length_le h (List.prefix_append _ _) hl)
  · have := List.prefix_of_prefix_length_le (List.prefix_append s m) h (by omega)
    have := h2 this
    rw [this] at hl; omega

/-- Texts that can be read back from any place. -/
structure Fit (d : Dict) (s : Text) : Prop where
  bytes : ∀ x ∈ s, x ≠ 92
  part : NoPart d s
  sym : ∀ u, u <:+ s → u ≠ [] → ∀ S ∈ [nlSym, tabSym], ¬ S <+: u ∧ ¬ u <+: S

theorem Fit.tail {d : Dict} {c : UInt8} {s : Text} (h : Fit d (c :: s)) : Fit d s :=
  ⟨fun x hx => h.bytes x (List.mem_cons_of_mem _ hx), h.part.tail,
    fun u hu hn => h.sym u (List.IsSuffix.trans hu (List.suffix_cons _ _)) hn⟩

theorem unescape_other {c : UInt8} (h : c ∉ ([110, 114, 116, 118, 98, 97, 102, 48] : List UInt8)) :
    unescape c = c := by
  simp only [List.mem_cons, List.not_mem_nil, or_false, not_or] at h
  obtain ⟨h1, h2, h3, h4, h5, h6, h7, h8⟩ := h
  unfold unescape
  simp only [beq_iff_eq, h1, h2, h3, h4, h5, h6, h7, h8, if_false]

theorem head_mem_take {K : Text} {c : UInt8} {s : Text} (hK : K ≠ []) (h : K <+: c :: s) : c ∈ K.take 1 := by
  cases K with
  | nil => exact absurd rfl hK
  | cons k K => rw [(List.cons_prefix_cons.1 h).1]; simp

theorem sym92 : ∀ S ∈ [nlSym, tabSym], ∀ x ∈ S, x ≠ (92 : UInt8) := by decide

theorem readLoop_enc (d : Dict) (hu : d.qo ≠ [] ∧ d.qc ≠ []) (hg : GoodQuotes d) (k s : Text) (st : RS)
    (hs : Fit d s) (hroom : Room st) (hn : st.nest = 0) (he : st.esc = false) :
    readLoop d false 0 st (enc d s ++ (d.qc ++ k)) = .ok (st.acc ++ s, k) := by
  obtain ⟨g1, g2, g3, g4, g5, g6⟩ := hg
  have hqc92 : ∀ x ∈ d.qc, x ≠ 92 := fun x hx => (g1 x (List.mem_append_right _ hx)).1
  have hqo92 : ∀ x ∈ d.qo, x ≠ 92 := fun x hx => (g1 x (List.mem_append_left _ hx)).1
  have hqcpos : 0 < d.qc.length := List.length_pos_iff.2 hu.2
  induction s generalizing st with
  | nil =>
    have henc : enc d [] = [] := rfl
    rw [henc, List.nil_append]
    cases hqc : d.qc with
    | nil => exact absurd hqc hu.2
    | cons c r =>
      rw [List.cons_append]
      unfold readLoop
      have hp : d.qc.isPrefixOf (c :: (r ++ k)) = true := by
        rw [pfx_iff, hqc]; exact List.prefix_append (c :: r) k
      rw [if_neg (by
        rw [hp, hn, he]; intro h; rcases h.2 with h | h | h
        · exact h rfl
        · omega
        · cases h)]
      unfold finish
      rw [List.append_nil]
      have hl : d.qc.length ≤ (c :: (r ++ k)).length := (pfx_iff.1 hp).length_le
      rw [if_pos hl]
      have : (c :: (r ++ k)).drop d.qc.length = k := by
        rw [hqc, ← List.cons_append, List.drop_left']
        rfl
      rw [this]
  | cons c s ih =>
    have h9 : st.acc.length + 10 < st.mem := by unfold Room at hroom; rw [he] at hroom; simpa using hroom
    have hpart := hs.part (c :: s) (List.suffix_refl _) (by simp)
    have one : ∀ b : UInt8, st.acc.length + [b].length ≤ st.mem := by intro b; simp; omega
    have step : ∀ (b : UInt8) (hb : b = c) (e : Bool),
        readLoop d false 0 (RS.next { acc := st.acc ++ [b], mem := st.mem, nest := st.nest, esc := e })
          (enc d s ++ (d.qc ++ k)) = .ok (st.acc ++ c :: s, k) := by
      intro b hb e
      subst hb
      rw [ih _ hs.tail (room_next (st := { acc := st.acc, mem := st.mem, nest := st.nest, esc := e })
        (bs := [b]) (by dsimp only; omega) (by simp) st.nest) hn rfl]
      unfold RS.next
      dsimp only
      rw [List.append_assoc]; rfl
    rw [enc_cons]
    by_cases hq : qAt d (c :: s) = true
    · rw [if_pos hq]
      rw [List.cons_append, List.cons_append]
      generalize hrest : enc d s ++ (d.qc ++ k) = rest at step ⊢
      have hlen : d.qc.length ≤ rest.length := by
        rw [← hrest, List.length_append, List.length_append]; omega
      unfold readLoop
      have hnp : ¬ d.qc.isPrefixOf (92 :: c :: rest) = true := by
        rw [pfx_iff]
        intro h
        have := head_mem_take hu.2 h
        exact hqc92 92 (List.mem_of_mem_take this) rfl
      rw [if_pos ⟨by simp only [List.length_cons]; omega, Or.inl hnp⟩]
      have hr1 : rstep d false st 92 (c :: rest) = .ok ({ st with esc := true }, 0) := by
        unfold rstep
        rw [he]; rfl
      rw [hr1]
      dsimp only
      unfold readLoop
      rw [if_pos ⟨by simp only [List.length_cons]; omega, Or.inr (Or.inr rfl)⟩]
      have hcm : c ∈ d.qo.take 1 ++ d.qc.take 1 := by
        unfold qAt at hq
        rw [Bool.or_eq_true, pfx_iff, pfx_iff] at hq
        rcases hq with hq | hq
        · exact List.mem_append_left _ (head_mem_take hu.1 hq)
        · exact List.mem_append_right _ (head_mem_take hu.2 hq)
      have hr2 : rstep d false { st with esc := true } c rest =
          .ok (RS.next { acc := st.acc ++ [c], mem := st.mem, nest := st.nest, esc := true }, 0) := by
        unfold rstep
        rw [if_neg (by simp), if_pos rfl, unescape_other (g2 c hcm), write_ok (by exact one c)]
        rfl
      rw [hr2]
      exact step c rfl true
    · rw [if_neg hq]
      have hqn : ¬ d.qo <+: c :: s ∧ ¬ d.qc <+: c :: s := by
        unfold qAt at hq
        rw [Bool.or_eq_true, pfx_iff, pfx_iff, not_or] at hq
        exact hq
      have henc : enc d (c :: s) = c :: enc d s := by rw [enc_cons, if_neg hq]
      have n1 : d.qo.isPrefixOf (c :: (enc d s ++ (d.qc ++ k))) = false := by
        rw [pfx_false, ← List.cons_append, ← henc]
        exact not_prefix_enc hqo92 hqn.1 hpart.1
      have n2 : d.qc.isPrefixOf (c :: (enc d s ++ (d.qc ++ k))) = false := by
        rw [pfx_false, ← List.cons_append, ← henc]
        exact not_prefix_enc hqc92 hqn.2 hpart.2
      have n3 : ∀ S ∈ [nlSym, tabSym], S.isPrefixOf (c :: (enc d s ++ (d.qc ++ k))) = false := by
        intro S hS
        have := hs.sym (c :: s) (List.suffix_refl _) (by simp) S hS
        rw [pfx_false, ← List.cons_append, ← henc]
        exact not_prefix_enc (sym92 S hS) this.1 (fun h => absurd h this.2)
      rw [List.cons_append]
      generalize hrest : enc d s ++ (d.qc ++ k) = rest at *
      have hlen : d.qc.length ≤ rest.length := by
        rw [← hrest, List.length_append, List.length_append]; omega
      unfold readLoop
      rw [if_pos ⟨by simp only [List.length_cons]; omega, Or.inl (by rw [n2]; simp)⟩]
      have hr : rstep d false st c rest =
          .ok (RS.next { acc := st.acc ++ [c], mem := st.mem, nest := st.nest, esc := false }, 0) := by
        unfold rstep
        have hc : ¬ (c == 92 && !st.esc) = true := by
          rw [Bool.and_eq_true, beq_iff_eq]
          exact fun h => hs.bytes c List.mem_cons_self h.1
        rw [if_neg hc, he, if_neg (by simp), n3 nlSym (by simp), n3 tabSym (by simp), n1, n2, if_neg (by simp),
          if_neg (by simp), if_neg (by simp), if_neg (by simp), write_ok (one c), he]
        rfl
      rw [hr]
      exact step c rfl false

theorem readstr_enc (d : Dict) (hu : d.qo ≠ [] ∧ d.qc ≠ []) (hg : GoodQuotes d) (k s : Text) (hs : Fit d s) :
    readstr d false (enc d s ++ (d.qc ++ k)) = .ok (s, k) :=
  readLoop_enc d hu hg k s _ hs (by unfold Room; simp) rfl rfl

theorem suffix_drop {u t : Text} (h : u <:+ t) (hu : u ≠ []) : ∃ i, i < t.length ∧ t.drop i = u := by
  obtain ⟨a, rfl⟩ := h
  refine ⟨a.length, ?_, by rw [List.drop_left']; rfl⟩
  have := List.length_pos_iff.2 hu
  rw [List.length_append]; omega

theorem fit_of_survives {d : Dict} {t : Text} (h : Survives d t) : Fit d t := by
  obtain ⟨h1, h2, h3, h4⟩ := h
  refine ⟨fun x hx => (h1 x hx).2, ?_, ?_⟩
  · intro u hu hn
    obtain ⟨i, hi, rfl⟩ := suffix_drop hu hn
    exact ⟨fun hp => h3 i hi d.qo (by simp) (pfx_iff.2 hp), fun hp => h3 i hi d.qc (by simp) (pfx_iff.2 hp)⟩
  · intro u hu hn S hS
    obtain ⟨i, hi, rfl⟩ := suffix_drop hu hn
    have := h2 i hi S hS
    rw [pfx_false, pfx_false] at this
    exact this

theorem qpos_mem {d : Dict} {i : Nat} {s : Text} {q : Nat} (h : q ∈ qpos d i s) :
    ∃ j, j < s.length ∧ q = i + j ∧ quoteAt d s j = true := by
  induction s generalizing i with
  | nil => cases h
  | cons c s ih =>
    unfold qpos at h
    have tail : q ∈ qpos d (i + 1) s → ∃ j, j < (c :: s).length ∧ q = i + j ∧ quoteAt d (c :: s) j = true := by
      intro h
      obtain ⟨j, h1, h2, h3⟩ := ih h
      exact ⟨j + 1, by simp only [List.length_cons]; omega, by omega, h3⟩
    split at h
    · rename_i hq
      rcases List.mem_cons.1 h with h | h
      · exact ⟨0, by simp, by omega, hq⟩
      · exact tail h
    · exact tail h

theorem takeWhile_all {l : Text} (h : ∀ x ∈ l, x ≠ 0) : l.takeWhile (· != 0) = l := by
  induction l with
  | nil => rfl
  | cons a b ih =>
    rw [List.takeWhile_cons, if_pos (by simpa using h a List.mem_cons_self), ih (fun x hx => h x (List.mem_cons_of_mem _ hx))]

theorem toCode_eq (d : Dict) (hg : GoodQuotes d) {t : Text} (h : Survives d t) :
    toCode d t = .ok (d.qo ++ enc d t ++ d.qc) := by
  unfold toCode
  rw [quotePositions_eq d 0 t (fit_of_survives h).part, Out.ok_bind, escapeLoop_eq, takeWhile_all]
  · intro x hx
    rcases List.mem_append.1 hx with hx | hx
    · rcases List.mem_append.1 hx with hx | hx
      · exact (hg.1 x (List.mem_append_left _ hx)).2
      · rcases enc_mem hx with hx | hx
        · rw [hx]; decide
        · exact (h.1 x hx).1
    · exact (hg.1 x (List.mem_append_right _ hx)).2
  · intro q hq
    obtain ⟨j, h1, h2, h3⟩ := qpos_mem hq
    have := h.2.2.2 j h1 h3
    omega

theorem scan_quote (d : Dict) (hu : d.qo ≠ []) (hg : GoodQuotes d) (k : Text) :
    scan d (skip false (d.qo ++ k)) = .ok (.quote, [], k) := by
  obtain ⟨_, _, g3, g4, _, _⟩ := hg
  cases hqo : d.qo with
  | nil => exact absurd hqo hu
  | cons c r =>
    have hc := g3 c (by rw [hqo]; simp)
    rw [List.cons_append]
    simp only [List.mem_cons, List.not_mem_nil, or_false, not_or] at hc
    obtain ⟨hb, h35, h40, h41, h123, h125, h58, hp⟩ := hc
    have hsk : skip false (c :: (r ++ k)) = c :: (r ++ k) := by
      unfold skip
      rw [isSpace_eq, hb]
      simp only [Bool.false_eq_true, if_false, beq_iff_eq, h35]
    rw [hsk]
    have hK : ∀ K ∈ [d.eol, d.chain, d.assign, d.ret], K.isPrefixOf (c :: (r ++ k)) = false := by
      intro K hK
      have hk := g4 K hK
      rw [pfx_false, pfx_false, hqo] at hk
      rw [pfx_false]
      intro h
      have h2 : c :: r <+: c :: (r ++ k) := List.prefix_append (c :: r) k
      by_cases hl : K.length ≤ (c :: r).length
      · exact hk.1 (List.prefix_of_prefix_length_le h h2 hl)
      · exact hk.2 (List.prefix_of_prefix_length_le h2 h (by omega))
    have hce : ([58, 61] : Text).isPrefixOf (c :: (r ++ k)) = false := by
      rw [List.isPrefixOf_cons_cons, Bool.and_eq_false_iff]
      exact Or.inl (by simpa using fun h => h58 h.symm)
    have hq : d.qo.isPrefixOf (c :: (r ++ k)) = true := by
      rw [pfx_iff, hqo]; exact List.prefix_append (c :: r) k
    unfold scan
    simp only [beq_iff_eq, h40, h41, h123, h125, hK d.eol (by simp), hK d.chain (by simp), hK d.assign (by simp),
      hK d.ret (by simp), hce, hp, hq, if_false, if_true, Bool.false_eq_true, Bool.false_and]
    rw [hqo, ← List.cons_append, List.drop_left']
    rfl

/-! ## Nested quotes -/

theorem readLoop_skip (d : Dict) (ig : Bool) (k : Nat) (st : RS) (a b : Text) (h : a.length = k) :
    readLoop d ig k st (a ++ b) = readLoop d ig 0 st b := by
  induction a generalizing k with
  | nil => cases h; rfl
  | cons c a ih =>
    cases k with
    | zero => simp at h
    | succ k =>
      rw [List.cons_append]
      show readLoop d ig k st (a ++ b) = _
      exact ih k (by simpa using h)

theorem apart_append {A B m : Text} (h1 : A.isPrefixOf B = false) (h2 : B.isPrefixOf A = false) :
    A.isPrefixOf (B ++ m) = false := by
  rw [pfx_false] at *
  intro h
  by_cases hl : A.length ≤ B.length
  · exact h1 (List.prefix_of_prefix_length_le h (List.prefix_append _ _) hl)
  · exact h2 (List.prefix_of_prefix_length_le (List.prefix_append B m) h (by omega))

/-- One round on an opening or closing quote inside of a text. -/
theorem readLoop_quote (d : Dict) (hu : d.qo ≠ [] ∧ d.qc ≠ []) (hg : GoodQuotes d) (ha : ApartQuotes d) (m : Text)
    (st : RS) (hroom : Room st) (he : st.esc = false) :
    (d.qc.length ≤ m.length → readLoop d false 0 st (d.qo ++ m) =
      readLoop d false 0 (RS.next { acc := st.acc ++ d.qo, mem := st.mem, nest := st.nest + 1, esc := false }) m) ∧
    (0 < m.length → 0 < st.nest → readLoop d false 0 st (d.qc ++ m) =
      readLoop d false 0 (RS.next { acc := st.acc ++ d.qc, mem := st.mem, nest := st.nest - 1, esc := false }) m) := by
  obtain ⟨g1, _, _, _, g5, g6⟩ := hg
  obtain ⟨a1, a2, a3⟩ := ha
  have h10 : st.acc.length + 10 < st.mem := by unfold Room at hroom; rw [he] at hroom; simpa using hroom
  have n1 := a3 nlSym (by simp [nlSym])
  have n2 := a3 tabSym (by simp [tabSym])
  constructor
  · intro hl
    cases hqo : d.qo with
    | nil => exact absurd hqo hu.1
    | cons c r =>
      have hc : ¬ (c == 92 && !st.esc) = true := by
        rw [Bool.and_eq_true, beq_iff_eq]
        exact fun h => (g1 c (by rw [hqo]; simp)).1 h.1
      have e1 : nlSym.isPrefixOf (c :: (r ++ m)) = false := by
        have h := n1 d.qo (by simp)
        rw [hqo] at h
        exact apart_append (B := c :: r) h.1 h.2
      have e2 : tabSym.isPrefixOf (c :: (r ++ m)) = false := by
        have h := n2 d.qo (by simp)
        rw [hqo] at h
        exact apart_append (B := c :: r) h.1 h.2
      have e3 : d.qc.isPrefixOf (c :: (r ++ m)) = false := by
        rw [hqo] at a1 a2
        exact apart_append (B := c :: r) a2 a1
      have e4 : d.qo.isPrefixOf (c :: (r ++ m)) = true := by
        rw [pfx_iff, hqo]; exact List.prefix_append (c :: r) m
      rw [List.cons_append]
      have hlen : d.qo.length = r.length + 1 := by rw [hqo]; rfl
      have hr : rstep d false st c (r ++ m) =
          .ok (RS.next { acc := st.acc ++ d.qo, mem := st.mem, nest := st.nest + 1, esc := false }, r.length) := by
        unfold rstep
        rw [if_neg hc, he, if_neg (by simp), e1, e2, e3, e4, if_neg (by simp), if_neg (by simp), if_neg (by simp),
          if_pos rfl, write_ok (by omega), Out.ok_bind, hlen]
        simp only [he, Bool.false_eq_true, if_false, Nat.add_sub_cancel]
      conv => lhs; unfold readLoop
      rw [if_pos ⟨by simp only [List.length_cons, List.length_append]; omega, Or.inl (by rw [e3]; simp)⟩, hr]
      dsimp only
      rw [hqo]
      exact readLoop_skip d false r.length _ r m rfl
  · intro hl hn
    cases hqc : d.qc with
    | nil => exact absurd hqc hu.2
    | cons c r =>
      have hc : ¬ (c == 92 && !st.esc) = true := by
        rw [Bool.and_eq_true, beq_iff_eq]
        exact fun h => (g1 c (by rw [hqc]; simp)).1 h.1
      have e1 : nlSym.isPrefixOf (c :: (r ++ m)) = false := by
        have h := n1 d.qc (by simp)
        rw [hqc] at h
        exact apart_append (B := c :: r) h.1 h.2
      have e2 : tabSym.isPrefixOf (c :: (r ++ m)) = false := by
        have h := n2 d.qc (by simp)
        rw [hqc] at h
        exact apart_append (B := c :: r) h.1 h.2
      have e3 : d.qc.isPrefixOf (c :: (r ++ m)) = true := by
        rw [pfx_iff, hqc]; exact List.prefix_append (c :: r) m
      rw [List.cons_append]
      have hlen : d.qc.length = r.length + 1 := by rw [hqc]; rfl
      have hr : rstep d false st c (r ++ m) =
          .ok (RS.next { acc := st.acc ++ d.qc, mem := st.mem, nest := st.nest - 1, esc := false }, r.length) := by
        unfold rstep
        rw [if_neg hc, he, if_neg (by simp), e1, e2, e3, if_neg (by simp), if_neg (by simp),
          if_pos rfl, write_ok (by omega), Out.ok_bind, hlen]
        simp only [he, Bool.false_eq_true, if_false, Nat.add_sub_cancel]
      conv => lhs; unfold readLoop
      rw [if_pos ⟨by simp only [List.length_cons, List.length_append]; omega, Or.inr (Or.inl hn)⟩, hr]
      dsimp only
      rw [hqc]
      exact readLoop_skip d false r.length _ r m rfl

theorem readLoop_nested (d : Dict) (hu : d.qo ≠ [] ∧ d.qc ≠ []) (hg : GoodQuotes d) (ha : ApartQuotes d)
    {body after : Text} (h : Nested d body after) (hl : d.qc.length ≤ after.length)
    (st : RS) (hroom : Room st) (he : st.esc = false) :
    ∃ st' : RS, readLoop d false 0 st (body ++ after) = readLoop d false 0 st' after ∧ st'.acc = st.acc ++ body ∧
      st'.nest = st.nest ∧ st'.esc = false ∧ Room st' := by
  have hqcpos : 0 < d.qc.length := List.length_pos_iff.2 hu.2
  induction h generalizing st with
  | nil after => exact ⟨st, rfl, by rw [List.append_nil], rfl, he, hroom⟩
  | @byte c body after hc hn _ ih =>
    have h10 : st.acc.length + 10 < st.mem := by unfold Room at hroom; rw [he] at hroom; simpa using hroom
    have hroom' : Room (RS.next { acc := st.acc ++ [c], mem := st.mem, nest := st.nest, esc := st.esc }) :=
      room_next (st := st) (bs := [c]) (by omega) (by simp) st.nest
    obtain ⟨st', h1, h2, h3, h4, h5⟩ := ih hl _ hroom' rfl
    refine ⟨st', ?_, ?_, h3, h4, h5⟩
    · rw [← h1, List.cons_append]
      unfold startsNone at hn
      simp only [List.all_cons, List.all_nil, Bool.and_true, Bool.and_eq_true, Bool.not_eq_true', List.cons_append] at hn
      obtain ⟨n1, n2, n3, n4⟩ := hn
      conv => lhs; unfold readLoop
      rw [if_pos ⟨by simp only [List.length_cons, List.length_append]; omega, Or.inl (by rw [n2]; simp)⟩]
      have hr : rstep d false st c (body ++ after) =
          .ok (RS.next { acc := st.acc ++ [c], mem := st.mem, nest := st.nest, esc := st.esc }, 0) := by
        unfold rstep
        have hc' : ¬ (c == 92 && !st.esc) = true := by
          rw [Bool.and_eq_true, beq_iff_eq]
          exact fun h => hc h.1
        have n3' : nlSym.isPrefixOf (c :: (body ++ after)) = false := n3
        have n4' : tabSym.isPrefixOf (c :: (body ++ after)) = false := n4
        rw [if_neg hc', he, if_neg (by simp), n3', n4', n1, n2, if_neg (by simp),
          if_neg (by simp), if_neg (by simp), if_neg (by simp), write_ok (by simp; omega), he]
        rfl
      rw [hr]
    · rw [h2]
      unfold RS.next
      simp
  | @quoted b rest after _ _ ihb ihr =>
    have h10 : st.acc.length + 10 < st.mem := by unfold Room at hroom; rw [he] at hroom; simpa using hroom
    have hl1 : d.qc.length ≤ (d.qc ++ rest ++ after).length := by
      rw [List.length_append, List.length_append]; omega
    have hroom1 : Room (RS.next { acc := st.acc ++ d.qo, mem := st.mem, nest := st.nest + 1, esc := false }) :=
      room_next (st := { st with esc := false }) (bs := d.qo) (by dsimp only; omega) hg.2.2.2.2.1 _
    obtain ⟨s1, p1, p2, p3, p4, p5⟩ := ihb hl1 _ hroom1 rfl
    have h10' : s1.acc.length + 10 < s1.mem := by unfold Room at p5; rw [p4] at p5; simpa using p5
    have hroom2 : Room (RS.next { acc := s1.acc ++ d.qc, mem := s1.mem, nest := s1.nest - 1, esc := false }) :=
      room_next (st := { s1 with esc := false }) (bs := d.qc) (by dsimp only; omega) hg.2.2.2.2.2 _
    obtain ⟨s2, q1, q2, q3, q4, q5⟩ := ihr hl _ hroom2 rfl
    refine ⟨s2, ?_, ?_, ?_, q4, q5⟩
    · have e : d.qo ++ b ++ d.qc ++ rest ++ after = d.qo ++ (b ++ (d.qc ++ rest ++ after)) := by
        simp only [List.append_assoc]
      rw [e, (readLoop_quote d hu hg ha _ st hroom he).1 (by simp only [List.length_append]; omega), p1,
        List.append_assoc, (readLoop_quote d hu hg ha _ s1 p5 p4).2 (by simp only [List.length_append]; omega) (by
          rw [p3]; unfold RS.next; dsimp only; omega), q1]
    · rw [q2]
      unfold RS.next
      dsimp only
      rw [p2]
      unfold RS.next
      dsimp only
      simp only [List.append_assoc]
    · rw [q3]
      unfold RS.next
      dsimp only
      rw [p3]
      unfold RS.next
      dsimp only
      omega

theorem readstr_nested (d : Dict) (hu : d.qo ≠ [] ∧ d.qc ≠ []) (hg : GoodQuotes d) (ha : ApartQuotes d)
    {body k : Text} (h : Nested d body (d.qc ++ k)) : readstr d false (body ++ (d.qc ++ k)) = .ok (body, k) := by
  unfold readstr
  obtain ⟨st', h1, h2, h3, h4, h5⟩ := readLoop_nested d hu hg ha h (by rw [List.length_append]; omega)
    ⟨[], 100, 0, false⟩ (by unfold Room; simp) rfl
  rw [h1]
  have := readLoop_enc d hu hg k [] st' ⟨(fun x hx => by cases hx),
    (fun u hu hn => absurd (List.suffix_nil.1 hu) hn), (fun u hu hn => absurd (List.suffix_nil.1 hu) hn)⟩ h5 h3 h4
  rw [show enc d [] = [] from rfl, List.nil_append, h2, List.nil_append, List.append_nil] at this
  exact this

end Verif.Model.Lexer
