import Verif.Lemmas.JsonRun

/-!
# Both passes of the tokenizer over any text: lemmas
-/

namespace Verif.Lemmas.Json
open Verif Verif.Spec.Json Verif.Model.Json
open Verif.Model (Text)

/-- What holds for the tokens whenever a round begins: as many as were counted, no more than there is room for, the parent is one
of them, parents come before their children, and every token is a part of the text that begins before the position. -/
structure Inv (js : Text) (k : Nat) (s : St) : Prop where
  len : s.toks.length = s.count
  room : s.count ≤ k
  sup : ∀ i, s.super = some i → i < s.toks.length
  par : ∀ (i : Nat) (t : Tok), s.toks[i]? = some t → ∀ j, t.parent = some j → j < i
  start : ∀ t ∈ s.toks, t.start ≤ s.pos
  fin : ∀ t ∈ s.toks, ∀ e, t.fin = some e → t.start ≤ e ∧ e ≤ js.length

/-- The state of the first pass. -/
def blind (s : St) : St := ⟨s.pos, [], none, s.count⟩

theorem map_add_some {o : Option Nat} {m n : Nat} (h : o.map (· + m) = some n) : ∃ j, o = some j ∧ n = j + m := by
  cases o with
  | none => cases h
  | some j => injection h with h; exact ⟨j, rfl, h.symm⟩

theorem primLength_le (t : Text) (n : Nat) (h : primLength t = some n) : n ≤ t.length := by
  induction t generalizing n with
  | nil => simp [primLength] at h
  | cons c t ih =>
    unfold primLength at h
    split at h
    · injection h with h; omega
    · split at h
      · cases h
      · obtain ⟨j, h1, h2⟩ := map_add_some h
        have := ih j h1
        simp only [List.length_cons]
        omega

theorem primLength_pos (c : UInt8) (t : Text) (n : Nat) (hc : c = 45 ∨ (48 ≤ c.toNat ∧ c.toNat ≤ 57) ∨ c = 116 ∨ c = 102 ∨ c = 110)
    (h : primLength (c :: t) = some n) : 1 ≤ n := by
  unfold primLength at h
  rw [if_neg] at h
  · split at h
    · cases h
    · obtain ⟨j, h1, h2⟩ := map_add_some h
      omega
  · intro hm
    simp only [List.mem_cons, List.not_mem_nil, or_false] at hm
    rcases hm with rfl | rfl | rfl | rfl | rfl | rfl | rfl <;> revert hc <;> decide

theorem stringLength_lt (h : Nat) (t : Text) : ∀ n, stringLength h t = some n → n < t.length := by
  fun_induction stringLength h t <;> intro n hn
  all_goals first
    | (cases hn; done)
    | (injection hn with hn; simp only [List.length_cons]; omega)
    | (rename_i ih
       obtain ⟨j, h1, h2⟩ := map_add_some hn
       have := ih j h1
       simp only [List.length_cons]
       omega)

/-- A change of tokens that keeps the invariant. -/
theorem Inv.setTok {js : Text} {k : Nat} {s : St} (h : Inv js k s) {i : Nat} {t t' : Tok} (ht : s.toks[i]? = some t)
    (hp : t'.parent = t.parent) (hs : t'.start = t.start) (hf : ∀ e, t'.fin = some e → t'.start ≤ e ∧ e ≤ js.length) :
    Inv js k { s with toks := s.toks.set i t' } := by
  have hil : i < s.toks.length := by
    rcases Nat.lt_or_ge i s.toks.length with h | h
    · exact h
    · rw [List.getElem?_eq_none h] at ht; cases ht
  refine ⟨by simpa using h.len, h.room, by simpa using h.sup, ?_, ?_, ?_⟩
  · intro j u hu l hl
    dsimp only at hu
    rw [List.getElem?_set] at hu
    split at hu
    · rename_i e
      injection hu with hu
      subst hu
      rw [hp] at hl
      exact e ▸ h.par i t ht l hl
    · exact h.par j u hu l hl
  · intro u hu
    rcases List.mem_or_eq_of_mem_set hu with hu | hu
    · exact h.start u hu
    · subst hu
      rw [hs]
      exact h.start t (List.mem_of_getElem? ht)
  · intro u hu
    rcases List.mem_or_eq_of_mem_set hu with hu | hu
    · exact h.fin u hu
    · subst hu
      exact hf

/-- A new token keeps the invariant. -/
theorem Inv.add {js : Text} {k : Nat} {s : St} (h : Inv js k s) {t : Tok} (hk : s.toks.length < k) (hp : t.parent = s.super)
    (hf : ∀ e, t.fin = some e → t.start ≤ e ∧ e ≤ js.length) (p : Nat) (hs : t.start ≤ p) (hsp : s.pos ≤ p) :
    Inv js k { s with toks := s.toks ++ [t], count := s.count + 1, pos := p } := by
  have hl := h.len
  refine ⟨by simp [h.len], by dsimp only; omega, ?_, ?_, ?_, ?_⟩
  · intro i hi
    have := h.sup i hi
    simp only [List.length_append]
    omega
  · intro i u hu j hj
    dsimp only at hu
    rw [List.getElem?_append] at hu
    split at hu
    · exact h.par i u hu j hj
    · rename_i hi
      have he : i = s.toks.length := by
        rcases Nat.lt_trichotomy i s.toks.length with x | x | x
        · omega
        · exact x
        · rw [List.getElem?_eq_none (by simp; omega)] at hu; cases hu
      subst he
      simp at hu
      subst hu
      rw [hp] at hj
      exact h.sup j hj
  · intro u hu
    rcases List.mem_append.1 hu with hu | hu
    · exact Nat.le_trans (h.start u hu) hsp
    · rw [List.mem_singleton] at hu
      subst hu
      exact hs
  · intro u hu
    rcases List.mem_append.1 hu with hu | hu
    · exact h.fin u hu
    · rw [List.mem_singleton] at hu
      subst hu
      exact hf

theorem Inv.bumped {js : Text} {k : Nat} {s : St} (h : Inv js k s) : ∃ s', bumpSuper (some k) s = .ok s' ∧ Inv js k s' ∧
    s'.pos = s.pos ∧ s'.count = s.count ∧ s'.super = s.super ∧ s'.toks.length = s.toks.length := by
  unfold bumpSuper
  cases hs : s.super with
  | none => exact ⟨s, rfl, h, rfl, rfl, hs, rfl⟩
  | some i =>
    have hi := h.sup i hs
    dsimp only
    unfold bump
    have ht : s.toks[i]? = some s.toks[i] := by simp [hi]
    rw [ht]
    have hf := h.fin _ (List.mem_of_getElem? ht)
    exact ⟨_, rfl, h.setTok ht rfl rfl hf, rfl, rfl, hs, by simp⟩

theorem Inv.closed {js : Text} {k : Nat} {s : St} (h : Inv js k s) (hp : s.pos < js.length)
    (kind : Kind) : ∀ fuel i, i < fuel → i < s.toks.length → ∃ r, close kind s fuel i = .ok r ∧ ∀ s', r = some s' →
    Inv js k s' ∧ s'.pos = s.pos ∧ s'.count = s.count := by
  intro fuel
  induction fuel with
  | zero => intro i hi; omega
  | succ fuel ih =>
    intro i hi hl
    unfold close
    have ht : s.toks[i]? = some s.toks[i] := by simp [hl]
    rw [ht]
    dsimp only
    split
    · split
      · exact ⟨none, rfl, fun s' h => by cases h⟩
      · refine ⟨_, rfl, ?_⟩
        intro s' hs'
        injection hs' with hs'
        subst hs'
        have hm := List.mem_of_getElem? ht
        have h1 := h.setTok (t' := { s.toks[i] with fin := some (s.pos + 1) }) ht rfl rfl (by
          intro e he
          injection he with he
          have := h.start _ hm
          dsimp only
          omega)
        refine ⟨⟨h1.len, h1.room, ?_, h1.par, h1.start, h1.fin⟩, rfl, rfl⟩
        intro j hj
        have := h.par i _ ht j hj
        simp only [List.length_set]
        omega
    · cases hpar : s.toks[i].parent with
      | none =>
        dsimp only
        split
        · exact ⟨none, rfl, fun s' h => by cases h⟩
        · refine ⟨some s, rfl, ?_⟩
          intro s' hs'
          injection hs' with hs'
          subst hs'
          exact ⟨h, rfl, rfl⟩
      | some j =>
        have := h.par i _ ht j hpar
        exact ih j (by omega) (by omega)

/-- One round. -/
theorem Inv.round {js : Text} {k : Nat} {s : St} (h : Inv js k s) {c : UInt8} {rest : Text}
    (hd : js.drop s.pos = c :: rest) : ∃ r, Model.Json.round (some k) c (c :: rest) s = .ok r ∧ ∀ s', r = some s' →
    Inv js k s' ∧ s.pos ≤ s'.pos ∧ Model.Json.round none c (c :: rest) (blind s) = .ok (some (blind s')) := by
  have hlen : js.length = s.pos + rest.length + 1 := by
    have := congrArg List.length hd
    simp only [List.length_drop, List.length_cons] at this
    omega
  unfold Model.Json.round
  split
  · -- an opening bracket
    dsimp only
    unfold alloc
    dsimp only
    by_cases hk : s.toks.length ≥ k
    · rw [if_pos hk]; exact ⟨none, rfl, fun s' h => by cases h⟩
    · rw [if_neg hk]
      dsimp only
      have h1 := h.add (t := ⟨if c = 123 then .obj else .arr, s.pos, none, 0, s.super⟩) (by omega) rfl
        (by intro e he; cases he) s.pos (Nat.le_refl _) (Nat.le_refl _)
      obtain ⟨s', e1, h2, e2, e3, e4, e5⟩ := h1.bumped
      have e1' : bumpSuper (some k) ⟨s.pos, s.toks ++ [⟨if c = 123 then .obj else .arr, s.pos, none, 0, s.super⟩], s.super, s.count + 1⟩ = .ok s' := e1
      rw [e1']
      refine ⟨_, rfl, ?_⟩
      intro s'' hs''
      injection hs'' with hs''
      subst hs''
      have hle : s'.toks.length = s.toks.length + 1 := by rw [e5]; simp
      refine ⟨⟨h2.len, h2.room, ?_, h2.par, h2.start, h2.fin⟩, by dsimp only; rw [e2]; exact Nat.le_refl _, ?_⟩
      · intro i hi; injection hi with hi; dsimp only; omega
      · unfold blind; dsimp only; rw [e2, e3]
  · split
    · -- a closing bracket
      dsimp only
      split
      · exact ⟨none, rfl, fun s' h => by cases h⟩
      · obtain ⟨r, e1, e2⟩ := h.closed (by omega) (if c = 125 then .obj else .arr) s.toks.length (s.toks.length - 1) (by omega) (by omega)
        refine ⟨r, e1, ?_⟩
        intro s' hs'
        obtain ⟨h1, h2, h3⟩ := e2 s' hs'
        exact ⟨h1, by omega, by unfold blind; rw [h2, h3]⟩
    · split
      · -- a text
        unfold parseString
        rw [List.drop_one, List.tail_cons]
        cases hn : stringLength 0 rest with
        | none => exact ⟨none, rfl, fun s' h => by cases h⟩
        | some n =>
          have hlt := stringLength_lt 0 rest n hn
          dsimp only
          unfold alloc
          by_cases hk : s.toks.length ≥ k
          · rw [if_pos hk]; exact ⟨none, rfl, fun s' h => by cases h⟩
          · rw [if_neg hk]
            have h1 := h.add (t := ⟨.str, s.pos + 1, some (s.pos + 1 + n), 0, s.super⟩) (by omega) rfl
              (by intro e he; injection he with he; dsimp only; omega) (s.pos + 1 + n) (by dsimp only; omega) (by omega)
            obtain ⟨s', e1, h2, e2, e3, e4, e5⟩ := h1.bumped
            rw [Option.map_some]
            dsimp only
            have e1' : bumpSuper (some k) ⟨s.pos + 1 + n, s.toks ++ [⟨.str, s.pos + 1, some (s.pos + 1 + n), 0, s.super⟩], s.super, s.count + 1⟩ = .ok s' := e1
            rw [e1']
            refine ⟨_, rfl, ?_⟩
            intro s'' hs''
            injection hs'' with hs''
            subst hs''
            refine ⟨h2, by rw [e2]; dsimp only; omega, ?_⟩
            unfold blind
            rw [e2, e3]
            rfl
      · split
        · refine ⟨_, rfl, ?_⟩
          intro s' hs'; injection hs' with hs'; subst hs'
          exact ⟨h, Nat.le_refl _, rfl⟩
        · split
          · refine ⟨_, rfl, ?_⟩
            intro s' hs'; injection hs' with hs'; subst hs'
            refine ⟨⟨h.len, h.room, ?_, h.par, h.start, h.fin⟩, Nat.le_refl _, rfl⟩
            intro i hi
            dsimp only at hi ⊢
            split at hi
            · cases hi
            · injection hi with hi; omega
          · split
            · -- a comma
              cases hs : s.super with
              | none =>
                refine ⟨_, rfl, ?_⟩
                intro s' hs'; injection hs' with hs'; subst hs'
                exact ⟨h, Nat.le_refl _, rfl⟩
              | some i =>
                have hi := h.sup i hs
                have ht : s.toks[i]? = some s.toks[i] := by simp [hi]
                dsimp only
                rw [ht]
                dsimp only
                split
                · refine ⟨_, rfl, ?_⟩
                  intro s' hs'; injection hs' with hs'; subst hs'
                  refine ⟨⟨h.len, h.room, ?_, h.par, h.start, h.fin⟩, Nat.le_refl _, rfl⟩
                  intro j hj
                  have := h.par i _ ht j hj
                  dsimp only
                  omega
                · refine ⟨_, rfl, ?_⟩
                  intro s' hs'; injection hs' with hs'; subst hs'
                  exact ⟨h, Nat.le_refl _, rfl⟩
            · split
              · -- a primitive
                rename_i hc
                have hm : ∃ b, misplaced (some k) s = .ok b := by
                  unfold misplaced
                  cases hs : s.super with
                  | none => exact ⟨_, rfl⟩
                  | some i =>
                    have hi := h.sup i hs
                    have ht : s.toks[i]? = some s.toks[i] := by simp [hi]
                    dsimp only
                    rw [ht]
                    exact ⟨_, rfl⟩
                obtain ⟨b, hb⟩ := hm
                rw [hb, Out.ok_bind]
                cases b with
                | true => exact ⟨none, rfl, fun s' h => by cases h⟩
                | false =>
                  rw [if_neg (by decide)]
                  have hb' : misplaced none (blind s) = .ok false := rfl
                  rw [hb', Out.ok_bind, if_neg (by decide)]
                  unfold parsePrimitive
                  cases hn : primLength (c :: rest) with
                  | none => exact ⟨none, rfl, fun s' h => by cases h⟩
                  | some n =>
                    have hle := primLength_le _ n hn
                    have hpos := primLength_pos c rest n hc hn
                    rw [List.length_cons] at hle
                    dsimp only
                    unfold alloc
                    by_cases hk : s.toks.length ≥ k
                    · rw [if_pos hk]; exact ⟨none, rfl, fun s' h => by cases h⟩
                    · rw [if_neg hk]
                      have h1 := h.add (t := ⟨.prim, s.pos, some (s.pos + n), 0, s.super⟩) (by omega) rfl
                        (by intro e he; injection he with he; dsimp only; omega) (s.pos + n - 1) (by dsimp only; omega) (by omega)
                      obtain ⟨s', e1, h2, e2, e3, e4, e5⟩ := h1.bumped
                      rw [Option.map_some]
                      dsimp only
                      have e1' : bumpSuper (some k) ⟨s.pos + n - 1, s.toks ++ [⟨.prim, s.pos, some (s.pos + n), 0, s.super⟩], s.super, s.count + 1⟩ = .ok s' := e1
                      rw [e1']
                      refine ⟨_, rfl, ?_⟩
                      intro s'' hs''
                      injection hs'' with hs''
                      subst hs''
                      refine ⟨h2, by rw [e2]; dsimp only; omega, ?_⟩
                      unfold blind
                      rw [e2, e3]
                      rfl
              · exact ⟨none, rfl, fun s' h => by cases h⟩

theorem Inv.next {js : Text} {k : Nat} {s : St} (h : Inv js k s) : Inv js k { s with pos := s.pos + 1 } :=
  ⟨h.len, h.room, h.sup, h.par, fun t ht => Nat.le_succ_of_le (h.start t ht), h.fin⟩

theorem Inv.begin (js : Text) (k : Nat) : Inv js k Model.Json.start :=
  { len := rfl
    room := Nat.zero_le _
    sup := fun i h => by simp [Model.Json.start] at h
    par := fun i t h => by simp [Model.Json.start] at h
    start := fun t h => by simp [Model.Json.start] at h
    fin := fun t h => by simp [Model.Json.start] at h }

/-- The second pass over any text is defined, and if it finds no error the first pass does not either. -/
theorem Inv.tokenize {js : Text} {k : Nat} : ∀ (fuel : Nat) (s : St), Inv js k s → ∃ s' good,
    Model.Json.tokenize (some k) js fuel s = .ok (s', good) ∧ Inv js k s' ∧
    (good = true → Model.Json.tokenize none js fuel (blind s) = .ok (blind s', true)) := by
  intro fuel
  induction fuel with
  | zero => intro s h; exact ⟨s, false, rfl, h, fun h => by cases h⟩
  | succ fuel ih =>
    intro s h
    unfold Model.Json.tokenize
    have hb : (blind s).pos = s.pos := rfl
    rw [hb]
    cases hd : js.drop s.pos with
    | nil => exact ⟨s, _, rfl, h, fun _ => rfl⟩
    | cons c rest =>
      obtain ⟨r, e1, e2⟩ := h.round hd
      dsimp only
      rw [e1, Out.ok_bind]
      cases r with
      | none => exact ⟨s, false, rfl, h, fun h => by cases h⟩
      | some s1 =>
        obtain ⟨h1, h2, h3⟩ := e2 s1 rfl
        obtain ⟨s', good, e3, h4, h5⟩ := ih _ h1.next
        refine ⟨s', good, e3, h4, ?_⟩
        intro hg
        rw [h3, Out.ok_bind]
        exact h5 hg

/-- A round of the first pass does not count backwards. -/
theorem round_blind {c : UInt8} {rest : Text} {s s' : St} (h : Model.Json.round none c (c :: rest) s = .ok (some s')) (ht : s.toks = [])
    (hs : s.super = none) : s.count ≤ s'.count ∧ s'.toks = [] ∧ s'.super = none ∧ s.pos ≤ s'.pos := by
  unfold Model.Json.round at h
  have key : ∀ {x : St}, Out.ok (some x) = Out.ok (some s') → s.count ≤ x.count → x.toks = [] → x.super = none → s.pos ≤ x.pos →
      s.count ≤ s'.count ∧ s'.toks = [] ∧ s'.super = none ∧ s.pos ≤ s'.pos := by
    intro x hx h1 h2 h3 h4
    injection hx with hx
    injection hx with hx
    subst hx
    exact ⟨h1, h2, h3, h4⟩
  split at h
  · exact key h (by dsimp only; omega) ht hs (by first | exact Nat.le_refl _ | (dsimp only; omega))
  · split at h
    · exact key h (by omega) ht hs (by first | exact Nat.le_refl _ | (dsimp only; omega))
    · split at h
      · unfold parseString at h
        cases hn : stringLength 0 ((c :: rest).drop 1) with
        | none => rw [hn] at h; cases h
        | some n => rw [hn] at h; exact key h (by dsimp only; omega) ht hs (by first | exact Nat.le_refl _ | (dsimp only; omega))
      · split at h
        · exact key h (by omega) ht hs (by first | exact Nat.le_refl _ | (dsimp only; omega))
        · split at h
          · exact key h (by dsimp only; omega) ht (by dsimp only; rw [ht]; rfl) (Nat.le_refl _)
          · split at h
            · exact key h (by omega) ht hs (by first | exact Nat.le_refl _ | (dsimp only; omega))
            · split at h
              · rename_i hc
                have hb : misplaced none s = .ok false := rfl
                rw [hb, Out.ok_bind, if_neg (by decide)] at h
                unfold parsePrimitive at h
                cases hn : primLength (c :: rest) with
                | none => rw [hn] at h; cases h
                | some n =>
                  have := primLength_pos c rest n hc hn
                  rw [hn] at h
                  exact key h (by dsimp only; omega) ht hs (by dsimp only; omega)
              · cases h

theorem tokenize_blind {js : Text} : ∀ (fuel : Nat) (s s' : St) (g : Bool), Model.Json.tokenize none js fuel s = .ok (s', g) → s.toks = [] →
    s.super = none → s.count ≤ s'.count := by
  intro fuel
  induction fuel with
  | zero => intro s s' g h _ _; injection h with h; injection h with h; rw [h]; exact Nat.le_refl _
  | succ fuel ih =>
    intro s s' g h h1 h2
    unfold Model.Json.tokenize at h
    cases hd : js.drop s.pos with
    | nil => rw [hd] at h; injection h with h; injection h with h; rw [h]; exact Nat.le_refl _
    | cons c rest =>
      rw [hd] at h
      dsimp only at h
      obtain ⟨r, e1, e2⟩ := Out.bind_eq_ok.1 h
      cases r with
      | none => injection e2 with h; injection h with h; rw [h]; exact Nat.le_refl _
      | some s1 =>
        obtain ⟨h3, h4, h5, _⟩ := round_blind e1 h1 h2
        have := ih _ s' g e2 h4 h5
        dsimp only at this
        omega

/-- With room for everything that the first pass counts, more room changes nothing. -/
theorem round_room {js : Text} {k k' : Nat} {s s1 : St} (h : Inv js k s) {c : UInt8} {rest : Text}
    (hb : Model.Json.round none c (c :: rest) (blind s) = .ok (some s1)) (hk : s1.count ≤ k) (hkk : k ≤ k') :
    Model.Json.round (some k) c (c :: rest) s = Model.Json.round (some k') c (c :: rest) s := by
  have hl := h.len
  have key : ∀ {x : St}, Out.ok (some x) = Out.ok (some s1) → x.count = s.count + 1 → s.toks.length < k := by
    intro x hx h1
    injection hx with hx
    injection hx with hx
    subst hx
    omega
  have hbump : ∀ s, bumpSuper (some k) s = bumpSuper (some k') s := by
    intro s; unfold bumpSuper; cases s.super <;> rfl
  have hmis : misplaced (some k) s = misplaced (some k') s := by
    unfold misplaced; cases s.super <;> rfl
  unfold Model.Json.round at hb ⊢
  split
  · rename_i hc
    rw [if_pos hc] at hb
    have hlt := key hb rfl
    dsimp only
    unfold alloc
    dsimp only
    rw [if_neg (show ¬ s.toks.length ≥ k by omega), if_neg (show ¬ s.toks.length ≥ k' by omega)]
    dsimp only
    rw [hbump]
  · rename_i hc
    rw [if_neg hc] at hb
    split
    · rfl
    · rename_i hc
      rw [if_neg hc] at hb
      split
      · rename_i hc
        rw [if_pos hc] at hb
        unfold parseString at hb ⊢
        cases hn : stringLength 0 ((c :: rest).drop 1) with
        | none => rfl
        | some n =>
          rw [hn] at hb
          have hlt := key hb rfl
          dsimp only
          unfold alloc
          rw [if_neg (show ¬ s.toks.length ≥ k by omega), if_neg (show ¬ s.toks.length ≥ k' by omega)]
          dsimp only [Option.map_some]
          rw [hbump]
      · rename_i hc
        rw [if_neg hc] at hb
        split
        · rfl
        · rename_i hc
          rw [if_neg hc] at hb
          split
          · rfl
          · rename_i hc
            rw [if_neg hc] at hb
            split
            · cases s.super <;> rfl
            · rename_i hc
              rw [if_neg hc] at hb
              split
              · rename_i hc
                rw [if_pos hc] at hb
                rw [hmis]
                have hb0 : misplaced none (blind s) = .ok false := rfl
                rw [hb0, Out.ok_bind, if_neg (by decide)] at hb
                unfold parsePrimitive at hb ⊢
                cases hn : primLength (c :: rest) with
                | none => rfl
                | some n =>
                  rw [hn] at hb
                  have hlt := key hb rfl
                  dsimp only
                  unfold alloc
                  rw [if_neg (show ¬ s.toks.length ≥ k by omega), if_neg (show ¬ s.toks.length ≥ k' by omega)]
                  dsimp only [Option.map_some]
                  rw [hbump]
              · rfl

theorem tokenize_room {js : Text} {k k' : Nat} (hkk : k ≤ k') : ∀ (fuel : Nat) (s s' : St), Inv js k s →
    Model.Json.tokenize none js fuel (blind s) = .ok (s', true) → s'.count ≤ k →
    Model.Json.tokenize (some k) js fuel s = Model.Json.tokenize (some k') js fuel s := by
  intro fuel
  induction fuel with
  | zero => intro s s' _ h; cases h
  | succ fuel ih =>
    intro s s' hI h hk
    unfold Model.Json.tokenize at h ⊢
    have hb : (blind s).pos = s.pos := rfl
    rw [hb] at h
    cases hd : js.drop s.pos with
    | nil => rfl
    | cons c rest =>
      rw [hd] at h
      dsimp only at h ⊢
      obtain ⟨r, e1, e2⟩ := Out.bind_eq_ok.1 h
      cases r with
      | none => injection e2 with h; injection h with h h'; cases h'
      | some s1 =>
        obtain ⟨h3, h4, h5, _⟩ := round_blind e1 rfl rfl
        have h6 := tokenize_blind _ _ _ _ e2 h4 h5
        dsimp only at h6
        obtain ⟨r, f1, f2⟩ := hI.round hd
        rw [← round_room hI e1 (by omega) hkk, f1, Out.ok_bind, Out.ok_bind]
        cases r with
        | none => rfl
        | some s2 =>
          obtain ⟨g1, g2, g3⟩ := f2 s2 rfl
          rw [g3] at e1
          injection e1 with e1
          injection e1 with e1
          subst e1
          exact ih _ s' g1.next e2 hk

/-- More rounds than bytes change nothing, second pass. -/
theorem tokenize_fuel {js : Text} {k : Nat} (f : Nat) : ∀ (f' : Nat) (s : St), Inv js k s → f ≤ f' → js.length ≤ f + s.pos →
    Model.Json.tokenize (some k) js (f + 1) s = Model.Json.tokenize (some k) js (f' + 1) s := by
  induction f with
  | zero =>
    intro f' s _ _ h
    unfold Model.Json.tokenize
    rw [List.drop_eq_nil_of_le (by omega)]
  | succ f ih =>
    intro f' s hI hf h
    obtain ⟨f'', rfl⟩ : ∃ k, f' = k + 1 := ⟨f' - 1, by omega⟩
    conv => lhs; unfold Model.Json.tokenize
    conv => rhs; unfold Model.Json.tokenize
    cases hd : js.drop s.pos with
    | nil => rfl
    | cons c rest =>
      obtain ⟨r, e1, e2⟩ := hI.round hd
      dsimp only
      rw [e1, Out.ok_bind, Out.ok_bind]
      cases r with
      | none => rfl
      | some s1 =>
        obtain ⟨h1, h2, _⟩ := e2 s1 rfl
        exact ih f'' _ h1.next (by omega) (by dsimp only; omega)

/-- More rounds than bytes change nothing, first pass. -/
theorem tokenize_fuel_blind {js : Text} (f : Nat) : ∀ (f' : Nat) (s : St), s.toks = [] → s.super = none → f ≤ f' →
    js.length ≤ f + s.pos → Model.Json.tokenize none js (f + 1) s = Model.Json.tokenize none js (f' + 1) s := by
  induction f with
  | zero =>
    intro f' s _ _ _ h
    unfold Model.Json.tokenize
    rw [List.drop_eq_nil_of_le (by omega)]
  | succ f ih =>
    intro f' s ht hs hf h
    obtain ⟨f'', rfl⟩ : ∃ k, f' = k + 1 := ⟨f' - 1, by omega⟩
    conv => lhs; unfold Model.Json.tokenize
    conv => rhs; unfold Model.Json.tokenize
    cases hd : js.drop s.pos with
    | nil => rfl
    | cons c rest =>
      dsimp only
      cases hr : Model.Json.round none c (c :: rest) s with
      | ub => rfl
      | exit => rfl
      | ok r =>
        rw [Out.ok_bind, Out.ok_bind]
        cases r with
        | none => rfl
        | some s1 =>
          obtain ⟨h1, h2, h3, h4⟩ := round_blind hr ht hs
          exact ih f'' _ h2 h3 (by omega) (by dsimp only; omega)

/-- The first pass is defined. -/
theorem round_defined (c : UInt8) (rest : Text) (s : St) : ∃ r, Model.Json.round none c rest s = .ok r := by
  unfold Model.Json.round
  split
  · exact ⟨_, rfl⟩
  · split
    · exact ⟨_, rfl⟩
    · split
      · cases parseString none rest s with
        | none => exact ⟨_, rfl⟩
        | some s' => exact ⟨_, rfl⟩
      · split
        · exact ⟨_, rfl⟩
        · split
          · exact ⟨_, rfl⟩
          · split
            · exact ⟨_, rfl⟩
            · split
              · have hb : misplaced none s = .ok false := rfl
                rw [hb, Out.ok_bind, if_neg (by decide)]
                cases parsePrimitive none rest s with
                | none => exact ⟨_, rfl⟩
                | some s' => exact ⟨_, rfl⟩
              · exact ⟨_, rfl⟩

theorem tokenize_defined (js : Text) (fuel : Nat) : ∀ s, ∃ r, Model.Json.tokenize none js fuel s = .ok r := by
  induction fuel with
  | zero => intro s; exact ⟨_, rfl⟩
  | succ fuel ih =>
    intro s
    unfold Model.Json.tokenize
    cases js.drop s.pos with
    | nil => exact ⟨_, rfl⟩
    | cons c rest =>
      obtain ⟨r, hr⟩ := round_defined c (c :: rest) s
      dsimp only
      rw [hr, Out.ok_bind]
      cases r with
      | none => exact ⟨_, rfl⟩
      | some s1 => exact ih _

end Verif.Lemmas.Json
