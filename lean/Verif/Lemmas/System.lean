import Verif.Model.System

/-! # The program and its surroundings: lemmas -/

namespace Verif.Lemmas.System

open Verif.Model Verif.Model.System
theorem ok_bind' {α β : Type} (a : α) (f : α → Out β) : (Out.ok a).bind f = f a := rfl

open Verif.Spec.System (Act Place reads readsWith setting unterminated wordsOf joined Message)

/-! ## Settings -/

/-- A name that can be set: not empty, without NUL bytes and without `=`. -/
def Name (n : Text) : Prop := n ≠ [] ∧ (∀ c ∈ n, c ≠ 0) ∧ 61 ∉ n

instance (n : Text) : Decidable (Name n) := by unfold Name; infer_instance

theorem stripped_eq {n : Text} (h : ∀ c ∈ n, c ≠ 0) : File.stripped n = n := by
  unfold File.stripped
  rw [List.filter_eq_self]
  intro c hc
  simpa using h c hc

theorem cut_eq {n : Text} (h : ∀ c ∈ n, c ≠ 0) : File.cut n = n := by
  unfold File.cut
  induction n with
  | nil => rfl
  | cons c p ih =>
    rw [List.takeWhile_cons_of_pos (by simpa using h c List.mem_cons_self), ih (fun c hc => h c (List.mem_cons_of_mem _ hc))]

/-- Two names without `=` cannot both begin the same entry. -/
theorem prefix_unique {n m e : Text} (hn : 61 ∉ n) (hm : 61 ∉ m) (h1 : (n ++ [61]).isPrefixOf e = true)
    (h2 : (m ++ [61]).isPrefixOf e = true) : n = m := by
  induction n generalizing m e with
  | nil =>
    cases m with
    | nil => rfl
    | cons d m =>
      cases e with
      | nil => simp at h1
      | cons c e =>
        simp at h1 h2
        exact absurd (h1.trans h2.1.symm ▸ List.mem_cons_self) hm
  | cons c n ih =>
    cases e with
    | nil => simp at h1
    | cons x e =>
      cases m with
      | nil =>
        simp at h1 h2
        exact absurd (h2.trans h1.1.symm ▸ List.mem_cons_self) hn
      | cons d m =>
        simp only [List.cons_append, List.isPrefixOf_cons_cons, Bool.and_eq_true, beq_iff_eq] at h1 h2
        rw [ih (fun h => hn (List.mem_cons_of_mem _ h)) (fun h => hm (List.mem_cons_of_mem _ h)) h1.2 h2.2, h1.1, h2.1]

theorem prefix_own (n v : Text) : (n ++ [61]).isPrefixOf (n ++ [61] ++ v) = true := by
  rw [List.isPrefixOf_iff_prefix]
  exact List.prefix_append _ _

theorem drop_own (n v : Text) : (n ++ [61] ++ v).drop (n.length + 1) = v := by
  rw [List.drop_append_of_le_length (by simp), show n.length + 1 = (n ++ [61]).length by simp, List.drop_length]
  rfl

theorem getenv_replace_same (env : Environ) (n v : Text) : getenv (replace env n v) n = some v := by
  induction env with
  | nil => rw [replace, getenv, if_pos (prefix_own n v), drop_own]
  | cons e env ih =>
    rw [replace]
    split
    · rw [getenv, if_pos (prefix_own n v), drop_own]
    · next h => rw [getenv, if_neg h, ih]

theorem getenv_replace_other (env : Environ) {n m : Text} (v : Text) (hn : 61 ∉ n) (hm : 61 ∉ m) (hne : n ≠ m) :
    getenv (replace env n v) m = getenv env m := by
  have key : ∀ e : Text, (n ++ [61]).isPrefixOf e = true → ¬ (m ++ [61]).isPrefixOf e = true :=
    fun e h1 h2 => hne (prefix_unique hn hm h1 h2)
  induction env with
  | nil => exact if_neg (key _ (prefix_own n v))
  | cons e env ih =>
    rw [replace]
    split
    · next h => rw [getenv, if_neg (key _ (prefix_own n v)), getenv, if_neg (key _ h)]
    · rw [getenv, getenv, ih]

theorem getenv_filter_same (env : Environ) (n : Text) :
    getenv (env.filter fun e => !(n ++ [61]).isPrefixOf e) n = none := by
  induction env with
  | nil => rfl
  | cons e env ih =>
    rw [List.filter_cons]
    split
    · next h => rw [getenv, if_neg (by rw [Bool.not_eq_true']  at h; rw [h]; exact Bool.false_ne_true), ih]
    · exact ih

theorem getenv_filter_other (env : Environ) {n m : Text} (hn : 61 ∉ n) (hm : 61 ∉ m) (hne : n ≠ m) :
    getenv (env.filter fun e => !(n ++ [61]).isPrefixOf e) m = getenv env m := by
  induction env with
  | nil => rfl
  | cons e env ih =>
    rw [List.filter_cons]
    split
    · rw [getenv, getenv, ih]
    · next h =>
      rw [ih, getenv, if_neg]
      intro h2
      exact hne (prefix_unique hn hm (by simpa using h) h2)

theorem getenv_set (env : Environ) {n m : Text} {v : Option Text} (hn : Name n) (hm : Name m)
    (hv : ∀ t, v = some t → ∀ c ∈ t, c ≠ 0) :
    getenv (setSetting env n v) m = if n = m then v else getenv env m := by
  obtain ⟨h1, h2, h3⟩ := hn
  cases v with
  | none =>
    simp only [setSetting, stripped_eq h2, unsetenv, if_neg (show ¬ (n = [] ∨ 61 ∈ n) from fun h => h.elim h1 h3)]
    split
    · next h => rw [← h, getenv_filter_same]
    · next h => rw [getenv_filter_other env h3 hm.2.2 h]
  | some t =>
    simp only [setSetting, stripped_eq h2, stripped_eq (hv t rfl), setenv,
      if_neg (show ¬ (n = [] ∨ 61 ∈ n) from fun h => h.elim h1 h3)]
    split
    · next h => rw [← h, getenv_replace_same]
    · next h => rw [getenv_replace_other env t h3 hm.2.2 h]

theorem setAll_append (env : Environ) (l l' : List (Text × Option Text)) :
    setAll env (l ++ l') = setAll (setAll env l) l' := by
  induction l generalizing env with
  | nil => rfl
  | cons p l ih => exact ih _

/-! ## Input -/

theorem fread_all (n : Nat) (ps : List Text) :
    (fread false n ps).1 ++ (fread false n ps).2.1.flatten = ps.flatten ∧
    (fread false n ps).1.length ≤ n ∧
    ((fread false n ps).1.length ≠ n → (fread false n ps).2.2 = true ∧ (fread false n ps).2.1 = []) := by
  induction ps generalizing n with
  | nil => unfold fread; split <;> simp <;> omega
  | cons p ps ih =>
    unfold fread
    split
    · next h => simp [h]
    · split
      · next h =>
        obtain ⟨h1, h2, h3⟩ := ih (n - p.length)
        simp only [List.append_assoc, List.flatten_cons, List.length_append]
        refine ⟨by rw [h1], by omega, fun h => h3 (by omega)⟩
      · next h =>
        simp only [List.flatten_cons, List.length_take]
        refine ⟨?_, by omega, fun h' => absurd (by omega) h'⟩
        rw [← List.append_assoc, List.take_append_drop]

theorem inputLoop_sound {fuel : Nat} {ps : List Text} {content r : Text} (h : inputLoop false fuel ps content = some r) :
    r = content ++ ps.flatten := by
  induction fuel generalizing ps content with
  | zero => cases h
  | succ fuel ih =>
    rw [inputLoop] at h
    obtain ⟨h1, h2, h3⟩ := fread_all 64 ps
    split at h
    · next hc =>
      have h4 := h3 hc.1
      rw [h4.2, List.flatten_nil, List.append_nil] at h1
      rw [← h1]
      exact (Option.some.inj h).symm
    · rw [ih h, List.append_assoc, h1]

theorem inputLoop_complete (fuel : Nat) (ps : List Text) (content : Text) (hf : ps.flatten.length < fuel * 64) :
    ∃ r, inputLoop false fuel ps content = some r := by
  induction fuel generalizing ps content with
  | zero => omega
  | succ fuel ih =>
    rw [inputLoop]
    obtain ⟨h1, h2, h3⟩ := fread_all 64 ps
    split
    · exact ⟨_, rfl⟩
    · next hc =>
      apply ih
      have h4 : (fread false 64 ps).1.length = 64 := Classical.byContradiction fun h => hc ⟨h, (h3 h).1⟩
      have := congrArg List.length h1
      rw [List.length_append] at this
      omega

theorem fread_broken (n : Nat) (ps : List Text) : (fread true n ps).2.2 = false := by
  induction ps generalizing n with
  | nil => unfold fread; split <;> rfl
  | cons p ps ih =>
    unfold fread
    split
    · rfl
    · split
      · exact ih _
      · rfl

theorem inputLoop_broken (fuel : Nat) (ps : List Text) (content : Text) : inputLoop true fuel ps content = none := by
  induction fuel generalizing ps content with
  | zero => rfl
  | succ fuel ih =>
    rw [inputLoop]
    rw [if_neg (by rw [fread_broken]; simp), ih]

theorem getLast?_index (t : Text) : t.getLast? = t[t.length - 1]? := List.getLast?_eq_getElem?

theorem askLoop_line {memory : Nat} (fuel page : Nat) (buff t rest : Text) (ht : 10 ∉ t) (hb : buff.length < page)
    (hm : 2 * (buff.length + t.length) ≤ memory) (hf : t.length < fuel) :
    askLoop memory fuel page buff (t ++ 10 :: rest) = some (.ok (buff ++ t, rest)) := by
  induction t generalizing fuel page buff with
  | nil =>
    cases fuel with
    | zero => omega
    | succ fuel => rw [askLoop]; simp
  | cons c t ih =>
    cases fuel with
    | zero => omega
    | succ fuel =>
      rw [List.length_cons] at hm hf
      have hc : c ≠ 10 := fun h => ht (h ▸ List.mem_cons_self)
      have ht' : 10 ∉ t := fun h => ht (List.mem_cons_of_mem _ h)
      rw [askLoop]
      rw [if_neg (by simpa using hc), if_neg (by omega)]
      simp only [List.cons_append, List.headD_cons, List.tail_cons, List.length_append, List.length_singleton]
      split
      · rw [if_neg (by omega), ih _ _ _ ht' (by simp; omega) (by simp; omega) (by omega)]; simp
      · rw [ih _ _ _ ht' (by simp; omega) (by simp; omega) (by omega)]; simp

theorem askLoop_not_ub (memory fuel page : Nat) (buff rest : Text) (hb : buff.length < page) :
    askLoop memory fuel page buff rest ≠ some .ub := by
  induction fuel generalizing page buff rest with
  | zero => intro h; cases h
  | succ fuel ih =>
    rw [askLoop]
    split
    · intro h; cases h
    · rw [if_neg (by omega)]
      dsimp only
      split
      · split
        · intro h; cases h
        · exact ih _ _ _ (by simp at *; omega)
      · exact ih _ _ _ (by omega)

theorem askLoop_answer {memory : Nat} {fuel page : Nat} {buff rest : Text} {a r : Text}
    (h : askLoop memory fuel page buff rest = some (.ok (a, r))) : ∃ t, rest = t ++ 10 :: r ∧ a = buff ++ t ∧ 10 ∉ t := by
  induction fuel generalizing page buff rest with
  | zero => cases h
  | succ fuel ih =>
    rw [askLoop] at h
    split at h
    · next hc =>
      cases rest with
      | nil => cases hc
      | cons c rest =>
        cases h
        cases hc
        exact ⟨[], rfl, by simp, by simp⟩
    · next hc =>
      split at h
      · cases h
      · dsimp only at h
        have key : ∀ page', askLoop memory fuel page' (buff ++ [rest.headD 255]) rest.tail = some (.ok (a, r)) →
            ∃ t, rest = t ++ 10 :: r ∧ a = buff ++ t ∧ 10 ∉ t := by
          intro page' h
          obtain ⟨t, h1, h2, h3⟩ := ih h
          cases rest with
          | nil => cases t <;> cases h1
          | cons c rest =>
            refine ⟨c :: t, by rw [List.tail_cons] at h1; rw [h1]; rfl, by rw [h2]; simp, ?_⟩
            intro hmem
            rcases List.mem_cons.1 hmem with h' | h'
            · exact hc (by rw [← h']; rfl)
            · exact h3 h'
        split at h
        · split at h
          · cases h
          · exact key _ h
        · exact key _ h

/-! ## Shell commands -/

theorem line_prefix (n : Nat) (t : Text) : line n t ++ t.drop (line n t).length = t := by
  induction t generalizing n with
  | nil => cases n <;> rfl
  | cons c t ih =>
    cases n with
    | zero => rfl
    | succ n =>
      rw [line]
      split
      · rfl
      · rw [List.length_cons, List.drop_succ_cons, List.cons_append, ih]

theorem line_ne_nil (n : Nat) {t : Text} (h : t ≠ []) : line (n + 1) t ≠ [] := by
  cases t with
  | nil => exact absurd rfl h
  | cons c t => rw [line]; split <;> simp

theorem shellLoop_complete (fuel : Nat) (out : Text) (hz : ∀ c ∈ out, c ≠ 0) (hf : out.length < fuel) :
    shellLoop fuel out = some out := by
  induction fuel generalizing out with
  | zero => omega
  | succ fuel ih =>
    rw [shellLoop]
    split
    · next h => rw [h]
    · next h =>
      have h1 := line_prefix 511 out
      have h2 := line_ne_nil 510 h
      have h3 : 0 < (line 511 out).length := List.length_pos_iff.2 h2
      have h4 : 0 < out.length := List.length_pos_iff.2 h
      rw [ih _ (fun c hc => hz c (List.mem_of_mem_drop hc)) (by rw [List.length_drop]; omega), cut_eq]
      · exact congrArg some h1
      · intro c hc
        exact hz c (by rw [← h1]; exact List.mem_append_left _ hc)

theorem shellLoop_mono {fuel : Nat} {out r : Text} (h : shellLoop fuel out = some r) : shellLoop (fuel + 1) out = some r := by
  induction fuel generalizing out r with
  | zero => cases h
  | succ fuel ih =>
    rw [shellLoop] at h ⊢
    split at h
    · next h' => rw [if_pos h']; exact h
    · next h' =>
      rw [if_neg h']
      cases hq : shellLoop fuel (out.drop (line 511 out).length) with
      | none => rw [hq] at h; cases h
      | some q => rw [hq] at h; rw [ih hq]; exact h

theorem shellLoop_mono' {fuel fuel' : Nat} {out r : Text} (h : shellLoop fuel out = some r) (hle : fuel ≤ fuel') :
    shellLoop fuel' out = some r := by
  induction hle with
  | refl => exact h
  | step _ ih => exact shellLoop_mono ih

/-! ## Words that form a text -/

/-- The collected text is `t`, if there is one. -/
def Collected (s : Slurp) (t : Option Text) : Prop :=
  match s.command, t with
  | none, none => True
  | some i, some t => s.store[i]? = some t
  | _, _ => False

theorem appendTo_ok {store : List Text} {i : Nat} {t u : Text} (h : store[i]? = some t) :
    ∃ st, appendTo store i u = .ok st ∧ st[i]? = some (t ++ u) := by
  refine ⟨store.set i (t ++ u), by rw [appendTo, h], ?_⟩
  have := (List.getElem?_eq_some_iff.1 h).1
  rw [List.getElem?_set_self this]

theorem intercalate_snoc (g : Text) (l : List Text) (w : Text) (h : l ≠ []) :
    g.intercalate (l ++ [w]) = g.intercalate l ++ g ++ w := by
  induction l with
  | nil => exact absurd rfl h
  | cons a l ih =>
    cases l with
    | nil => simp [List.intercalate, List.intersperse]
    | cons b l =>
      have h2 : ∀ m : List Text, g.intercalate (a :: b :: m) = a ++ g ++ g.intercalate (b :: m) := by
        intro m; simp [List.intercalate, List.intersperse]
      rw [h2, List.cons_append, List.cons_append, h2, ← List.cons_append, ih (by simp)]
      simp [List.append_assoc]

/-- The text for the words so far; nothing if there are none. -/
def textOf (g : Text) (ws : List Text) : Option Text := if ws = [] then none else some (g.intercalate ws)

theorem respondTo_words {s : Slurp} {g : Text} {ws : List Text} (w : Text) (hg : s.glue = some g)
    (h : Collected s (textOf g ws)) :
    ∃ s', respondTo s w = .ok s' ∧ s'.glue = some g ∧ Collected s' (textOf g (ws ++ [w])) ∧ s'.obtained = s.obtained := by
  have hnew : textOf g (ws ++ [w]) = some (g.intercalate (ws ++ [w])) := by rw [textOf, if_neg (by simp)]
  unfold respondTo
  unfold Collected at h
  split
  · next hc =>
    rw [hc] at h
    have : ws = [] := by
      apply Classical.byContradiction
      intro hne
      rw [textOf, if_neg hne] at h
      exact h
    obtain ⟨st, h1, h2⟩ := appendTo_ok (u := w) (show (s.store ++ [[]])[s.store.length]? = some ([] : Text) by simp)
    refine ⟨{ s with store := st, command := some s.store.length }, by rw [h1]; rfl, hg, ?_, rfl⟩
    rw [hnew, this]
    unfold Collected
    simp only [List.nil_append] at h2 ⊢
    rw [h2]
    simp [List.intercalate]
  · next i hc =>
    rw [hc] at h
    have : ws ≠ [] := by
      intro h'
      rw [textOf, if_pos h'] at h
      exact h
    rw [textOf, if_neg this] at h
    obtain ⟨st, h1, h2⟩ := appendTo_ok (u := g) h
    obtain ⟨st', h3, h4⟩ := appendTo_ok (u := w) h2
    refine ⟨{ s with store := st' }, ?_, hg, ?_, rfl⟩
    · rw [hg]; dsimp only; rw [h1, ok_bind', h3]; rfl
    · rw [hnew, intercalate_snoc g ws w this]
      unfold Collected
      simp only [hc]
      exact h4

theorem say_words {sign : UInt8} {s : Slurp} {g : Text} {ws : List Text} (m : Message) (hm : m.2.length ≤ 1)
    (hg : s.glue = some g) (h : Collected s (textOf g ws)) :
    ∃ s', slurpStep sign s (.say m.1 m.2) = .ok s' ∧ s'.glue = some g ∧
      Collected s' (textOf g (ws ++ wordsOf sign m)) ∧ s'.obtained = s.obtained := by
  obtain ⟨n, as⟩ := m
  cases as with
  | nil => exact respondTo_words n hg h
  | cons a as =>
    cases as with
    | cons b as => simp at hm
    | nil =>
      have key : ∀ w, ∃ s', ((respondTo s w).bind fun s => respondTo s a) = .ok s' ∧ s'.glue = some g ∧
          Collected s' (textOf g (ws ++ [w, a])) ∧ s'.obtained = s.obtained := by
        intro w
        obtain ⟨s1, h1, h2, h3, h4⟩ := respondTo_words w hg h
        obtain ⟨s2, h5, h6, h7, h8⟩ := respondTo_words a h2 h3
        refine ⟨s2, by rw [h1, ok_bind', h5], h6, ?_, by rw [h8, h4]⟩
        rw [List.append_assoc] at h7
        exact h7
      show ∃ s', respondToAnd sign s n a = .ok s' ∧ _
      unfold respondToAnd wordsOf
      dsimp only
      rw [getLast?_index]
      split
      · next hc => rw [if_pos hc.2, List.dropLast_eq_take]; exact key _
      · next hc =>
        have hc' : ¬ n[n.length - 1]? = some sign := by
          intro h'
          refine hc ⟨?_, h'⟩
          have := (List.getElem?_eq_some_iff.1 h').1
          omega
        rw [if_neg hc']; exact key _

/-- The messages among the operations. -/
def sayings : List SlurpOp → List Message
  | [] => []
  | .say n as :: l => (n, as) :: sayings l
  | _ :: l => sayings l

/-- Only messages with at most one argument, and no changes to obtained texts. -/
def Plain (op : SlurpOp) : Prop := (∀ n as, op = .say n as → as.length ≤ 1) ∧ (∀ i t, op ≠ .change i t)

theorem slurpRun_words {sign : UInt8} {g : Text} (l : List SlurpOp) (hl : ∀ op ∈ l, Plain op) {s : Slurp} {ws : List Text}
    (hg : s.glue = some g) (h : Collected s (textOf g ws)) :
    ∃ s', slurpRun sign s l = .ok s' ∧ s'.glue = some g ∧
      Collected s' (textOf g (ws ++ (sayings l).flatMap (wordsOf sign))) := by
  induction l generalizing s ws with
  | nil => exact ⟨s, rfl, hg, by rw [sayings, List.flatMap_nil, List.append_nil]; exact h⟩
  | cons op l ih =>
    have hp := hl op List.mem_cons_self
    have hl' : ∀ op ∈ l, Plain op := fun op h => hl op (List.mem_cons_of_mem _ h)
    cases op with
    | say n as =>
      obtain ⟨s1, h1, h2, h3, _⟩ := say_words (sign := sign) (n, as) (hp.1 n as rfl) hg h
      obtain ⟨s2, h4, h5, h6⟩ := ih hl' h2 h3
      refine ⟨s2, by rw [slurpRun, h1, ok_bind', h4], h5, ?_⟩
      rw [sayings, List.flatMap_cons, ← List.append_assoc]
      exact h6
    | obtain =>
      have : ∃ s1, slurpStep sign s .obtain = .ok s1 ∧ s1.glue = some g ∧ Collected s1 (textOf g ws) := by
        unfold slurpStep
        dsimp only
        unfold Collected at h ⊢
        split
        · next i hc => rw [hc] at h; exact ⟨_, rfl, hg, by simp only [hc]; exact h⟩
        · next hc =>
          rw [hc] at h
          refine ⟨_, rfl, hg, ?_⟩
          simp only [hc]
          cases ht : textOf g ws with
          | none => trivial
          | some t => rw [ht] at h; exact h
      obtain ⟨s1, h1, h2, h3⟩ := this
      obtain ⟨s2, h4, h5, h6⟩ := ih hl' h2 h3
      exact ⟨s2, by rw [slurpRun, h1, ok_bind', h4], h5, h6⟩
    | change i t => exact absurd rfl (hp.2 i t)

/-! ## Included programs -/

/-- The name of a folder leads back to it from everywhere, and all names of folders fit. -/
structure Stable {Dir : Type} (w : World Dir) : Prop where
  known : ∀ d, ∃ t, w.getcwd d = some t
  back : ∀ d t e, w.getcwd d = some t → w.place.go e t = some d

theorem runActs_cwd {Dir : Type} {w : World Dir} (hw : Stable w) (fuel : Nat) {s s' : Here Dir} {l : List Act}
    (h : runActs w fuel s l = some (.ok s')) : s'.cwd = s.cwd := by
  induction fuel generalizing s s' l with
  | zero => cases l <;> cases h
  | succ fuel ih =>
    cases l with
    | nil => cases h; rfl
    | cons a l =>
      rw [runActs.eq_def] at h
      dsimp only at h
      split at h
      · have h2 := ih h; exact h2
      · cases a with
        | other => dsimp only at h; have h2 := ih h; exact h2
        | fail => dsimp only at h; have h2 := ih h; exact h2
        | use f =>
          dsimp only at h
          obtain ⟨here, hh⟩ := hw.known s.cwd
          rw [hh] at h
          dsimp only at h
          split at h
          · cases h
          · have h2 := ih h; exact h2
          · split at h
            · have h2 := ih h; exact h2
            · split at h
              · cases h
              · cases h
              · cases h
              · rw [hw.back _ _ _ hh] at h; dsimp only at h
                have h2 := ih h; exact h2

theorem runActs_failed {Dir : Type} (w : World Dir) {fuel : Nat} (s : Here Dir) (l : List Act) (hs : s.failed = true)
    (hf : l.length < fuel) : runActs w fuel s l = some (.ok s) := by
  induction fuel generalizing l with
  | zero => omega
  | succ fuel ih =>
    cases l with
    | nil => rfl
    | cons a l =>
      rw [runActs.eq_def]
      dsimp only
      rw [if_pos hs, ih _ (by simpa using hf)]

theorem runActs_readsWith {Dir : Type} {w : World Dir} (hw : Stable w)
    {inner : Dir → List Act → Option (List (Dir × Text) × Bool)}
    (hin : ∀ d l r, inner d l = some r → ∀ tr, ∃ n, ∀ fuel ≥ n,
      runActs w fuel ⟨d, tr, false⟩ l = some (.ok ⟨d, tr ++ r.1, r.2⟩))
    (d : Dir) (l : List Act) (r : List (Dir × Text) × Bool) (h : readsWith w.place w.dirname inner d l = some r)
    (tr : List (Dir × Text)) :
    ∃ n, ∀ fuel ≥ n, runActs w fuel ⟨d, tr, false⟩ l = some (.ok ⟨d, tr ++ r.1, r.2⟩) := by
  induction l generalizing r tr with
  | nil =>
    cases h
    exact ⟨1, fun fuel hf => by cases fuel with | zero => omega | succ fuel => simp [runActs]⟩
  | cons a l ih =>
    cases a with
    | fail =>
      cases h
      refine ⟨l.length + 2, fun fuel hf => ?_⟩
      cases fuel with
      | zero => omega
      | succ fuel =>
        rw [runActs, if_neg (by simp)]
        dsimp only
        rw [runActs_failed w _ l rfl (by omega), List.append_nil]
    | other =>
      obtain ⟨n, hn⟩ := ih r h tr
      refine ⟨n + 1, fun fuel hf => ?_⟩
      cases fuel with
      | zero => omega
      | succ fuel =>
        rw [runActs, if_neg (by simp)]
        exact hn fuel (by omega)
    | use f =>
      rw [readsWith] at h
      obtain ⟨here, hh⟩ := hw.known d
      split at h
      · next hp =>
        cases h
        refine ⟨l.length + 2, fun fuel hf => ?_⟩
        cases fuel with
        | zero => omega
        | succ fuel =>
          rw [runActs, if_neg (by simp)]
          simp only [hh, hp]
          rw [runActs_failed w _ l rfl (by omega)]
      · next p e hp hg =>
        have hcwd := hw.back d here e hh
        split at h
        · next t hr =>
          obtain ⟨n1, hn1⟩ := hin e p _ hr (tr ++ [(d, f)])
          cases h
          refine ⟨n1 + l.length + 2, fun fuel hf => ?_⟩
          cases fuel with
          | zero => omega
          | succ fuel =>
            rw [runActs, if_neg (by simp)]
            simp only [hh, hp, hg, hn1 fuel (by omega), hcwd]
            rw [runActs_failed w _ l rfl (by omega), List.append_assoc]
            rfl
        · next t hr =>
          obtain ⟨n1, hn1⟩ := hin e p _ hr (tr ++ [(d, f)])
          cases hu : readsWith w.place w.dirname inner d l with
          | none => rw [hu] at h; cases h
          | some q =>
            rw [hu] at h
            cases h
            obtain ⟨n2, hn2⟩ := ih q hu (tr ++ [(d, f)] ++ t)
            refine ⟨n1 + n2 + 1, fun fuel hf => ?_⟩
            cases fuel with
            | zero => omega
            | succ fuel =>
              rw [runActs, if_neg (by simp)]
              simp only [hh, hp, hg, hn1 fuel (by omega), hcwd]
              rw [hn2 fuel (by omega)]
              simp [List.append_assoc]
        · cases h
      · cases h

theorem runActs_reads {Dir : Type} {w : World Dir} (hw : Stable w) (depth : Nat) (d : Dir) (l : List Act)
    (r : List (Dir × Text) × Bool) (h : reads w.place w.dirname depth d l = some r) (tr : List (Dir × Text)) :
    ∃ n, ∀ fuel ≥ n, runActs w fuel ⟨d, tr, false⟩ l = some (.ok ⟨d, tr ++ r.1, r.2⟩) := by
  induction depth generalizing d l r tr with
  | zero => exact runActs_readsWith hw (fun _ _ _ h => by cases h) d l r h tr
  | succ depth ih => exact runActs_readsWith hw (fun d l r h tr => ih d l r h tr) d l r h tr

end Verif.Lemmas.System
