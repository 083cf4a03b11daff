import Verif.Model.Keys

/-! Lemmas about the arrow keys. -/

namespace Verif.Lemmas.Keys
open Verif Verif.Spec.Keys Verif.Model.Keys

/-- Modes in which keys are released in the way they are pressed. -/
def Fair (v : Env) : Prop := v.mode ≠ 4 ∧ (v.mode = 2 → v.falls = false)

/-- Every direction comes from a key that is held. -/
def Sound (v : Env) (l : List Key) (s : St) : Prop :=
  s.dir = -1 ∨ (v.player = true ∧ ∃ k ∈ l, heading v.mode v.falls k = some s.dir)

theorem mem_press (l : List Key) (k k' : Key) (h : k' ∈ l) : k' ∈ held l (.press k) := by
  simp only [held, List.mem_cons, List.mem_filter, decide_eq_true_eq]
  by_cases hk : k' = k
  · exact Or.inl hk
  · exact Or.inr ⟨h, hk⟩

theorem sound_press {v : Env} {l : List Key} {s : St} (h : Sound v l s) (k : Key) : Sound v (held l (.press k)) s := by
  rcases h with h | ⟨hp, k', h1, h2⟩
  · exact Or.inl h
  · exact Or.inr ⟨hp, k', mem_press l k k' h1, h2⟩

theorem sound_new {v : Env} {l : List Key} {s s' : St} {k : Key} (hr : reaches v s) (hh : heading v.mode v.falls k = some s'.dir) :
    Sound v (held l (.press k)) s' := Or.inr ⟨hr.2.1, k, by simp [held], hh⟩

theorem step_sound {v : Env} (hf : Fair v) {l : List Key} {s s' : St} {e : Ev} (h : Sound v l s) (hs : step v s e = .ok s') :
    Sound v (held l e) s' := by
  obtain ⟨hf1, hf2⟩ := hf
  cases e with
  | press k =>
    cases k <;> simp only [step, Out.ok.injEq] at hs <;> subst hs
    · unfold downLeft
      split
      · rename_i hr
        split
        · rename_i hm
          exact sound_new hr (by simp only [heading, if_pos hm])
        · exact sound_press h _
      · exact sound_press h _
    · unfold downRight
      split
      · rename_i hr
        split
        · rename_i hm
          exact sound_new hr (by simp only [heading, if_pos hm])
        · exact sound_press h _
      · exact sound_press h _
    · unfold downUp
      split
      · rename_i hr
        split
        · split
          · exact sound_press (s := s) h _
          · exact sound_press h _
        · rename_i hj
          split
          · rename_i hm
            refine sound_new hr ?_
            simp only [heading]
            rw [if_pos]
            rcases hm with hm | hm
            · right
              exact ⟨hm, by simpa [hm] using hj⟩
            · exact Or.inl hm
          · exact sound_press h _
      · exact sound_press h _
    · unfold downDown
      split
      · rename_i hr
        split
        · rename_i hm
          refine sound_new hr ?_
          simp only [heading]
          rw [if_pos]
          rcases hm.2 with h1 | h1
          · exact Or.inr ⟨h1, hm.1⟩
          · exact Or.inl h1
        · exact sound_press h _
      · exact sound_press h _
  | release k =>
    have hup : ∀ k, k = Key.up ∨ k = Key.down → Sound v (held l (.release k)) (upDown v s) := by
      intro k hk
      simp only [upDown, if_pos hf1]
      split
      · exact Or.inl rfl
      · rename_i hc
        rcases h with h | ⟨hp, k', h1, h2⟩
        · exact Or.inl h
        · refine Or.inr ⟨hp, k', ?_, h2⟩
          have hfa : v.falls = true := by
            cases hv : v.falls with
            | true => rfl
            | false => exact absurd ⟨hp, hv⟩ hc
          simp only [held, List.mem_filter, decide_eq_true_eq]
          refine ⟨h1, fun he => ?_⟩
          subst he
          have hm2 : v.mode ≠ 2 := fun hm => by simp [hf2 hm] at hfa
          rcases hk with rfl | rfl <;> simp [heading, hfa, hm2] at h2
    cases k <;> simp only [step, Out.ok.injEq] at hs <;> subst hs
    · simp only [upAcross, if_pos hf1]
      exact Or.inl rfl
    · simp only [upAcross, if_pos hf1]
      exact Or.inl rfl
    · exact hup _ (Or.inl rfl)
    · exact hup _ (Or.inr rfl)
  | freeze b =>
    simp only [step, Out.ok.injEq] at hs
    subst hs
    exact h
  | shiftDown =>
    simp only [step, Out.ok.injEq] at hs
    subst hs
    exact h
  | shiftUp =>
    simp only [step, Out.ok.injEq] at hs
    subst hs
    exact h
  | mouseDown a b =>
    simp only [step, Out.ok.injEq] at hs
    subst hs
    split <;> exact h
  | mouseUp =>
    simp only [step] at hs
    split at hs
    · split at hs
      · simp only [Out.ok.injEq] at hs
        subst hs
        exact h
      · cases hs
    · simp only [Out.ok.injEq] at hs
      subst hs
      exact h
  | frame =>
    simp only [step, Out.ok.injEq, if_neg hf1] at hs
    subst hs
    exact h

theorem run_sound {v : Env} (hf : Fair v) {l : List Key} {s s' : St} {h : List Ev} (h0 : Sound v l s) (hs : run v s h = .ok s') :
    Sound v (h.foldl held l) s' := by
  induction h generalizing s l with
  | nil =>
    simp only [run, Out.ok.injEq] at hs
    subst hs
    exact h0
  | cons e h ih =>
    simp only [run, Out.bind_eq_ok] at hs
    obtain ⟨s1, h1, h2⟩ := hs
    exact ih (step_sound hf h0 h1) h2

/-- One key at a time: the state. -/
def Exact (v : Env) (l : List Key) (s : St) : Prop :=
  s.dir = asked v.mode v.falls l ∧ s.focus = false ∧ s.frozen = false ∧ l.length ≤ 1

theorem asked_one (mode : Int) (falls : Bool) (k : Key) : asked mode falls [k] = (heading mode falls k).getD (-1) := by
  simp only [asked, List.findSome?]
  cases heading mode falls k <;> rfl

theorem step_exact {v : Env} (hf : Fair v) (hp : v.player = true) {l : List Key} {s s' : St} {e : Ev} {h : List Ev} (hx : Exact v l s)
    (ho : OneAtATime l (e :: h)) (hs : step v s e = .ok s') : Exact v (held l e) s' := by
  obtain ⟨hd, hfo, hfr, hlen⟩ := hx
  obtain ⟨ho1, ho2, ho3, ho4, _⟩ := ho
  obtain ⟨hf1, hf2⟩ := hf
  have hr : reaches v s := ⟨hfo, hp, hfr⟩
  have hpress : ∀ k, e = .press k → held l e = [k] ∧ (l = [] ∨ l = [k]) := by
    intro k he
    subst he
    simp only [held, List.length_cons] at ho1
    have hz : l.filter (· ≠ k) = [] := List.length_eq_zero_iff.1 (by omega)
    refine ⟨by rw [held, hz], ?_⟩
    match l, hlen with
    | [], _ => exact Or.inl rfl
    | [a], _ =>
      simp only [List.filter_eq_nil_iff, List.mem_singleton, decide_eq_true_eq] at hz
      right
      rw [Classical.not_not.1 (hz a rfl)]
  have hrel : ∀ k, e = .release k → held l e = [] ∧ l = [k] := by
    intro k he
    have hk := ho2 k he
    subst he
    match l, hlen, hk with
    | [a], _, hk =>
      simp only [List.mem_singleton] at hk
      subst hk
      exact ⟨by simp [held], rfl⟩
  cases e with
  | press k =>
    obtain ⟨he, hl⟩ := hpress k rfl
    have hold : s.dir = -1 ∨ s.dir = (heading v.mode v.falls k).getD (-1) := by
      rcases hl with rfl | rfl
      · left
        rw [hd]
        rfl
      · right
        rw [hd, asked_one]
    rw [he]
    refine ⟨?_, ?_, ?_, Nat.le_refl 1⟩
    · rw [asked_one]
      cases k <;> simp only [step, Out.ok.injEq] at hs <;> subst hs
      · simp only [downLeft, if_pos hr, heading]
        by_cases hm : v.mode = 1 ∨ v.mode = 3
        · simp only [if_pos hm, Option.getD_some]
        · simp only [heading, if_neg hm, Option.getD_none, or_self] at hold
          simp only [if_neg hm, if_neg hf1, Option.getD_none]
          exact hold
      · simp only [downRight, if_pos hr, heading]
        by_cases hm : v.mode = 1 ∨ v.mode = 3
        · simp only [if_pos hm, Option.getD_some]
        · simp only [heading, if_neg hm, Option.getD_none, or_self] at hold
          simp only [if_neg hm, if_neg hf1, Option.getD_none]
          exact hold
      · simp only [downUp, if_pos hr, heading]
        by_cases hm : v.mode = 2 ∨ (v.mode = 1 ∧ v.falls = false)
        · have h1 : ¬ (v.falls = true ∧ v.mode = 1) := by
            rintro ⟨h1, h2⟩
            rcases hm with hm | hm
            · omega
            · simp [h1] at hm
          have h2 : v.mode = 1 ∨ v.mode = 2 := by omega
          simp only [if_pos hm, if_neg h1, if_pos h2, Option.getD_some]
        · simp only [heading, if_neg hm, Option.getD_none, or_self] at hold
          simp only [if_neg hm, Option.getD_none]
          split
          · split <;> exact hold
          · rename_i h1
            rw [if_neg (show ¬ (v.mode = 1 ∨ v.mode = 2) from fun hc => by
              rcases hc with hc | hc
              · exact hm (Or.inr ⟨hc, by simpa [hc] using h1⟩)
              · exact hm (Or.inl hc))]
            exact hold
      · simp only [downDown, if_pos hr, heading]
        by_cases hm : v.mode = 2 ∨ (v.mode = 1 ∧ v.falls = false)
        · have h1 : v.falls = false ∧ (v.mode = 1 ∨ v.mode = 2) := by
            rcases hm with hm | hm
            · exact ⟨hf2 hm, Or.inr hm⟩
            · exact ⟨hm.2, Or.inl hm.1⟩
          simp only [if_pos hm, if_pos h1, Option.getD_some]
        · simp only [heading, if_neg hm, Option.getD_none, or_self] at hold
          have h1 : ¬ (v.falls = false ∧ (v.mode = 1 ∨ v.mode = 2)) := by
            rintro ⟨h1, h2 | h2⟩
            · exact hm (Or.inr ⟨h2, h1⟩)
            · exact hm (Or.inl h2)
          simp only [if_neg hm, if_neg h1, if_neg hf1, Option.getD_none]
          exact hold
    · cases k <;> simp only [step, Out.ok.injEq] at hs <;> subst hs <;>
        simp only [downLeft, downRight, downUp, downDown] <;> (repeat' split) <;> exact hfo
    · cases k <;> simp only [step, Out.ok.injEq] at hs <;> subst hs <;>
        simp only [downLeft, downRight, downUp, downDown] <;> (repeat' split) <;> exact hfr
  | release k =>
    obtain ⟨he, hl⟩ := hrel k rfl
    rw [he]
    have hdir : s'.dir = -1 := by
      cases k <;> simp only [step, Out.ok.injEq] at hs <;> subst hs <;> simp only [upAcross, upDown, if_pos hf1]
      all_goals
        split
        · rfl
        · rename_i hc
          have hfa : v.falls = true := by
            cases hv : v.falls with
            | true => rfl
            | false => exact absurd ⟨hp, hv⟩ hc
          have hm2 : v.mode ≠ 2 := fun hm => by simp [hf2 hm] at hfa
          rw [hd, hl, asked_one]
          simp [heading, hfa, hm2]
    refine ⟨by rw [hdir]; rfl, ?_, ?_, by simp⟩
    · cases k <;> simp only [step, Out.ok.injEq] at hs <;> subst hs <;> simp only [upAcross, upDown] <;> (repeat' split) <;> exact hfo
    · cases k <;> simp only [step, Out.ok.injEq] at hs <;> subst hs <;> simp only [upAcross, upDown] <;> (repeat' split) <;> exact hfr
  | freeze b => exact absurd rfl (ho3 b)
  | shiftDown =>
    simp only [step, Out.ok.injEq] at hs
    subst hs
    exact ⟨hd, hfo, hfr, hlen⟩
  | shiftUp =>
    simp only [step, Out.ok.injEq] at hs
    subst hs
    exact ⟨hd, hfo, hfr, hlen⟩
  | mouseDown a b =>
    cases a with
    | true => exact absurd rfl (ho4 b)
    | false =>
      simp only [step, Out.ok.injEq, Bool.false_eq_true, if_false] at hs
      subst hs
      exact ⟨hd, hfo, hfr, hlen⟩
  | mouseUp =>
    simp only [step, hfo, Bool.false_eq_true, if_false] at hs
    split at hs
    · cases hs
    · simp only [Out.ok.injEq] at hs
      subst hs
      exact ⟨hd, hfo, hfr, hlen⟩
  | frame =>
    simp only [step, Out.ok.injEq, if_neg hf1] at hs
    subst hs
    exact ⟨hd, hfo, hfr, hlen⟩

theorem run_exact {v : Env} (hf : Fair v) (hp : v.player = true) {l : List Key} {s s' : St} {h : List Ev} (hx : Exact v l s)
    (ho : OneAtATime l h) (hs : run v s h = .ok s') : Exact v (h.foldl held l) s' := by
  induction h generalizing s l with
  | nil =>
    simp only [run, Out.ok.injEq] at hs
    subst hs
    exact hx
  | cons e h ih =>
    simp only [run, Out.bind_eq_ok] at hs
    obtain ⟨s1, h1, h2⟩ := hs
    exact ih (step_exact hf hp hx ho h1) ho.2.2.2.2 h2

/-! ### Selecting -/

theorem step_focus {v : Env} {s : St} {e : Ev} (h : s.focus = true) : ∃ s', step v s e = .ok s' ∧ s'.focus = true := by
  cases e with
  | press k =>
    cases k <;> refine ⟨_, rfl, ?_⟩ <;> simp only [downLeft, downRight, downUp, downDown] <;> (repeat' split) <;> exact h
  | release k => cases k <;> refine ⟨_, rfl, ?_⟩ <;> simp only [upAcross, upDown] <;> (repeat' split) <;> exact h
  | freeze b => exact ⟨_, rfl, h⟩
  | shiftDown => exact ⟨_, rfl, h⟩
  | shiftUp => exact ⟨_, rfl, h⟩
  | mouseDown a b => cases a <;> exact ⟨_, rfl, by first | rfl | exact h⟩
  | mouseUp =>
    simp only [step, h, if_true]
    split
    · exact ⟨_, rfl, rfl⟩
    · exact ⟨_, rfl, h⟩
  | frame => exact ⟨_, rfl, h⟩

theorem run_focus {v : Env} {s : St} {h : List Ev} (hs : s.focus = true) : ∃ s', run v s h = .ok s' := by
  induction h generalizing s with
  | nil => exact ⟨s, rfl⟩
  | cons e h ih =>
    obtain ⟨s1, h1, h2⟩ := step_focus (v := v) (e := e) hs
    rw [run, h1, Out.ok_bind]
    exact ih h2

theorem run_fieldFirst {v : Env} {s : St} {h : List Ev} (hs : s.select = false) (hf : fieldFirst h = true) : ∃ s', run v s h = .ok s' := by
  induction h generalizing s with
  | nil => exact ⟨s, rfl⟩
  | cons e h ih =>
    cases e with
    | press k =>
      rw [run]
      cases k <;> simp only [step, Out.ok_bind] <;> refine ih ?_ hf <;> simp only [downLeft, downRight, downUp, downDown] <;>
        (repeat' split) <;> exact hs
    | release k =>
      rw [run]
      cases k <;> simp only [step, Out.ok_bind] <;> refine ih ?_ hf <;> simp only [upAcross, upDown] <;> (repeat' split) <;> exact hs
    | freeze b => exact ih (s := { s with frozen := b }) hs hf
    | shiftDown => simp [fieldFirst] at hf
    | shiftUp => exact ih (s := { s with select := false }) rfl hf
    | mouseDown a b =>
      cases a with
      | true => exact run_focus (s := { s with focus := true, select := !b }) rfl
      | false => exact ih (s := s) hs hf
    | mouseUp =>
      simp only [run, step, hs, Bool.false_eq_true, if_false, Out.ok_bind]
      exact ih hs hf
    | frame =>
      simp only [run, step, Out.ok_bind]
      exact ih hs hf

/-- Steering by turning: what the keys that are held may cause. -/
def Turning (l : List Key) (s : St) : Prop :=
  (s.rotation = 0 ∨ (s.rotation = 5 ∧ .left ∈ l) ∨ (s.rotation = -5 ∧ .right ∈ l)) ∧
  (s.speed = 0 ∨ (s.speed = 1 ∧ .up ∈ l) ∨ (s.speed = -1 ∧ .down ∈ l))

theorem held_press {l : List Key} {k k' : Key} (h : k ∈ l) : k ∈ held l (.press k') := by
  simp only [held, List.mem_cons, List.mem_filter, decide_eq_true_eq]
  by_cases e : k = k'
  · exact .inl e
  · exact .inr ⟨h, e⟩

theorem turning_press {l : List Key} {s : St} (h : Turning l s) (k : Key) : Turning (held l (.press k)) s := by
  refine ⟨?_, ?_⟩
  · rcases h.1 with h | ⟨h, hk⟩ | ⟨h, hk⟩
    · exact .inl h
    · exact .inr (.inl ⟨h, held_press hk⟩)
    · exact .inr (.inr ⟨h, held_press hk⟩)
  · rcases h.2 with h | ⟨h, hk⟩ | ⟨h, hk⟩
    · exact .inl h
    · exact .inr (.inl ⟨h, held_press hk⟩)
    · exact .inr (.inr ⟨h, held_press hk⟩)

theorem step_turning {v : Env} (hm : v.mode = 4) {l : List Key} {s s' : St} {e : Ev} (h : Turning l s) (hs : step v s e = .ok s') :
    Turning (held l e) s' := by
  have hmem : ∀ k : Key, k ∈ held l (.press k) := fun k => by simp [held]
  have hrel : ∀ {k k' : Key}, k ∈ l → k ≠ k' → k ∈ held l (.release k') := by
    intro k k' h1 h2
    simp only [held, List.mem_filter, decide_eq_true_eq]
    exact ⟨h1, h2⟩
  cases e with
  | press k =>
    have hp := turning_press h k
    cases k <;> simp only [step, Out.ok.injEq] at hs <;> subst hs
    · unfold downLeft
      rw [hm]
      split
      · rw [if_neg (by omega), if_pos rfl]
        exact ⟨.inr (.inl ⟨rfl, hmem _⟩), hp.2⟩
      · exact hp
    · unfold downRight
      rw [hm]
      split
      · rw [if_neg (by omega), if_pos rfl]
        exact ⟨.inr (.inr ⟨rfl, hmem _⟩), hp.2⟩
      · exact hp
    · unfold downUp
      rw [hm]
      split
      · rw [if_neg (by omega), if_neg (by omega), if_pos rfl]
        exact ⟨hp.1, .inr (.inl ⟨rfl, hmem _⟩)⟩
      · exact hp
    · unfold downDown
      rw [hm]
      split
      · rw [if_neg (by omega), if_pos rfl]
        exact ⟨hp.1, .inr (.inr ⟨rfl, hmem _⟩)⟩
      · exact hp
  | release k =>
    have across : ∀ k', k' = Key.left ∨ k' = Key.right → Turning (held l (.release k')) { s with rotation := 0 } := by
      intro k' hk'
      refine ⟨.inl rfl, ?_⟩
      rcases h.2 with h | ⟨h, hk⟩ | ⟨h, hk⟩
      · exact .inl h
      · exact .inr (.inl ⟨h, hrel hk (by rintro rfl; simp at hk')⟩)
      · exact .inr (.inr ⟨h, hrel hk (by rintro rfl; simp at hk')⟩)
    have along : ∀ k', k' = Key.up ∨ k' = Key.down → Turning (held l (.release k')) { s with speed := 0 } := by
      intro k' hk'
      refine ⟨?_, .inl rfl⟩
      rcases h.1 with h | ⟨h, hk⟩ | ⟨h, hk⟩
      · exact .inl h
      · exact .inr (.inl ⟨h, hrel hk (by rintro rfl; simp at hk')⟩)
      · exact .inr (.inr ⟨h, hrel hk (by rintro rfl; simp at hk')⟩)
    cases k <;> simp only [step, Out.ok.injEq, upAcross, upDown, hm, ne_eq, not_true_eq_false, if_false] at hs <;> subst hs
    · exact across _ (.inl rfl)
    · exact across _ (.inr rfl)
    · exact along _ (.inl rfl)
    · exact along _ (.inr rfl)
  | freeze b => simp only [step, Out.ok.injEq] at hs; subst hs; exact h
  | shiftDown => simp only [step, Out.ok.injEq] at hs; subst hs; exact h
  | shiftUp => simp only [step, Out.ok.injEq] at hs; subst hs; exact h
  | mouseDown f t =>
    simp only [step, Out.ok.injEq] at hs
    subst hs
    split <;> exact h
  | mouseUp =>
    simp only [step] at hs
    repeat' split at hs
    all_goals first | (cases hs; exact h) | cases hs
  | frame => simp only [step, Out.ok.injEq] at hs; subst hs; exact h

theorem run_turning {v : Env} (hm : v.mode = 4) {l : List Key} {s s' : St} {h : List Ev} (h0 : Turning l s) (hs : run v s h = .ok s') :
    Turning (h.foldl held l) s' := by
  induction h generalizing s l with
  | nil =>
    simp only [run, Out.ok.injEq] at hs
    subst hs
    exact h0
  | cons e h ih =>
    simp only [run, Out.bind_eq_ok] at hs
    obtain ⟨s1, h1, h2⟩ := hs
    exact ih (step_turning hm h0 h1) h2

end Verif.Lemmas.Keys
