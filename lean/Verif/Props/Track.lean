import Verif.Lemmas.Track

/-! # Memory for parsed programs: properties -/

namespace Verif.Props.Track

open Verif.Model Verif.Model.Track Verif.Lemmas.Track
open Verif.Spec.Track (Op)

/-- Every new size is for a block that is in use. -/
def Sensible : List Nat × Nat → List Op → Prop
  | _, [] => True
  | s, .resize i :: l => i < s.1.length ∧ Sensible (Spec.Track.step s (.resize i)) l
  | s, op :: l => Sensible (Spec.Track.step s op) l

theorem run_spec (l : List Op) {s : St} (h : Inv s) (hl : Sensible (s.blocks, s.next) l) :
    ∃ s', run s l = .ok s' ∧ Inv s' ∧ (s'.blocks, s'.next) = Spec.Track.run (s.blocks, s.next) l := by
  induction l generalizing s with
  | nil => exact ⟨s, rfl, h, rfl⟩
  | cons op l ih =>
    have key : ∀ s1, step s op = .ok s1 → Inv s1 → (s1.blocks, s1.next) = Spec.Track.step (s.blocks, s.next) op →
        Sensible (Spec.Track.step (s.blocks, s.next) op) l →
        ∃ s', run s (op :: l) = .ok s' ∧ Inv s' ∧ (s'.blocks, s'.next) = Spec.Track.run (s.blocks, s.next) (op :: l) := by
      intro s1 h1 h2 h3 h4
      rw [← h3] at h4
      obtain ⟨s2, h5, h6, h7⟩ := ih h2 h4
      exact ⟨s2, by rw [run, h1, ok_bind', h5], h6, by rw [h7, h3]; rfl⟩
    cases op with
    | alloc =>
      obtain ⟨s1, h1, h2, h3, h4⟩ := alloc_inv h
      exact key s1 (by rw [step, h1]; rfl) h2 (by rw [h3, h4]; rfl) hl
    | resize i =>
      obtain ⟨s1, h1, h2, h3, h4⟩ := realloc_inv h hl.1
      exact key s1 h1 h2 (by rw [h3, h4]; rfl) hl.2
    | rewind k =>
      obtain ⟨s1, h1, h2, h3, h4⟩ := rewind_inv h k
      exact key s1 h1 h2 (by rw [h3, h4]; rfl) hl
    | finish =>
      exact key _ (freeRest_ok h) ⟨List.Perm.nil, List.nodup_nil, (fun b h => by cases h), Nat.le_refl _⟩ rfl hl

/-- C67: whatever is allocated, resized and given back, in whatever order, nothing is freed twice, nothing is written outside
the table of blocks, and the memory in use is exactly what the stack of blocks says. -/
theorem C67_stack (l : List Op) (hl : Sensible ([], 0) l) :
    ∃ s, run init l = .ok s ∧ s.live.Perm (Spec.Track.run ([], 0) l).1 ∧ s.live.Nodup := by
  obtain ⟨s, h1, h2, h3⟩ := run_spec l init_inv hl
  have h4 := (Prod.mk.inj h3).1
  exact ⟨s, h1, by rw [show (Spec.Track.run ([], 0) l).1 = s.blocks from by rw [show (([] : List Nat), 0) = (init.blocks, init.next) from rfl, ← h3]]; exact h2.perm, h2.perm.nodup_iff.2 h2.nodup⟩

/-- C67: at the end of the program nothing is left. -/
theorem C67_end (l : List Op) (hl : Sensible ([], 0) l) : ∃ s, run init (l ++ [.finish]) = .ok s ∧ s.live = [] := by
  have hs : ∀ (l : List Op) t, Sensible t l → Sensible t (l ++ [.finish]) := by
    intro l
    induction l with
    | nil => intro t _; trivial
    | cons op l ih => intro t h; cases op <;> first | exact ⟨h.1, ih _ h.2⟩ | exact ih _ h
  have hr : ∀ (l : List Op) t, (Spec.Track.run t (l ++ [.finish])).1 = [] := by
    intro l
    induction l with
    | nil => intro t; rfl
    | cons op l ih => intro t; exact ih _
  obtain ⟨s, h1, h2, _⟩ := C67_stack (l ++ [.finish]) (hs l _ hl)
  rw [hr] at h2
  exact ⟨s, h1, List.perm_nil.1 h2⟩

/-- Two blocks, a mark, a third block, a new size for the first, back to the mark. -/
example : ∃ s, run init [.alloc, .alloc, .alloc, .resize 0, .rewind 2] = .ok s ∧ s.live.Perm [3, 1] ∧ s.live.Nodup :=
  C67_stack [.alloc, .alloc, .alloc, .resize 0, .rewind 2] ⟨by decide, trivial⟩

/-- … and the end. -/
example : ∃ s, run init ([.alloc, .alloc, .alloc, .resize 0, .rewind 2] ++ [.finish]) = .ok s ∧ s.live = [] :=
  C67_end _ ⟨by decide, trivial⟩

theorem reached {l : List Op} (hl : Sensible ([], 0) l) {s : St} (hs : run init l = .ok s) : Inv s := by
  obtain ⟨s', h1, h2, _⟩ := run_spec l init_inv hl
  rw [h1] at hs
  exact Out.ok.inj hs ▸ h2

/-- C67, for texts that can be parsed and whose value is not code: evaluating a text gives back all memory that it used, keeps
all memory of the running program, and its value can be used. -/
theorem C67_eval_partial {l : List Op} (hl : Sensible ([], 0) l) {s : St} (hs : run init l = .ok s) (n : Nat) :
    ∃ s', eval s n (some .data) = .ok (.data, true, s') ∧ s'.live.Perm s.live ∧ use s' .data = .ok () := by
  have h := reached hl hs
  unfold eval
  obtain ⟨bs, s1, h1, h2, h3, h4, h5⟩ := allocMany_inv n h
  obtain ⟨s2, h6, h7, h8, h9⟩ := rewind_inv h2 s.blocks.length
  refine ⟨s2, by dsimp only; rw [h1, ok_bind', h6, ok_bind'], ?_, rfl⟩
  rw [h3, List.take_left] at h8
  exact h7.perm.trans (h8 ▸ h.perm.symm)

/-- Evaluating a text with five blocks in a program with two. -/
example : ∃ s', eval ⟨2, [1, 0], [0, 1], 11⟩ 5 (some .data) = .ok (.data, true, s') ∧ s'.live.Perm [1, 0] ∧
    use s' .data = .ok () :=
  C67_eval_partial (l := [.alloc, .alloc]) trivial rfl 5

/-- C67 fails for texts whose value is code: the code always refers to memory that was given back, and running it is undefined
behaviour. -/
theorem C67_eval_violated {l : List Op} (hl : Sensible ([], 0) l) {s : St} (hs : run init l = .ok s) (n k : Nat)
    (hk : k < n) :
    ∃ b s', eval s n (some (.code k)) = .ok (.code b, true, s') ∧ use s' (.code b) = .ub := by
  have h := reached hl hs
  unfold eval
  obtain ⟨bs, s1, h1, h2, h3, h4, h5⟩ := allocMany_inv n h
  obtain ⟨s2, h6, h7, h8, h9⟩ := rewind_inv h2 s.blocks.length
  have hk' : k < bs.length := by omega
  refine ⟨bs[k], s2, ?_, ?_⟩
  · dsimp only
    rw [h1, ok_bind', h6, ok_bind']
    dsimp only
    rw [List.getElem?_eq_getElem hk']
  · rw [use, if_neg]
    rw [h3, List.take_left] at h8
    intro hm
    have hm' := h7.perm.mem_iff.1 hm
    rw [h8] at hm'
    have := h.fresh _ hm'
    have := h5 _ (List.getElem_mem hk')
    omega

/-- Such a state and such a text. -/
example : ∃ b s', eval ⟨2, [1, 0], [0, 1], 11⟩ 5 (some (.code 1)) = .ok (.code b, true, s') ∧ use s' (.code b) = .ub :=
  C67_eval_violated (l := [.alloc, .alloc]) trivial rfl 5 1 (by decide)

/-- C67 fails for texts that cannot be parsed: their memory is kept until the end of the program, and from then on no positions
are recorded for error messages. -/
theorem C67_broken_violated {l : List Op} (hl : Sensible ([], 0) l) {s : St} (hs : run init l = .ok s) (n : Nat) :
    ∃ s', eval s n none = .ok (.nothing, false, s') ∧ s'.live.length = s.live.length + n := by
  have h := reached hl hs
  unfold eval
  obtain ⟨bs, s1, h1, h2, h3, h4, h5⟩ := allocMany_inv n h
  refine ⟨s1, by dsimp only; rw [h1, ok_bind'], ?_⟩
  rw [h2.perm.length_eq, h3, h.perm.length_eq, List.length_append, h4]

/-- A broken text with three blocks in a program with two. -/
example : ∃ s', eval ⟨2, [1, 0], [0, 1], 11⟩ 3 none = .ok (.nothing, false, s') ∧ s'.live.length = 5 :=
  C67_broken_violated (l := [.alloc, .alloc]) trivial rfl 3

end Verif.Props.Track
