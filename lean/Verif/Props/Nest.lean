import Verif.Lemmas.Nest

/-! # Sequences and lists as text: properties -/

namespace Verif.Props.Nest

open Verif.Model.Nest Verif.Spec.Nest Verif.Lemmas.Nest

/-- Whether a conversion succeeds. -/
def Succeeds (w : Words) (σ : Store) (i : Nat) (s : St) : Prop :=
  ∃ t s', codeOf w σ 201 i s = some (t, s') ∧ s'.flow = false

theorem does (w : Words) (σ : Store) (i : Nat) {s : St} (h : s.flow = false) : Does w σ (codeOf w σ 201) s i :=
  codeOf_does w σ 201 i s h (by have := left_le s.seqDepth; have := left_le s.mapDepth; omega)

/-- **C44**: every conversion comes to an end, whatever the objects are (cyclic ones included) and whatever happened before;
201 nested calls are enough. -/
theorem C44_ends (w : Words) (σ : Store) (i : Nat) (s : St) : ∃ t s', codeOf w σ 201 i s = some (t, s') := by
  by_cases h : s.flow = true
  · exact ⟨_, _, codeOf_idle w σ 200 i s h⟩
  · have h : s.flow = false := by simpa using h
    obtain ⟨h1, h2⟩ := does w σ i h
    by_cases hw : Within σ (left s.seqDepth) (left s.mapDepth) i
    · obtain ⟨t, h3, _⟩ := h1 hw
      exact ⟨_, _, h3⟩
    · obtain ⟨t, s', h3, _⟩ := h2 hw
      exact ⟨_, _, h3⟩

theorem within_left {s : St} {σ : Store} {w : Words} {i : Nat} (h : s.flow = false) :
    Succeeds w σ i s ↔ Within σ (left s.seqDepth) (left s.mapDepth) i := by
  obtain ⟨h1, h2⟩ := does w σ i h
  constructor
  · rintro ⟨t, s', h3, h4⟩
    by_cases hw : Within σ (left s.seqDepth) (left s.mapDepth) i
    · exact hw
    · obtain ⟨t', s'', h5, h6, _⟩ := h2 hw
      rw [h3] at h5
      injection h5 with h5
      injection h5 with _ h5
      rw [h5, h6] at h4
      cases h4
  · intro hw
    obtain ⟨t, h3, _⟩ := h1 hw
    exact ⟨t, s, h3, h⟩

theorem history_ok (w : Words) : ∀ (l : List (Store × Nat)) (s : St), s.flow = false →
    (∀ p ∈ l, Within p.1 (left s.seqDepth) (left s.mapDepth) p.2) → history w 201 l s = some s
  | [], s, _, _ => rfl
  | (σ, i) :: l, s, hs, h => by
    obtain ⟨t, h1, _⟩ := (does w σ i hs).1 (h (σ, i) List.mem_cons_self)
    unfold history
    rw [h1]
    dsimp only
    rw [show ({ s with flow := false } : St) = s by cases s; dsimp only at hs; subst hs; rfl]
    exact history_ok w l s hs (fun p hp => h p (List.mem_cons_of_mem _ hp))

/-- **C44** as long as no conversion failed: after any number of successful conversions, an object is converted exactly if no
path leads through more than 99 sequences or more than 99 lists, and then the text consists of the texts of its parts. -/
theorem C44_partial (w : Words) (l : List (Store × Nat)) (h : ∀ p ∈ l, Within p.1 99 99 p.2) :
    ∃ s, history w 201 l init = some s ∧ ∀ σ i, (Succeeds w σ i s ↔ Within σ 99 99 i) ∧
      (Within σ 99 99 i → ∃ t s', codeOf w σ 201 i s = some (t, s') ∧ Shows w σ i t) := by
  refine ⟨init, history_ok w l init rfl h, fun σ i => ⟨within_left rfl, fun hw => ?_⟩⟩
  obtain ⟨t, h1, h2⟩ := (does w σ i (s := init) rfl).1 hw
  exact ⟨t, _, h1, h2⟩

/-- A sequence of a text, a list and an empty sequence: inside the limit. -/
def sample : Store := fun i =>
  if i = 0 then .seq [1, 2, 3] else if i = 1 then .leaf [65] else if i = 2 then .map [(1, [66]), (3, [67])] else .seq []

theorem sample_within : Within sample 99 99 0 :=
  .seq rfl (fun x hx => by
    simp only [List.mem_cons, List.not_mem_nil, or_false] at hx
    rcases hx with rfl | rfl | rfl
    · exact .leaf rfl
    · refine .map (xs := [(1, [66]), (3, [67])]) rfl (fun p hp => ?_)
      simp only [List.mem_cons, List.not_mem_nil, or_false] at hp
      rcases hp with rfl | rfl
      · exact .leaf rfl
      · exact .seq (xs := []) rfl (fun x hx => by cases hx)
    · exact .seq (xs := []) rfl (fun x hx => by cases hx))

example : ∀ p ∈ [(sample, 0), (sample, 2)], Within p.1 99 99 p.2 := by
  intro p hp
  simp only [List.mem_cons, List.not_mem_nil, or_false] at hp
  rcases hp with rfl | rfl
  · exact sample_within
  · refine .map (xs := [(1, [66]), (3, [67])]) rfl (fun p hp => ?_)
    simp only [List.mem_cons, List.not_mem_nil, or_false] at hp
    rcases hp with rfl | rfl
    · exact .leaf rfl
    · exact .seq (xs := []) rfl (fun x hx => by cases hx)

/-- A sequence that contains itself. -/
def loop : Store := fun _ => .seq [0]

theorem loop_within (a b : Nat) : ¬ Within loop a b 0 := by
  induction a with
  | zero =>
    intro h
    obtain ⟨a', h, _⟩ := (within_seq (σ := loop) (i := 0) (xs := [0]) rfl).1 h
    omega
  | succ a ih =>
    intro h
    obtain ⟨a', h, hh⟩ := (within_seq (σ := loop) (i := 0) (xs := [0]) rfl).1 h
    obtain rfl : a' = a := by omega
    exact ih (hh 0 List.mem_cons_self)

theorem loop_items : ∀ (f : Nat) (w : Words) (s : St), s.flow = false →
    ∀ t s', codeOf w loop f 0 s = some (t, s') → s'.mapDepth = s.mapDepth
  | 0, w, s, _, t, s', h => by unfold codeOf at h; cases h
  | f + 1, w, s, hs, t, s', h => by
    unfold codeOf at h
    rw [hs] at h
    rw [if_neg (by intro h; cases h)] at h
    change between w (seqText w (codeOf w loop f) [0] s) = some (t, s') at h
    unfold seqText at h
    dsimp only at h
    split at h
    · injection h with h
      injection h with _ h
      rw [← h]
    · unfold seqItems at h
      cases hc : codeOf w loop f 0 { s with seqDepth := s.seqDepth + 1 } with
      | none =>
        rw [hs] at hc h
        rw [hc] at h
        cases h
      | some p =>
        obtain ⟨t1, s1⟩ := p
        have ih := loop_items f w _ (by exact hs) t1 s1 hc
        rw [hs] at hc h
        rw [hc] at h
        unfold seqItems at h
        injection h with h
        injection h with _ h
        rw [← h]
        exact ih

theorem history_loop (w : Words) : ∀ (n : Nat) (c : UInt8), 
    history w 201 (List.replicate n (loop, 0)) ⟨c, 0, false⟩ = some ⟨c + UInt8.ofNat n, 0, false⟩
  | 0, c => by
    show some _ = some (St.mk (c + 0) 0 false)
    rw [UInt8.add_zero]
  | n + 1, c => by
    rw [List.replicate_succ]
    unfold history
    obtain ⟨t, s', h1, h2, h3⟩ := (does w loop 0 (s := ⟨c, 0, false⟩) rfl).2 (loop_within _ _)
    have hm := loop_items 201 w ⟨c, 0, false⟩ rfl t s' h1
    rw [h1]
    dsimp only at h3 hm ⊢
    rcases h3 with ⟨e1, e2⟩ | ⟨_, e2⟩
    · rw [e1, e2, history_loop w n (c + 1)]
      rw [UInt8.ofNat_add, UInt8.add_assoc, UInt8.add_comm 1]
      rfl
    · rw [hm] at e2
      exact absurd e2 (by decide)

/-- **C44** is violated: every conversion that fails takes one level away from all later ones, until nothing can be converted
any more. After `n` conversions of a sequence that contains itself, an object is converted exactly if no path leads through
more than `99 - n` sequences. -/
theorem C44_violated (w : Words) (n : Nat) (hn : n ≤ 99) :
    ∃ s, history w 201 (List.replicate n (loop, 0)) init = some s ∧
      ∀ σ i, Succeeds w σ i s ↔ Within σ (99 - n) 99 i := by
  refine ⟨⟨0 + UInt8.ofNat n, 0, false⟩, history_loop w n 0, fun σ i => ?_⟩
  rw [within_left rfl]
  have e : left (0 + UInt8.ofNat n) = 99 - n := by
    unfold left
    rw [UInt8.zero_add]
    have : (UInt8.ofNat n).toNat = n := by
      rw [UInt8.toNat_ofNat']
      omega
    rw [this, if_neg (by omega)]
  dsimp only
  rw [e]
  exact Iff.rfl

/-- In particular the empty sequence, which is converted at the start, is not converted after 99 failures. -/
example (w : Words) : Succeeds w (fun _ => .seq []) 0 init ∧
    ∃ s, history w 201 (List.replicate 99 (loop, 0)) init = some s ∧ ¬ Succeeds w (fun _ => .seq []) 0 s := by
  refine ⟨(within_left rfl).2 (.seq rfl (fun x hx => by cases hx)), ?_⟩
  obtain ⟨s, h1, h2⟩ := C44_violated w 99 (Nat.le_refl _)
  refine ⟨s, h1, fun h => ?_⟩
  obtain ⟨a', h, _⟩ := (within_seq (σ := fun _ => .seq []) (i := 0) (xs := []) rfl).1 ((h2 _ _).1 h)
  omega

end Verif.Props.Nest
