import Verif.Model.Track

/-! # Memory for parsed programs: lemmas -/

namespace Verif.Lemmas.Track

open Verif.Model Verif.Model.Track
open Verif.Spec.Track (Op)

theorem ok_bind' {α β : Type} (a : α) (f : α → Out β) : (Out.ok a).bind f = f a := rfl

/-- The blocks in memory are exactly the tracked ones; each is tracked once; new blocks have new numbers. -/
structure Inv (s : St) : Prop where
  perm : s.live.Perm s.blocks
  nodup : s.blocks.Nodup
  fresh : ∀ b ∈ s.blocks, b < s.next
  cap : s.blocks.length ≤ s.cap

theorem init_inv : Inv init := ⟨List.Perm.nil, List.nodup_nil, (fun b h => by cases h), Nat.le_refl _⟩

theorem alloc_inv {s : St} (h : Inv s) : ∃ s', allocTracked s = .ok (s.next, s') ∧ Inv s' ∧ s'.blocks = s.blocks ++ [s.next] ∧
    s'.next = s.next + 1 := by
  unfold allocTracked
  have hc : s.blocks.length < (if s.blocks.length ≥ s.cap then (if s.cap = 0 then 1 else s.cap + 10) else s.cap) := by
    have := h.cap
    split <;> (try split) <;> omega
  dsimp only
  rw [if_pos hc]
  refine ⟨_, rfl, ⟨?_, ?_, ?_, ?_⟩, rfl, rfl⟩
  · exact (List.Perm.cons _ h.perm).trans (List.perm_append_singleton _ _).symm
  · refine List.nodup_append.2 ⟨h.nodup, by simp, ?_⟩
    intro a ha b hb hab
    have hb' : b = s.next := List.mem_singleton.1 hb
    have := h.fresh a ha
    omega
  · intro b hb
    rcases List.mem_append.1 hb with hb | hb
    · have := h.fresh b hb
      show b < s.next + 1
      omega
    · have hb' : b = s.next := List.mem_singleton.1 hb
      show b < s.next + 1
      omega
  · show (s.blocks ++ [s.next]).length ≤ _
    rw [List.length_append]
    exact hc

theorem free_ok {s : St} {b : Nat} (h : b ∈ s.live) : free s b = .ok { s with live := s.live.erase b } := if_pos h

theorem set_perm (l : List Nat) (i n : Nat) (h : i < l.length) : (l.set i n).Perm (n :: l.erase l[i]) := by
  induction l generalizing i with
  | nil => simp at h
  | cons a l ih =>
    cases i with
    | zero => simp
    | succ i =>
      have hi : i < l.length := by simpa using h
      rw [List.set_cons_succ, List.getElem_cons_succ]
      refine (List.Perm.cons a (ih i hi)).trans ?_
      refine (List.Perm.swap n a _).trans (List.Perm.cons n ?_)
      by_cases hc : a = l[i]
      · rw [← hc, List.erase_cons_head]
        have hm : a ∈ l := hc ▸ List.getElem_mem hi
        exact (List.perm_cons_erase hm).symm
      · rw [List.erase_cons_tail (by simpa using hc)]

theorem realloc_inv {s : St} (h : Inv s) {i : Nat} (hi : i < s.blocks.length) :
    ∃ s', reallocTracked s i = .ok s' ∧ Inv s' ∧ s'.blocks = s.blocks.set i s.next ∧ s'.next = s.next + 1 := by
  unfold reallocTracked
  rw [List.getElem?_eq_getElem hi]
  dsimp only
  have hm : s.blocks[i] ∈ s.live := h.perm.mem_iff.2 (List.getElem_mem hi)
  rw [free_ok hm, ok_bind']
  refine ⟨_, rfl, ⟨?_, ?_, ?_, ?_⟩, rfl, rfl⟩
  · exact (List.Perm.cons s.next (h.perm.erase _)).trans (set_perm _ _ _ hi).symm
  · refine (set_perm s.blocks i s.next hi).nodup_iff.2 ?_
    refine List.nodup_cons.2 ⟨fun hc => ?_, h.nodup.erase _⟩
    have := h.fresh _ (List.mem_of_mem_erase hc)
    omega
  · intro b hb
    have hb' := (set_perm s.blocks i s.next hi).mem_iff.1 hb
    rcases List.mem_cons.1 hb' with hb' | hb'
    · show b < s.next + 1
      omega
    · have := h.fresh b (List.mem_of_mem_erase hb')
      show b < s.next + 1
      omega
  · show (s.blocks.set i s.next).length ≤ s.cap
    rw [List.length_set]
    exact h.cap

theorem erase_last {l : List Nat} {n : Nat} (h : l.length = n + 1) (hd : l.Nodup) : l.erase (l[n]'(by omega)) = l.take n := by
  have h1 : l = l.take n ++ [l[n]'(by omega)] := by
    rw [List.take_append_getElem (by omega), List.take_of_length_le (by omega)]
  have h2 : l[n]'(by omega) ∉ l.take n := by
    intro hm
    rw [h1] at hd
    exact (List.nodup_append.1 hd).2.2 _ hm _ (List.mem_singleton.2 rfl) rfl
  conv => lhs; lhs; rw [h1]
  rw [List.erase_append_right _ h2, List.erase_cons_head, List.append_nil]

theorem rewindLoop_inv {k n : Nat} {s : St} (h : Inv s) (hn : s.blocks.length = n) :
    ∃ s', rewindLoop k n s = .ok s' ∧ Inv s' ∧ s'.blocks = s.blocks.take k ∧ s'.next = s.next := by
  induction n generalizing s with
  | zero =>
    refine ⟨s, rfl, h, ?_, rfl⟩
    rw [List.length_eq_zero_iff.1 hn, List.take_nil]
  | succ n ih =>
    unfold rewindLoop
    split
    · next hk =>
      have hlt : n < s.blocks.length := by omega
      rw [List.getElem?_eq_getElem hlt]
      dsimp only
      have hm : s.blocks[n] ∈ s.live := h.perm.mem_iff.2 (List.getElem_mem hlt)
      rw [free_ok hm, ok_bind']
      have hinv : Inv { s with live := s.live.erase s.blocks[n], blocks := s.blocks.take n } :=
        ⟨by rw [← erase_last hn h.nodup]; exact h.perm.erase _, h.nodup.sublist (List.take_sublist _ _),
          fun b hb => h.fresh b (List.mem_of_mem_take hb), by
            have := h.cap
            show (s.blocks.take n).length ≤ s.cap
            rw [List.length_take]; omega⟩
      obtain ⟨s', h1, h2, h3, h4⟩ := ih hinv (by simp; omega)
      refine ⟨s', h1, h2, ?_, h4⟩
      rw [h3]
      dsimp only
      rw [List.take_take, Nat.min_eq_left (by omega)]
    · next hk => exact ⟨s, rfl, h, (List.take_of_length_le (by omega)).symm, rfl⟩

theorem rewind_inv {s : St} (h : Inv s) (k : Nat) :
    ∃ s', rewind s k = .ok s' ∧ Inv s' ∧ s'.blocks = s.blocks.take k ∧ s'.next = s.next := rewindLoop_inv h rfl

theorem freeLoop_ok {l : List Nat} {s : St} (h : s.live.Perm l) : freeLoop l s = .ok { s with live := [] } := by
  induction l generalizing s with
  | nil =>
    have : s.live = [] := List.perm_nil.1 h
    rw [freeLoop, ← this]
  | cons b l ih =>
    rw [freeLoop, free_ok (h.mem_iff.2 List.mem_cons_self), ok_bind', ih (by
      have := h.erase b
      rw [List.erase_cons_head] at this
      exact this)]

theorem freeRest_ok {s : St} (h : Inv s) : freeRest s = .ok { s with live := [], blocks := [], cap := 0 } := by
  rw [freeRest, freeLoop_ok h.perm, ok_bind']

theorem allocMany_inv (n : Nat) {s : St} (h : Inv s) :
    ∃ bs s', allocMany n s = .ok (bs, s') ∧ Inv s' ∧ s'.blocks = s.blocks ++ bs ∧ bs.length = n ∧
      (∀ b ∈ bs, s.next ≤ b) := by
  induction n generalizing s with
  | zero => exact ⟨[], s, rfl, h, by simp, rfl, (fun b h => by cases h)⟩
  | succ n ih =>
    obtain ⟨s1, h1, h2, h3, h4⟩ := alloc_inv h
    obtain ⟨bs, s2, h5, h6, h7, h8, h9⟩ := ih h2
    refine ⟨s.next :: bs, s2, by rw [allocMany, h1, ok_bind', h5]; rfl, h6, by rw [h7, h3]; simp, by simp [h8], ?_⟩
    intro b hb
    rcases List.mem_cons.1 hb with hb | hb
    · omega
    · have := h9 b hb
      omega

end Verif.Lemmas.Track
