import Verif.Model.Network

/-!
# Answers from the network (C119)
-/

namespace Verif.Props.Network
open Verif Verif.Model Verif.Model.Network

theorem bind_ok {α β : Type} (a : α) (f : α → Out β) : (Out.ok a).bind f = f a := rfl

/-- New blocks hold zeros. -/
def Clean (env : Nat → Option Text) : Prop := ∀ j junk, env j = some junk → ∀ c ∈ junk, c = 0

/-- There is no pool, as usual. -/
def NoPool (env : Nat → Option Text) : Prop := ∀ j, env j = none

theorem block_length (e : Option Text) (n : Nat) : n ≤ (block e n).length ∧ (120 < n → (block e n).length = n) ∧
    (n ≤ 120 → (block e n).length ≤ 121) := by
  have h0 : ∀ (junk : Text) (k : Nat), ((junk ++ List.replicate k 0).take k).length = k := by
    intro junk k
    rw [List.length_take, List.length_append, List.length_replicate]
    omega
  unfold block
  cases e with
  | none =>
    dsimp only
    rw [List.length_replicate]
    split <;> refine ⟨?_, ?_, ?_⟩ <;> omega
  | some junk =>
    dsimp only
    repeat' split
    all_goals simp only [h0, List.length_replicate]
    all_goals refine ⟨?_, fun _ => ?_, fun _ => ?_⟩ <;> first | trivial | omega

theorem block_zero (e : Option Text) (n : Nat) (h : ∀ junk, e = some junk → ∀ c ∈ junk, c = 0) : ∀ c ∈ block e n, c = 0 := by
  unfold block
  cases e with
  | none =>
    intro c hc
    exact (List.mem_replicate.1 hc).2
  | some junk =>
    have h0 : ∀ k, ∀ c ∈ (junk ++ List.replicate k 0).take k, c = 0 := by
      intro k c hc
      rcases List.mem_append.1 (List.mem_of_mem_take hc) with hc | hc
      · exact h junk rfl c hc
      · exact (List.mem_replicate.1 hc).2
    dsimp only
    repeat' split
    · exact h0 24
    · exact h0 56
    · exact h0 120
    · intro c hc
      exact (List.mem_replicate.1 hc).2

/-- The size of a block from the system. -/
def cap (n : Nat) : Nat := if n = 24 ∨ n = 56 ∨ n = 120 then n + 1 else n

/-- What holds after `content` has arrived. -/
structure Inv (env : Nat → Option Text) (s : St) (content : Text) : Prop where
  read : s.read = content.length
  size : s.size = max 10 content.length
  room : s.size ≤ s.mem.length
  small : content.length ≤ 120 → s.mem.length ≤ 121
  large : 120 < content.length → s.mem.length = content.length
  plain : NoPool env → s.mem.length = cap s.size
  mem : ∃ rest, s.mem = content ++ rest ∧ (Clean env → ∀ c ∈ rest, c = 0)

theorem init_inv (env : Nat → Option Text) : Inv env ⟨block (env 0) 10, 10, 0⟩ [] := by
  obtain ⟨h1, h2, h3⟩ := block_length (env 0) 10
  refine ⟨rfl, rfl, h1, fun _ => h3 (by omega), fun h => absurd h (by simp), fun h => ?_, block (env 0) 10, rfl, fun h => ?_⟩
  · dsimp only
    rw [h 0]
    rfl
  · exact block_zero _ _ (h 0)

theorem realloc_spec (e : Option Text) (mem : Text) (n : Nat) :
    (realloc e mem n).length = max mem.length (block e n).length ∧ ∃ more, realloc e mem n = mem ++ more ∧
      ∀ c ∈ more, c ∈ block e n := by
  unfold realloc
  split
  · exact ⟨by omega, [], by simp, by simp⟩
  · refine ⟨?_, _, rfl, fun c hc => List.mem_of_mem_drop hc⟩
    rw [List.length_append, List.length_drop]
    omega

theorem callback_inv (env : Nat → Option Text) (j : Nat) (s : St) (content d : Text) (h : Inv env s content) :
    ∃ s', callback (env j) s d = .ok s' ∧ Inv env s' (content ++ d) := by
  obtain ⟨hread, hsize, hroom, hsmall, hlarge, hplain, rest, hmem, hz⟩ := h
  have key : ∃ s1, enlarge (env j) s (d.length + s.read) = s1 ∧ s1.read = content.length ∧
      s1.size = max 10 (content ++ d).length ∧ s1.size ≤ s1.mem.length ∧ ((content ++ d).length ≤ 120 → s1.mem.length ≤ 121) ∧
      (120 < (content ++ d).length → s1.mem.length = (content ++ d).length) ∧ (NoPool env → s1.mem.length = cap s1.size) ∧
      ∃ rest, s1.mem = content ++ rest ∧ (Clean env → ∀ c ∈ rest, c = 0) := by
    refine ⟨_, rfl, ?_⟩
    rw [List.length_append]
    unfold enlarge
    by_cases hr : d.length + s.read > s.size
    · rw [if_pos hr]
      obtain ⟨b1, b2, b3⟩ := block_length (env j) (d.length + s.read)
      obtain ⟨r1, more, r2, r3⟩ := realloc_spec (env j) s.mem (d.length + s.read)
      dsimp only
      refine ⟨hread, by omega, by omega, fun h => ?_, fun h => ?_, fun hn => ?_, rest ++ more, ?_, fun hc c hm => ?_⟩
      · have := hsmall (by omega)
        have := b3 (by omega)
        omega
      · have := b2 (by omega)
        by_cases hc : content.length ≤ 120
        · have := hsmall hc
          omega
        · have := hlarge (by omega)
          omega
      · have e1 := hplain hn
        have e2 : (block (env j) (d.length + s.read)).length = cap (d.length + s.read) := by
          rw [hn j]
          exact List.length_replicate ..
        rw [r1, e2, e1]
        unfold cap
        split <;> split <;> omega
      · rw [r2, hmem, List.append_assoc]
      · rcases List.mem_append.1 hm with hm | hm
        · exact hz hc c hm
        · exact block_zero _ _ (hc j) c (r3 c hm)
    · rw [if_neg hr]
      refine ⟨hread, by omega, hroom, fun h => hsmall (by omega), fun h => ?_, hplain, rest, hmem, hz⟩
      have := hlarge (by omega)
      omega
  obtain ⟨s1, e1, k1, k2, k3, k4, k5, k6, rest1, k7, k8⟩ := key
  unfold callback
  dsimp only
  rw [e1]
  have hl : (content ++ d).length = content.length + d.length := List.length_append
  rw [if_neg (by omega)]
  have hm : s1.mem.take s1.read ++ d ++ s1.mem.drop (s1.read + d.length) = content ++ d ++ rest1.drop d.length := by
    rw [k7, k1, List.take_left, ← List.drop_drop, List.drop_left]
  have hlen : (content ++ d ++ rest1.drop d.length).length = s1.mem.length := by
    rw [k7, List.length_append, List.length_drop, List.length_append, List.length_append]
    have : s1.mem.length = content.length + rest1.length := by rw [k7, List.length_append]
    omega
  refine ⟨_, rfl, ?_⟩
  rw [hm]
  refine ⟨by rw [hl]; dsimp only; omega, k2, by dsimp only; omega, fun h => ?_, fun h => ?_, fun h => ?_, _, rfl, fun h c hc => ?_⟩
  · dsimp only
    rw [hlen]
    exact k4 h
  · dsimp only
    rw [hlen]
    exact k5 h
  · dsimp only
    rw [hlen]
    exact k6 h
  · exact k8 h c (List.mem_of_mem_drop hc)

theorem receive_inv (env : Nat → Option Text) : ∀ (chunks : List Text) (j : Nat) (s : St) (content : Text), Inv env s content →
    ∃ s', receive env j s chunks = .ok s' ∧ Inv env s' (content ++ chunks.flatten)
  | [], j, s, content, h => ⟨s, by rw [receive], by rw [List.flatten_nil, List.append_nil]; exact h⟩
  | d :: ds, j, s, content, h => by
    obtain ⟨s1, e1, h1⟩ := callback_inv env j s content d h
    obtain ⟨s2, e2, h2⟩ := receive_inv env ds (j + 1) s1 _ h1
    refine ⟨s2, ?_, ?_⟩
    · rw [receive, e1, bind_ok, e2]
    · rw [List.flatten_cons, ← List.append_assoc]
      exact h2

theorem cstr_zero : ∀ (a r : Text), 0 ∉ a → cstr (a ++ 0 :: r) = .ok a
  | [], r, _ => by rw [List.nil_append, cstr, if_pos rfl]
  | c :: a, r, h => by
    have hc : c ≠ 0 := fun e => h (e ▸ List.mem_cons_self)
    rw [List.cons_append, cstr, if_neg hc, cstr_zero a r (fun hm => h (List.mem_cons_of_mem _ hm)), bind_ok]

theorem cstr_end : ∀ (a : Text), 0 ∉ a → cstr a = .ub
  | [], _ => rfl
  | c :: a, h => by
    have hc : c ≠ 0 := fun e => h (e ▸ List.mem_cons_self)
    rw [cstr, if_neg hc, cstr_end a (fun hm => h (List.mem_cons_of_mem _ hm))]
    rfl

/-- **C119**: in whatever pieces an answer arrives, it is collected completely and in order, and nothing is written outside of
the memory for it. -/
theorem C119_collected (env : Nat → Option Text) (chunks : List Text) :
    ∃ s, receive env 1 ⟨block (env 0) 10, 10, 0⟩ chunks = .ok s ∧ s.read = chunks.flatten.length ∧
      s.mem.take s.read = chunks.flatten := by
  obtain ⟨s, e, h⟩ := receive_inv env chunks 1 _ [] (init_inv env)
  rw [List.nil_append] at h
  obtain ⟨rest, hm, _⟩ := h.mem
  exact ⟨s, e, h.read, by rw [hm, h.read, List.take_left]⟩

/-- **C119 (partial)**: an answer of at most nine bytes without zero bytes is delivered as it was sent, in whatever pieces it
arrives, if new blocks hold zeros; without a pool so is an answer of 24, 56 or 120 bytes. -/
theorem C119_partial (env : Nat → Option Text) (chunks : List Text) (hc : Clean env) (h0 : 0 ∉ chunks.flatten)
    (hl : chunks.flatten.length < 10 ∨ NoPool env ∧ (chunks.flatten.length = 24 ∨ chunks.flatten.length = 56 ∨
      chunks.flatten.length = 120)) : send env chunks = .ok chunks.flatten := by
  obtain ⟨s, e, h⟩ := receive_inv env chunks 1 _ [] (init_inv env)
  rw [List.nil_append] at h
  obtain ⟨rest, hm, hz⟩ := h.mem
  have hlen : chunks.flatten.length < s.mem.length := by
    have h1 := h.size
    have h2 := h.room
    rcases hl with hl | ⟨hn, hl⟩
    · omega
    · rw [h.plain hn]
      unfold cap
      split <;> omega
  unfold send
  rw [e, bind_ok, hm]
  cases rest with
  | nil =>
    rw [hm, List.append_nil] at hlen
    omega
  | cons c r =>
    rw [hz hc c List.mem_cons_self]
    exact cstr_zero _ _ h0

/-- The full statement: an answer is delivered as it was sent. -/
def C119_full : Prop := ∀ (env : Nat → Option Text) (chunks : List Text), Clean env → 0 ∉ chunks.flatten →
  send env chunks = .ok chunks.flatten

/-- **C119, violated**: without a pool, every answer of ten or more bytes (but 24, 56 and 120) without zero bytes is read
beyond the end of its memory, because no zero byte is put behind it. -/
theorem C119_violated (env : Nat → Option Text) (chunks : List Text) (hn : NoPool env) (h0 : 0 ∉ chunks.flatten)
    (hl : 10 ≤ chunks.flatten.length) (h1 : chunks.flatten.length ≠ 24) (h2 : chunks.flatten.length ≠ 56)
    (h3 : chunks.flatten.length ≠ 120) : send env chunks = .ub := by
  obtain ⟨s, e, h⟩ := receive_inv env chunks 1 _ [] (init_inv env)
  rw [List.nil_append] at h
  obtain ⟨rest, hm, _⟩ := h.mem
  have hlen : s.mem.length = chunks.flatten.length := by
    have hs := h.size
    rw [h.plain hn]
    unfold cap
    split <;> omega
  have hr : rest = [] := by
    rw [hm, List.length_append] at hlen
    exact List.length_eq_zero_iff.1 (by omega)
  unfold send
  rw [e, bind_ok, hm, hr, List.append_nil]
  exact cstr_end _ h0

/-- **C119, violated**: the same, with or without a pool, for every answer of more than 120 bytes without zero bytes. -/
theorem C119_violated_long (env : Nat → Option Text) (chunks : List Text) (h0 : 0 ∉ chunks.flatten)
    (hl : 120 < chunks.flatten.length) : send env chunks = .ub := by
  obtain ⟨s, e, h⟩ := receive_inv env chunks 1 _ [] (init_inv env)
  rw [List.nil_append] at h
  obtain ⟨rest, hm, _⟩ := h.mem
  have hlen := h.large hl
  have hr : rest = [] := by
    rw [hm, List.length_append] at hlen
    exact List.length_eq_zero_iff.1 (by omega)
  unfold send
  rw [e, bind_ok, hm, hr, List.append_nil]
  exact cstr_end _ h0

/-- **C119, violated**: an answer with a zero byte is cut there. -/
theorem C119_violated_zero (env : Nat → Option Text) (chunks : List Text) (a r : Text) (h : chunks.flatten = a ++ 0 :: r)
    (ha : 0 ∉ a) : send env chunks = .ok a := by
  obtain ⟨s, e, hi⟩ := receive_inv env chunks 1 _ [] (init_inv env)
  rw [List.nil_append] at hi
  obtain ⟨rest, hm, _⟩ := hi.mem
  unfold send
  rw [e, bind_ok, hm, h, List.append_assoc]
  exact cstr_zero _ _ ha

/-- **C119, violated**: with a new pool, an answer is followed by what was in the memory before (`hi`, then `xxx`). -/
theorem C119_violated_pool : send (fun _ => some [121, 121, 120, 120, 120, 0]) [[104], [105]] = .ok [104, 105, 120, 120, 120] := by
  decide +kernel

theorem C119_full_false : ¬ C119_full := by
  intro h
  have h1 := h (fun _ => none) [[97, 98, 99, 100, 101], [97, 98, 99, 100, 101]] (fun _ _ h => by cases h) (by decide)
  rw [C119_violated (fun _ => none) _ (fun _ => rfl) (by decide) (by decide) (by decide) (by decide) (by decide)] at h1
  cases h1

/-- The hypotheses are met: `hello` in two pieces is delivered, eleven bytes are not. -/
example : Clean (fun _ => none) ∧ send (fun _ => none) [[104, 101], [108, 108, 111]] = .ok [104, 101, 108, 108, 111] ∧
    send (fun _ => none) [[104, 101, 108, 108, 111, 32], [119, 111, 114, 108, 100]] = .ub ∧
    send (fun _ => none) [[104, 0, 105]] = .ok [104] :=
  ⟨(fun _ _ h => by cases h), by decide +kernel⟩

end Verif.Props.Network
