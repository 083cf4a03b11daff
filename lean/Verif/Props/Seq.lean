import Verif.Lemmas.Seq

/-!
# Properties C01–C10 (sequences)

`Spec` interpretation: a sequence is a list; `specStep` says what every message must answer.  `put:at:` is
interpreted as the ideal list update.
-/

namespace Verif.Props.Seq

open Verif.Model

variable {α : Type} [HasNil α]

/-- Number arguments for which the C conversions are defined (`(int) n - 1`, `(size_t) n`). -/
def InRange : SeqOp α → Prop
  | .position n => InInt n ∧ InInt (n - 1)
  | .put _ n => n < 18446744073709551616
  | .fill n _ => n < 18446744073709551616
  | _ => True

/-- The message is `put:at:`. -/
def IsPut : SeqOp α → Bool
  | .put _ _ => true
  | _ => false

/-- The message is `shift`. -/
def IsShift : SeqOp α → Bool
  | .shift => true
  | _ => false

/-- What a message does to, and answers for, the mathematical list `l`. -/
def specStep (l : List α) : SeqOp α → List α × Reply α
  | .append a => (l ++ [a], .self)
  | .prepend a => (a :: l, .self)
  | .pop => (l.dropLast, .val (l.getLast?.getD HasNil.nil))
  | .shift => (l.tail, .val (l.head?.getD HasNil.nil))
  | .put a n => if n < 1 then (l, .err) else (Spec.putAt HasNil.nil l n.toNat a, .self)
  | .fill n a => (l ++ List.replicate n.toNat a, .self)
  | .position n => (l, .val ((Spec.position l n).getD HasNil.nil))
  | .positionNaN => (l, .err)
  | .first => (l, .val (l.head?.getD HasNil.nil))
  | .last => (l, .val (l.getLast?.getD HasNil.nil))
  | .penultimate => (l, .val ((Spec.penultimate l).getD HasNil.nil))
  | .count => (l, .num l.length)

/-- A history of messages on the mathematical list. -/
def specRun (l : List α) : List (SeqOp α) → List α × List (Reply α)
  | [] => (l, [])
  | op :: ops =>
    let (l1, r) := specStep l op
    let (l2, rs) := specRun l1 ops
    (l2, r :: rs)

/-- `s` is observationally the list `l`: every put-free history of messages gets the replies of `l`. -/
def Shows (s : Seq α) (l : List α) : Prop :=
  ∀ h : List (SeqOp α), (∀ op ∈ h, InRange op ∧ IsPut op = false) →
    ∃ s', s.run h = .ok (s', (specRun l h).2)

/-- Some history of messages sent to a new sequence leads to `s`. -/
def Reachable (s : Seq α) : Prop :=
  ∃ h rs, (∀ op ∈ h, InRange op) ∧ (Seq.new : Seq α).run h = .ok (s, rs)

/-! ### helper facts about the definitions of this file -/

theorem step_rep {s : Seq α} {pre l : List α} (hr : s.Rep pre l) (op : SeqOp α) (hin : InRange op)
    (hp : IsPut op = false) :
    ∃ s' pre', s.step op = .ok (s', (specStep l op).2) ∧ s'.Rep pre' (specStep l op).1 ∧
      (IsShift op = false → pre = [] → pre' = []) := by
  cases op with
  | append a =>
    obtain ⟨s', e, r⟩ := Seq.push_rep hr a
    exact ⟨s', pre, by simp [Seq.step, e, specStep], r, fun _ h => h⟩
  | prepend a =>
    rcases List.eq_nil_or_concat pre with hp | ⟨p, b, hp⟩
    · subst hp
      obtain ⟨s', e, r⟩ := Seq.unshift_rep_zero hr a
      exact ⟨s', [], by simp [Seq.step, e, specStep], r, fun _ h => h⟩
    · subst hp
      obtain ⟨s', e, r⟩ := Seq.unshift_rep_pos (by simpa using hr) a
      exact ⟨s', p, by simp [Seq.step, e, specStep], r, fun _ h => by simp at h⟩
  | pop =>
    rcases List.eq_nil_or_concat l with hl | ⟨l', b, hl⟩
    · subst hl
      have e := Seq.pop_rep_nil hr
      exact ⟨s, pre, by simp [Seq.step, e, specStep], hr, fun _ h => h⟩
    · subst hl
      obtain ⟨s', e, r⟩ := Seq.pop_rep_concat (by simpa using hr)
      exact ⟨s', pre, by simp [Seq.step, e, specStep], by simpa [specStep] using r, fun _ h => h⟩
  | shift =>
    cases l with
    | nil =>
      have e := Seq.shift_rep_nil hr
      exact ⟨s, pre, by simp [Seq.step, e, specStep], hr, fun h => by simp [IsShift] at h⟩
    | cons a l =>
      obtain ⟨s', e, r⟩ := Seq.shift_rep_cons hr
      exact ⟨s', pre ++ [a], by simp [Seq.step, e, specStep], r, fun h => by simp [IsShift] at h⟩
  | put a n => simp [IsPut] at hp
  | fill n a =>
    by_cases hn : n < 1
    · have h0 : n.toNat = 0 := by omega
      exact ⟨s, pre, by simp [Seq.step, Seq.fill, hn, specStep], by simpa [specStep, h0] using hr,
        fun _ h => h⟩
    · obtain ⟨s', e, r⟩ := Seq.pushN_rep hr a n.toNat
      have hlt : ¬ n ≥ 18446744073709551616 := by simp only [InRange] at hin; omega
      exact ⟨s', pre, by simp only [Seq.step, Seq.fill, if_neg hn, if_neg hlt, e, specStep]; rfl, r,
        fun _ h => h⟩
  | position n =>
    exact ⟨s, pre, by simp [Seq.step, Seq.get_rep hr n hin, specStep], hr, fun _ h => h⟩
  | positionNaN => exact ⟨s, pre, rfl, hr, fun _ h => h⟩
  | first => exact ⟨s, pre, by simp [Seq.step, Seq.first_rep hr, specStep], hr, fun _ h => h⟩
  | last => exact ⟨s, pre, by simp [Seq.step, Seq.last_rep hr, specStep], hr, fun _ h => h⟩
  | penultimate => exact ⟨s, pre, by simp [Seq.step, Seq.secondLast_rep hr, specStep], hr, fun _ h => h⟩
  | count => exact ⟨s, pre, by simp [Seq.step, Seq.count_rep hr, specStep], hr, fun _ h => h⟩

theorem step_put_rep {s : Seq α} {pre l : List α} (hr : s.Rep pre l) (a : α) (n : Int)
    (hin : n < 18446744073709551616) :
    ∃ s' r pre' l', s.step (.put a n) = .ok (s', r) ∧ s'.Rep pre' l' := by
  by_cases h1 : n < 1
  · exact ⟨s, .err, pre, l, Seq.put_err s a n h1, hr⟩
  · by_cases h2 : pre.length < n.toNat
    · obtain ⟨s', e, r⟩ := Seq.put_rep_ge hr a n (by omega) hin h2
      exact ⟨s', _, _, _, e, r⟩
    · obtain ⟨s', e, r⟩ := Seq.put_rep_lt hr a n (by omega) (by omega) hin
      exact ⟨s', _, _, _, e, r⟩

theorem run_rep {s : Seq α} {pre l : List α} (hr : s.Rep pre l) (h : List (SeqOp α))
    (hin : ∀ op ∈ h, InRange op) :
    ∃ s' rs pre' l', s.run h = .ok (s', rs) ∧ s'.Rep pre' l' := by
  induction h generalizing s pre l with
  | nil => exact ⟨s, [], pre, l, rfl, hr⟩
  | cons op h ih =>
    have h1 : ∃ s' r pre' l', s.step op = .ok (s', r) ∧ s'.Rep pre' l' := by
      cases hp : IsPut op
      · obtain ⟨s', pre', e, r, -⟩ := step_rep hr op (hin op (by simp)) hp
        exact ⟨s', _, pre', _, e, r⟩
      · cases op <;> simp [IsPut] at hp
        rename_i a n
        exact step_put_rep hr a n (hin (.put a n) (by simp))
    obtain ⟨s1, r1, pre1, l1, e1, rep1⟩ := h1
    obtain ⟨s2, rs, pre2, l2, e2, rep2⟩ := ih rep1 (fun op ho => hin op (by simp [ho]))
    exact ⟨s2, r1 :: rs, pre2, l2, by simp [Seq.run, e1, e2], rep2⟩

theorem run_rep_spec {s : Seq α} {pre l : List α} (hr : s.Rep pre l) (h : List (SeqOp α))
    (hin : ∀ op ∈ h, InRange op ∧ IsPut op = false) :
    ∃ s' pre', s.run h = .ok (s', (specRun l h).2) ∧ s'.Rep pre' (specRun l h).1 := by
  induction h generalizing s pre l with
  | nil => exact ⟨s, pre, rfl, hr⟩
  | cons op h ih =>
    obtain ⟨hin1, hp1⟩ := hin op (by simp)
    obtain ⟨s1, pre1, e1, rep1, -⟩ := step_rep hr op hin1 hp1
    obtain ⟨s2, pre2, e2, rep2⟩ := ih rep1 (fun op ho => hin op (by simp [ho]))
    exact ⟨s2, pre2, by simp [Seq.run, e1, e2, specRun], by simpa [specRun] using rep2⟩

theorem rep_shows {s : Seq α} {pre l : List α} (hr : s.Rep pre l) : Shows s l := by
  intro h hin
  obtain ⟨s', _, e, _⟩ := run_rep_spec hr h hin
  exact ⟨s', e⟩

theorem reachable_rep {s : Seq α} (h : Reachable s) : ∃ pre l, s.Rep pre l := by
  obtain ⟨h, rs, hin, e⟩ := h
  obtain ⟨s', rs', pre, l, e', r⟩ := run_rep Seq.rep_new h hin
  rw [e] at e'
  cases e'
  exact ⟨pre, l, r⟩

theorem specRun_shifts (l : List α) : (specRun l (List.replicate l.length .shift)).2 = l.map .val := by
  induction l with
  | nil => rfl
  | cons a l ih => simp [specRun, List.replicate_succ, specStep, ih]

/-- The list a sequence shows is unique. -/
theorem shows_unique {s : Seq α} {l l' : List α} (h : Shows s l) (h' : Shows s l') : l = l' := by
  have hlen : l.length = l'.length := by
    obtain ⟨s1, e1⟩ := h [.count] (by simp [InRange, IsPut])
    obtain ⟨s2, e2⟩ := h' [.count] (by simp [InRange, IsPut])
    rw [e1] at e2
    simp [specRun, specStep] at e2
    omega
  obtain ⟨s1, e1⟩ := h (List.replicate l.length .shift)
    (by intro op ho; simp at ho; simp [ho.2, InRange, IsPut])
  obtain ⟨s2, e2⟩ := h' (List.replicate l.length .shift)
    (by intro op ho; simp at ho; simp [ho.2, InRange, IsPut])
  rw [e1] at e2
  have e3 := (Prod.mk.inj (Out.ok.inj e2)).2
  rw [specRun_shifts, hlen, specRun_shifts] at e3
  exact List.map_inj_right (fun _ _ h => Reply.val.inj h) |>.mp e3

theorem rep_of_shows {s : Seq α} (hr : Reachable s) {l : List α} (h : Shows s l) :
    ∃ pre, s.Rep pre l := by
  obtain ⟨pre, l', r⟩ := reachable_rep hr
  rw [shows_unique h (rep_shows r)]
  exact ⟨pre, r⟩

/-! ### C01 -/

/-- C01: every history of sequence messages (other than `put:at:`, see C03) sent to a new sequence is
answered exactly as the mathematical list answers it; in particular it never runs into undefined
behaviour. -/
theorem C01_deque_refinement (h : List (SeqOp α))
    (hin : ∀ op ∈ h, InRange op ∧ IsPut op = false) :
    ∃ s, (Seq.new : Seq α).run h = .ok (s, (specRun [] h).2) := by
  obtain ⟨s', _, e, _⟩ := run_rep_spec Seq.rep_new h hin
  exact ⟨s', e⟩

/-- C01, strengthened: after *any* history (including `put:at:`) the sequence shows some list, i.e. from
then on every put-free history of messages is answered as that list answers it; and that list is unique. -/
theorem C01_always_a_list (s : Seq α) (hs : Reachable s) :
    ∃ l, Shows s l ∧ ∀ l', Shows s l' → l' = l := by
  obtain ⟨pre, l, r⟩ := reachable_rep hs
  exact ⟨l, rep_shows r, fun l' h => shows_unique h (rep_shows r)⟩

example : ∀ op ∈ ([.append (some 1), .prepend (some 2), .shift, .append (some 3), .pop, .pop, .pop,
    .position 1, .fill 3 (some 7), .penultimate, .count] : List (SeqOp (Option Nat))),
    InRange op ∧ IsPut op = false := by
  simp only [List.mem_cons, List.not_mem_nil, or_false, forall_eq_or_imp, forall_eq, IsPut, InRange, InInt]
  decide

example : (Seq.new : Seq (Option Nat)).run [.append (some 1), .prepend (some 2), .shift, .append (some 3),
    .pop, .pop, .pop, .fill 3 (some 7), .penultimate, .count] =
    .ok (⟨9, 4, 1, [some (some 2), some (some 7), some (some 7), some (some 7), none, none, none, none, none]⟩,
      [.self, .self, .val (some 2), .self, .val (some 3), .val (some 1), .val none, .self, .val (some 7),
       .num 3]) := by decide

/-! ### C02 -/

/-- C02: no history of sequence messages (including `put:at:`) accesses a slot outside the buffer or reads
an uninitialised slot, and afterwards the counters describe a valid range inside the allocation. -/
theorem C02_memory_safe (h : List (SeqOp α)) (hin : ∀ op ∈ h, InRange op) :
    ∃ s rs, (Seq.new : Seq α).run h = .ok (s, rs) ∧
      s.tail ≤ s.head ∧ s.head < s.length ∧ s.buf.length = s.length := by
  obtain ⟨s', rs, pre, l, e, r⟩ := run_rep Seq.rep_new h hin
  exact ⟨s', rs, e, by rw [r.tail_eq, r.head_eq]; omega, r.lt, r.len_eq⟩

/-- C02 for the traversing messages: in every reachable state they stay inside the buffer too. -/
theorem C02_traversals_safe (s : Seq α) (hs : Reachable s) {ν : Type} (lt : ν → ν → Bool) (zero : ν) (num : α → ν)
    (same : α → Bool) (q : List α → List α) (hq : ∀ l, (q l).length = l.length) :
    (s.minimum lt zero num).IsOk ∧ (s.maximum lt zero num).IsOk ∧ (s.indexOf same).IsOk ∧ (s.sort q).IsOk ∧
    (s.head < 2147483648 → s.copy.IsOk) := by
  obtain ⟨pre, l, r⟩ := reachable_rep hs
  refine ⟨?_, ?_, ⟨_, Seq.indexOf_rep r same⟩, ?_, ?_⟩
  · exact ⟨_, Seq.minLoop_all lt num (pre ++ l) 0 s.head zero (fun k hk => Seq.read_all r k hk)⟩
  · unfold Seq.maximum
    rw [Seq.maxLoop_flip]
    exact ⟨_, Seq.minLoop_all _ num (pre ++ l) 0 s.head zero (fun k hk => Seq.read_all r k hk)⟩
  · obtain ⟨s', e, _⟩ := Seq.sort_rep r q (hq l)
    exact ⟨s', e⟩
  · intro hb
    obtain ⟨c, e, _⟩ := Seq.copy_rep r hb
    exact ⟨c, e⟩

example : ∀ op ∈ ([.append (some 1), .append (some 2), .shift, .put (some 9) 1, .put (some 8) 12, .prepend none]
    : List (SeqOp (Option Nat))), InRange op := by
  simp only [List.mem_cons, List.not_mem_nil, or_false, forall_eq_or_imp, forall_eq, InRange, InInt]
  decide

/-! ### C03 -/

/-- Full statement of C03: histories that include `put:at:` are answered as the ideal list answers them. -/
def C03_full (α : Type) [HasNil α] : Prop :=
  ∀ h : List (SeqOp α), (∀ op ∈ h, InRange op) →
    ∃ s, (Seq.new : Seq α).run h = .ok (s, (specRun [] h).2)

/-- C03 is violated by the code: after `shift`, `put: x at: 2` is not read back by `position: 2`. -/
theorem C03_violated : ¬ C03_full (Option Nat) := by
  intro hf
  have := hf [.append (some 1), .append (some 2), .append (some 3), .shift, .put (some 9) 2, .position 2]
    (by simp [InRange, InInt])
  obtain ⟨s, e⟩ := this
  have : (Seq.new : Seq (Option Nat)).run
      [.append (some 1), .append (some 2), .append (some 3), .shift, .put (some 9) 2, .position 2] =
      .ok (⟨9, 3, 1, [some (some 1), some (some 9), some (some 3), none, none, none, none, none, none]⟩,
        [.self, .self, .self, .val (some 1), .self, .val (some 3)]) := by decide
  rw [this] at e
  simp [specRun, specStep, Spec.putAt, Spec.position] at e

/-- C03 is violated in a second way: `put: x at: 1` after one `shift` destroys the first element. -/
theorem C03_violated_loses_element :
    (Seq.new : Seq (Option Nat)).run
      [.append (some 1), .append (some 2), .append (some 3), .shift, .put (some 9) 1,
       .position 1, .position 2, .position 3] =
      .ok (⟨9, 3, 0, [some (some 9), some none, some (some 3), none, none, none, none, none, none]⟩,
        [.self, .self, .self, .val (some 1), .self, .val (some 9), .val none, .val (some 3)]) := by decide

/-- No `put:at:` occurs after a `shift`. -/
def NoPutAfterShift : List (SeqOp α) → Prop
  | [] => True
  | op :: h => (IsShift op = true → ∀ o ∈ h, IsPut o = false) ∧ NoPutAfterShift h

/-- C03, partial: in every history in which no `put:at:` follows a `shift`, all messages (including
`put:at:` and the `position:` reads after it) are answered as the ideal list answers them. Missing: histories
that put after a shift, where the code differs (`C03_violated`, `C03_after_shift`). -/
theorem C03_put_position_partial (h : List (SeqOp α)) (hin : ∀ op ∈ h, InRange op)
    (hns : NoPutAfterShift h) :
    ∃ s, (Seq.new : Seq α).run h = .ok (s, (specRun [] h).2) := by
  suffices H : ∀ (s : Seq α) (l : List α), s.Rep [] l →
      ∃ s', s.run h = .ok (s', (specRun l h).2) from H _ _ Seq.rep_new
  induction h with
  | nil => exact fun s l _ => ⟨s, rfl⟩
  | cons op h ih =>
    intro s l hr
    have hin' := fun op ho => hin op (List.mem_cons_of_mem _ ho)
    cases hp : IsPut op with
    | true =>
      have ih := ih hin' hns.2
      cases op <;> simp [IsPut] at hp
      rename_i a n
      have hn : n < 18446744073709551616 := hin (.put a n) (by simp)
      by_cases h1 : n < 1
      · obtain ⟨s', e⟩ := ih s l hr
        exact ⟨s', by simp [Seq.run, Seq.step, Seq.put_err s a n h1, e, specRun, specStep, h1]⟩
      · obtain ⟨s1, e1, r1⟩ := Seq.put_rep_ge hr a n (by omega) hn (by simp; omega)
        simp only [List.length_nil, Nat.sub_zero] at r1
        obtain ⟨s', e⟩ := ih s1 _ r1
        exact ⟨s', by simp [Seq.run, Seq.step, e1, e, specRun, specStep, h1]⟩
    | false =>
      obtain ⟨s1, pre1, e1, r1, hpre⟩ := step_rep hr op (hin op (by simp)) hp
      cases hsh : IsShift op with
      | false =>
        rw [hpre hsh rfl] at r1
        obtain ⟨s', e⟩ := ih hin' hns.2 s1 _ r1
        exact ⟨s', by simp [Seq.run, e1, e, specRun]⟩
      | true =>
        have hnp := hns.1 hsh
        obtain ⟨s', _, e, _⟩ := run_rep_spec r1 h (fun op ho => ⟨hin' op ho, hnp op ho⟩)
        exact ⟨s', by simp [Seq.run, e1, e, specRun]⟩

/-- What `put:at:` really does in an arbitrary reachable state (with `s.tail` elements shifted off before):
positions are counted from the start of the buffer. Above the shifted-off region the value lands
`s.tail` positions too low; inside it, the first element is overwritten by None. -/
theorem C03_after_shift (s : Seq α) (hs : Reachable s) (l : List α) (hl : Shows s l) (a : α) (n : Int)
    (h1 : 1 ≤ n) (h2 : n < 18446744073709551616) :
    ∃ s', s.put a n = .ok (s', .self) ∧
      Shows s' (if s.tail < n.toNat then Spec.putAt HasNil.nil l (n.toNat - s.tail) a
        else a :: List.replicate (s.tail - n.toNat) HasNil.nil ++ l.set 0 HasNil.nil) := by
  obtain ⟨pre, r⟩ := rep_of_shows hs hl
  have ht := r.tail_eq
  by_cases hc : s.tail < n.toNat
  · rw [if_pos hc, ht]
    obtain ⟨s', e, r'⟩ := Seq.put_rep_ge r a n h1 h2 (by omega)
    exact ⟨s', e, rep_shows r'⟩
  · rw [if_neg hc, ht]
    obtain ⟨s', e, r'⟩ := Seq.put_rep_lt r a n h1 (by omega) h2
    refine ⟨s', e, ?_⟩
    have := rep_shows r'
    unfold Seq.putShifted at this
    rwa [show pre.length - (n.toNat - 1) - 1 = pre.length - n.toNat by omega] at this

/-- An index below 1 is an error and changes nothing, in every state. -/
theorem C03_bad_index (s : Seq α) (a : α) (n : Int) (h : n < 1) : s.put a n = .ok (s, .err) :=
  Seq.put_err s a n h

example : NoPutAfterShift ([.append (some 1), .put (some 5) 4, .position 4, .put (some 6) 2, .shift, .position 1,
    .count] : List (SeqOp (Option Nat))) := by
  simp [NoPutAfterShift, IsShift, IsPut]

example : ∃ s : Seq (Option Nat), Reachable s ∧ s.tail = 2 ∧ Shows s [some 3] :=
  ⟨⟨9, 3, 2, [some (some 1), some (some 2), some (some 3), none, none, none, none, none, none]⟩,
    ⟨[.append (some 1), .append (some 2), .append (some 3), .shift, .shift], _, by simp [InRange], rfl⟩, rfl,
    rep_shows (pre := [some 1, some 2]) ⟨rfl, rfl, rfl, _, rfl, by simp⟩⟩

/-! ### C04 -/

/-- Full statement of C04 for `copy`. -/
def C04_full (α : Type) [HasNil α] : Prop :=
  ∀ (s : Seq α) (l : List α), Reachable s → Shows s l → s.head < 2147483648 →
    ∃ c, s.copy = .ok c ∧ Shows c l

/-- A sequence of three elements from which one was shifted; used as witness below. -/
def witness : Seq (Option Nat) := ⟨9, 3, 1, [some (some 1), some (some 2), some (some 3), none, none, none,
  none, none, none]⟩

theorem witness_reachable : Reachable witness :=
  ⟨[.append (some 1), .append (some 2), .append (some 3), .shift], _, by simp [InRange], rfl⟩

theorem witness_shows : Shows witness [some 2, some 3] :=
  rep_shows (pre := [some 1]) ⟨rfl, rfl, rfl, _, rfl, by simp⟩

/-- C04 is violated by the code: copying a sequence after `shift` loses its first element. -/
theorem C04_violated : ¬ C04_full (Option Nat) := by
  intro hf
  obtain ⟨c, e, hc⟩ := hf witness _ witness_reachable witness_shows (by decide)
  have e2 : witness.copy = .ok ⟨3, 2, 0, [some (some 3), some none, none]⟩ := by decide
  rw [e2] at e
  cases e
  obtain ⟨s', e3⟩ := hc [.position 1] (by simp [InRange, IsPut, InInt])
  simp [Seq.run, Seq.step, Seq.get, InInt, Seq.read, specRun, specStep, Spec.position] at e3

/-- C04 (`copy`), partial: when nothing is currently shifted off, the copy shows the same list. -/
theorem C04_copy_partial (s : Seq α) (l : List α) (hs : Reachable s) (hl : Shows s l)
    (hb : s.head < 2147483648) (ht : s.tail = 0) :
    ∃ c, s.copy = .ok c ∧ Reachable c ∧ Shows c l := by
  obtain ⟨pre, r⟩ := rep_of_shows hs hl
  have hp : pre = [] := List.length_eq_zero_iff.mp (by rw [← r.tail_eq, ht])
  subst hp
  obtain ⟨c, e, r'⟩ := Seq.copy_rep r hb
  simp only [List.length_nil, Nat.zero_min, List.drop_zero, List.replicate_zero, List.append_nil] at r'
  refine ⟨c, e, ?_, rep_shows r'⟩
  -- the copy is what the history "append each element" produces
  have hpg : ∀ (n i : Nat) (d : Seq α), ∀ c, s.pushGets d i n = .ok c →
      ∃ (l' : List α) (rs : List (Reply α)), d.run (l'.map .append) = .ok (c, rs) := by
    intro n
    induction n with
    | zero =>
      intro i d c h
      simp only [Seq.pushGets, Out.ok.injEq] at h
      subst h
      exact ⟨[], [], rfl⟩
    | succ n ih =>
      intro i d c h
      simp only [Seq.pushGets] at h
      obtain ⟨a, _, h⟩ := Out.bind_eq_ok.mp h
      obtain ⟨d1, h1, h⟩ := Out.bind_eq_ok.mp h
      obtain ⟨l', rs, h2⟩ := ih _ _ _ h
      exact ⟨a :: l', .self :: rs, by simp [Seq.run, Seq.step, h1, h2]⟩
  obtain ⟨l', rs, h2⟩ := hpg _ _ _ c e
  exact ⟨l'.map .append, rs, by simp [InRange], h2⟩

/-- What `copy` really yields: with `k` elements shifted off, the first `k` elements are dropped and None is
appended in their place. -/
theorem C04_copy_after_shift (s : Seq α) (l : List α) (hs : Reachable s) (hl : Shows s l)
    (hb : s.head < 2147483648) :
    ∃ c, s.copy = .ok c ∧
      Shows c (l.drop s.tail ++ List.replicate (min s.tail l.length) HasNil.nil) := by
  obtain ⟨pre, r⟩ := rep_of_shows hs hl
  obtain ⟨c, e, r'⟩ := Seq.copy_rep r hb
  exact ⟨c, e, by rw [r.tail_eq]; exact rep_shows r'⟩

/-- C04 (`+`), partial: when nothing is currently shifted off either operand, `+` is concatenation. -/
theorem C04_add_partial (s t : Seq α) (l l' : List α) (hs : Reachable s) (ht : Reachable t)
    (hl : Shows s l) (hl' : Shows t l') (hb : s.head < 2147483648) (hb' : t.head < 2147483648)
    (hs0 : s.tail = 0) (ht0 : t.tail = 0) :
    ∃ c, s.add t = .ok c ∧ Shows c (l ++ l') := by
  obtain ⟨pre, r⟩ := rep_of_shows hs hl
  obtain ⟨pre', r'⟩ := rep_of_shows ht hl'
  have hp : pre = [] := List.length_eq_zero_iff.mp (by rw [← r.tail_eq, hs0])
  have hp' : pre' = [] := List.length_eq_zero_iff.mp (by rw [← r'.tail_eq, ht0])
  subst hp hp'
  obtain ⟨c, e, r''⟩ := Seq.add_rep r r' hb hb'
  exact ⟨c, e, by simpa using rep_shows r''⟩

/-- What `+` really yields in arbitrary reachable states. -/
theorem C04_add_after_shift (s t : Seq α) (l l' : List α) (hs : Reachable s) (ht : Reachable t)
    (hl : Shows s l) (hl' : Shows t l') (hb : s.head < 2147483648) (hb' : t.head < 2147483648) :
    ∃ c, s.add t = .ok c ∧ Shows c
      (l.drop s.tail ++ List.replicate (min s.tail l.length) HasNil.nil ++
       (l'.drop t.tail ++ List.replicate (min t.tail l'.length) HasNil.nil)) := by
  obtain ⟨pre, r⟩ := rep_of_shows hs hl
  obtain ⟨pre', r'⟩ := rep_of_shows ht hl'
  obtain ⟨c, e, r''⟩ := Seq.add_rep r r' hb hb'
  exact ⟨c, e, by rw [r.tail_eq, r'.tail_eq]; exact rep_shows r''⟩

example : ∃ s : Seq (Option Nat), Reachable s ∧ s.tail = 0 ∧ s.head < 2147483648 ∧ Shows s [some 4, some 5] :=
  ⟨⟨3, 2, 0, [some (some 4), some (some 5), none]⟩, ⟨[.append (some 4), .append (some 5)], _, by simp [InRange], rfl⟩,
    rfl, by decide, rep_shows (pre := []) ⟨rfl, rfl, rfl, _, rfl, by simp⟩⟩

/-! ### C06 -/

/-- Full statement of C06: `find:` answers the position of the first matching element, and None exactly
when there is none. `same` is the textual comparison with the needle. -/
def C06_full (α : Type) [HasNil α] : Prop :=
  ∀ (s : Seq α) (l : List α) (same : α → Bool), Reachable s → Shows s l →
    (∃ p, s.indexOf same = .ok (some p) ∧
      (∃ x, Spec.position l p = some x ∧ same x = true) ∧
      ∀ q : Nat, q < p → ∀ y, Spec.position l q = some y → same y = false) ∨
    (s.indexOf same = .ok none ∧ ∀ x ∈ l, same x = false)

/-- C06 is violated by the code: after `shift` the answer is off by the number of shifted elements. -/
theorem C06_violated : ¬ C06_full (Option Nat) := by
  intro hf
  have e : witness.indexOf (· == some 3) = .ok (some 3) := by decide
  rcases hf witness _ (· == some 3) witness_reachable witness_shows with ⟨p, e1, ⟨x, h1, _⟩, _⟩ | ⟨e1, _⟩
  · rw [e] at e1
    cases e1
    simp [Spec.position] at h1
  · rw [e] at e1; cases e1

/-- C06, partial: when nothing is currently shifted off, `find:` answers the position of the first match,
None exactly when there is no match. -/
theorem C06_find_partial (s : Seq α) (l : List α) (same : α → Bool) (hs : Reachable s) (hl : Shows s l)
    (ht : s.tail = 0) :
    (∃ p, s.indexOf same = .ok (some p) ∧
      (∃ x, Spec.position l p = some x ∧ same x = true) ∧
      ∀ q : Nat, q < p → ∀ y, Spec.position l q = some y → same y = false) ∨
    (s.indexOf same = .ok none ∧ ∀ x ∈ l, same x = false) := by
  obtain ⟨pre, r⟩ := rep_of_shows hs hl
  have hp : pre = [] := List.length_eq_zero_iff.mp (by rw [← r.tail_eq, ht])
  subst hp
  rw [Seq.indexOf_rep r same]
  cases h : l.findIdx? same with
  | none =>
    right
    exact ⟨rfl, by simpa using List.findIdx?_eq_none_iff.mp h⟩
  | some k =>
    left
    obtain ⟨hk, h1, h2⟩ := List.findIdx?_eq_some_iff_getElem.mp h
    refine ⟨k + 1, rfl, ⟨l[k], by simp [Spec.position, hk]; omega, h1⟩, ?_⟩
    intro q hq y hy
    simp only [Spec.position] at hy
    split at hy
    · have hq' : ((q : Int) - 1).toNat < k := by omega
      rw [List.getElem?_eq_getElem (by omega)] at hy
      have := h2 _ hq'
      rw [Option.some.inj hy] at this
      simpa using this
    · simp at hy

/-- What `find:` really answers: the position of the first match plus the number of shifted-off elements. -/
theorem C06_after_shift (s : Seq α) (l : List α) (same : α → Bool) (hs : Reachable s) (hl : Shows s l) :
    s.indexOf same = .ok ((l.findIdx? same).map (· + (s.tail + 1))) := by
  obtain ⟨pre, r⟩ := rep_of_shows hs hl
  rw [Seq.indexOf_rep r same, r.tail_eq]

/-! ### C08 -/

/-- C08 (`from:length:`): in every reachable state, for all arguments whose sums fit an `int`, the result is
the list slice, with None where there is no element. -/
theorem C08_from_length (s : Seq α) (l : List α) (hs : Reachable s) (hl : Shows s l) (start len : Int)
    (h1 : InInt start) (h2 : InInt len) (h3 : InInt (start + len)) (h4 : InInt (start - 1)) :
    ∃ d, s.fromLength start len = .ok d ∧ Shows d (Spec.slice HasNil.nil l start len.toNat) := by
  obtain ⟨pre, r⟩ := rep_of_shows hs hl
  obtain ⟨d, e, r'⟩ := Seq.fromLength_rep r start len h1 h2 h3 h4
  exact ⟨d, e, rep_shows r'⟩

omit [HasNil α] in
theorem slice_prefix (d : α) (l : List α) (n : Nat) (h : n ≤ l.length) :
    Spec.slice d l 1 n = l.take n := by
  apply List.ext_getElem
  · simp [Spec.slice]; omega
  · intro k h1 h2
    simp at h2
    simp only [Spec.slice, List.getElem_map, List.getElem_range, Spec.position]
    rw [if_pos (by omega), show ((1 : Int) + k - 1).toNat = k by omega,
      List.getElem?_eq_getElem (by omega)]
    simp

omit [HasNil α] in
theorem slice_suffix (d : α) (l : List α) (p : Nat) (h : p ≤ l.length) :
    Spec.slice d l ((p : Int) + 1) (l.length - p) = l.drop p := by
  apply List.ext_getElem
  · simp [Spec.slice]
  · intro k h1 h2
    simp at h2
    simp only [Spec.slice, List.getElem_map, List.getElem_range, Spec.position]
    rw [if_pos (by omega), show ((p : Int) + 1 + k - 1).toNat = p + k by omega,
      List.getElem?_eq_getElem (by omega)]
    simp

/-- Full statement of C08 for `replace:length:with:`. -/
def C08_splice_full (α : Type) [HasNil α] : Prop :=
  ∀ (s t : Seq α) (l r : List α) (frm len : Nat), Reachable s → Shows s l → Reachable t → Shows t r →
    1 ≤ frm → frm ≤ l.length + 1 → s.head < 2147483647 → t.head < 2147483648 → frm + len < 2147483648 →
    ∃ d, s.splice frm len t = .ok d ∧ Shows d (Spec.splice l frm len r)

/-- C08 (splice), partial: if nothing is currently shifted off the *replacement*, the result is the list
splice; the receiver may be in any reachable state. -/
theorem C08_splice_partial (s t : Seq α) (l r : List α) (frm len : Nat) (hs : Reachable s)
    (hl : Shows s l) (ht : Reachable t) (hr : Shows t r) (h1 : 1 ≤ frm) (h2 : frm ≤ l.length + 1)
    (hb : s.head < 2147483647) (hbt : t.head + frm < 2147483648) (hfl : frm + len < 2147483648)
    (ht0 : t.tail = 0) :
    ∃ d, s.splice frm len t = .ok d ∧ Shows d (Spec.splice l frm len r) := by
  obtain ⟨pre, rs⟩ := rep_of_shows hs hl
  obtain ⟨pre', rt⟩ := rep_of_shows ht hr
  have hp' : pre' = [] := List.length_eq_zero_iff.mp (by rw [← rt.tail_eq, ht0])
  subst hp'
  have hsh := rs.head_eq
  have hth := rt.head_eq
  obtain ⟨a, ea, ra⟩ := Seq.fromLength_rep rs 1 ((frm : Int) - 1) (by decide)
    (by unfold InInt; omega) (by unfold InInt; omega) (by decide)
  rw [show ((frm : Int) - 1).toNat = frm - 1 by omega, slice_prefix _ _ _ (by omega)] at ra
  have hah := ra.head_eq
  simp only [List.length_nil, Nat.zero_add, List.length_take] at hah hth
  obtain ⟨b, eb, rb⟩ := Seq.add_rep ra rt (by omega) (by omega)
  simp only [List.length_nil, Nat.zero_min, List.drop_zero, List.replicate_zero, List.append_nil] at rb
  have hcount := Seq.count_rep rs
  unfold Seq.splice
  simp only [ea, eb, Out.ok_bind, hcount]
  by_cases hc : (frm : Int) + len ≤ l.length
  · rw [if_pos hc]
    obtain ⟨m, em, rm⟩ := Seq.fromLength_rep rs ((frm : Int) + len) (1 + (l.length : Int) - (frm + len))
      (by unfold InInt; omega) (by unfold InInt; omega) (by unfold InInt; omega) (by unfold InInt; omega)
    rw [show (1 + (l.length : Int) - (frm + len)).toNat = l.length - (frm - 1 + len) by omega,
      show ((frm : Int) + len) = ((frm - 1 + len : Nat) : Int) + 1 by omega,
      slice_suffix _ _ _ (by omega)] at rm
    rw [show ((frm : Int) + len) = ((frm - 1 + len : Nat) : Int) + 1 by omega] at em ⊢
    have hbh := rb.head_eq
    have hmh := rm.head_eq
    simp only [List.length_nil, Nat.zero_add, List.length_append, List.length_take, List.length_drop] at hbh hmh
    obtain ⟨d, ed, rd⟩ := Seq.add_rep rb rm (by omega) (by omega)
    simp only [List.length_nil, Nat.zero_min, List.drop_zero, List.replicate_zero, List.append_nil] at rd
    exact ⟨d, by rw [em]; exact ed, by simpa [Spec.splice] using rep_shows rd⟩
  · rw [if_neg hc]
    refine ⟨b, rfl, ?_⟩
    have : Spec.splice l frm len r = List.take (frm - 1) l ++ r := by
      simp only [Spec.splice]
      rw [List.drop_of_length_le (by omega)]; simp
    rw [this]
    exact rep_shows rb

/-- The full splice statement is violated when the replacement had an element shifted off. -/
theorem C08_splice_violated : ¬ C08_splice_full (Option Nat) := by
  intro hf
  obtain ⟨d, e, hd⟩ := hf (Seq.new) witness [] [some 2, some 3] 1 0 ⟨[], [], by simp, rfl⟩
    (rep_shows Seq.rep_new) witness_reachable witness_shows (by simp) (by simp) (by decide) (by decide) (by decide)
  have e2 : (Seq.new : Seq (Option Nat)).splice ((1 : Nat) : Int) ((0 : Nat) : Int) witness =
      .ok ⟨3, 2, 0, [some (some 3), some none, none]⟩ := by decide
  rw [e2] at e
  cases e
  obtain ⟨s', e3⟩ := hd [.position 1] (by simp [InRange, IsPut, InInt])
  simp [Seq.run, Seq.step, Seq.get, InInt, Seq.read, specRun, specStep, Spec.position, Spec.splice] at e3

example : InInt 2 ∧ InInt 3 ∧ InInt (2 + 3) ∧ InInt (2 - 1) := by decide

/-! ### C09 -/

/-- C09: `fill: n with: x` appends exactly `n` copies (none for `n < 1`) in every reachable state. -/
theorem C09_fill (s : Seq α) (l : List α) (hs : Reachable s) (hl : Shows s l) (n : Int) (a : α)
    (hn : n < 18446744073709551616) :
    ∃ s', s.fill n a = .ok s' ∧ Shows s' (l ++ List.replicate n.toNat a) := by
  obtain ⟨pre, r⟩ := rep_of_shows hs hl
  obtain ⟨s', pre', e, r', -⟩ := step_rep r (.fill n a) hn rfl
  simp only [Seq.step] at e
  obtain ⟨x, e1, e2⟩ := Out.bind_eq_ok.mp e
  cases e2
  exact ⟨_, e1, by simpa [specStep] using rep_shows r'⟩

example : ∃ s : Seq (Option Nat), Reachable s ∧ Shows s [some 2, some 3] ∧ (3 : Int) < 18446744073709551616 :=
  ⟨witness, witness_reachable, witness_shows, by decide⟩

/-! ### C10 -/

/-- Specification of iteration over the *current* list `elems st`: round `j` (from 0) takes the element at
position `j+1` of the list as it then is; None left means done; break ends and is consumed; an error ends and
stays pending; continue and normal completion go on. `none` = not finished after `fuel` rounds. -/
def specEach (elems : σ → List α) (block : σ → Nat → α → σ × Flow) : Nat → σ → Nat → Option (σ × Flow)
  | 0, _, _ => none
  | fuel + 1, st, j =>
    match (elems st)[j]? with
    | none => some (st, .none)
    | some a =>
      match block st (j + 1) a with
      | (st', .none) => specEach elems block fuel st' (j + 1)
      | (st', .cont) => specEach elems block fuel st' (j + 1)
      | (st', .brk) => some (st', .none)
      | (st', .err) => some (st', .err)

/-- C10: `each:` is iteration over the current list, for every block that keeps the sequence well formed and
does not shift or prepend (it may append, pop, put, or change anything else). In particular no slot outside
the elements is read. -/
theorem C10_each (seqOf : σ → Seq α) (elems : σ → List α) (block : σ → Nat → α → σ × Flow)
    (I : σ → Prop) (hI : ∀ st, I st → Reachable (seqOf st) ∧ Shows (seqOf st) (elems st))
    (hblock : ∀ st j a, I st → I (block st j a).1 ∧
      (seqOf (block st j a).1).tail = (seqOf st).tail)
    (fuel : Nat) (st : σ) (h0 : I st) :
    Seq.each seqOf block fuel st = (specEach elems block fuel st 0).map .ok := by
  suffices H : ∀ fuel st j, I st →
      Seq.eachLoop seqOf block fuel st ((seqOf st).tail + j) j = (specEach elems block fuel st j).map .ok by
    simpa [Seq.each] using H fuel st 0 h0
  intro fuel
  induction fuel with
  | zero => intros; rfl
  | succ fuel ih =>
    intro st j hst
    obtain ⟨hre, hsh⟩ := hI st hst
    obtain ⟨pre, r⟩ := rep_of_shows hre hsh
    have hh := r.head_eq; have ht := r.tail_eq
    unfold Seq.eachLoop specEach
    by_cases hj : j < (elems st).length
    · rw [if_pos (by omega), ht, Seq.read_elem r hj, List.getElem?_eq_getElem hj]
      simp only
      have hb := hblock st (j + 1) (elems st)[j] hst
      generalize hblk : block st (j + 1) (elems st)[j] = br at hb ⊢
      obtain ⟨st', fl⟩ := br
      simp only at hb
      have hstep := ih st' (j + 1) hb.1
      rw [hb.2, ht, ← Nat.add_assoc] at hstep
      cases fl <;> simp [hstep]
    · rw [if_neg (by omega), List.getElem?_eq_none (by omega)]
      simp

/-- Blocks that leave the sequence alone: every element is presented once, in order, with its position. -/
def specEachConst (block : σ → Nat → α → σ × Flow) : σ → Nat → List α → σ × Flow
  | st, _, [] => (st, .none)
  | st, j, a :: l =>
    match block st (j + 1) a with
    | (st', .none) => specEachConst block st' (j + 1) l
    | (st', .cont) => specEachConst block st' (j + 1) l
    | (st', .brk) => (st', .none)
    | (st', .err) => (st', .err)

/-- C10 for blocks that do not touch the receiver: the loop ends within `count + 1` rounds and is the fold
over the elements in order. -/
theorem C10_each_const (seqOf : σ → Seq α) (block : σ → Nat → α → σ × Flow) (l : List α)
    (st : σ) (hre : Reachable (seqOf st)) (hsh : Shows (seqOf st) l)
    (hconst : ∀ st' j a, seqOf st' = seqOf st → seqOf (block st' j a).1 = seqOf st)
    (fuel : Nat) (hf : l.length < fuel) :
    Seq.each seqOf block fuel st = some (.ok (specEachConst block st 0 l)) := by
  rw [C10_each seqOf (fun _ => l) block (fun st' => seqOf st' = seqOf st)
    (fun st' h => by rw [h]; exact ⟨hre, hsh⟩)
    (fun st' j a h => ⟨hconst st' j a h, by rw [hconst st' j a h, h]⟩) fuel st rfl]
  suffices H : ∀ k fuel st', (l.drop k).length < fuel →
      specEach (fun _ => l) block fuel st' k = some (specEachConst block st' k (l.drop k)) by
    rw [H 0 fuel st (by simpa using hf)]; simp
  clear hf
  intro k fuel
  induction fuel generalizing k with
  | zero => intro _ h; omega
  | succ fuel ih =>
    intro st' h
    unfold specEach
    by_cases hk : k < l.length
    · rw [List.getElem?_eq_getElem hk, List.drop_eq_getElem_cons hk]
      simp only [specEachConst]
      have hlen : (l.drop (k + 1)).length < fuel := by simp at h ⊢; omega
      generalize block st' (k + 1) l[k] = br
      obtain ⟨st2, fl⟩ := br
      cases fl <;> simp [ih (k + 1) st2 hlen]
    · rw [List.getElem?_eq_none (by omega), List.drop_of_length_le (by omega)]
      simp [specEachConst]

/-- Non-vacuity of C10: a block that appends while the running total is small. -/
example : Seq.each (σ := Seq (Option Nat) × Nat) (·.1)
    (fun st j a => ((match st.1.push (some j) with | .ok s => if st.2 < 3 then s else st.1 | _ => st.1,
      st.2 + a.getD 0), if j = 4 then .brk else .none)) 9 (witness, 0) =
    some (.ok ((⟨9, 5, 1, [some (some 1), some (some 2), some (some 3), some (some 1), some (some 2), none,
      none, none, none]⟩, 8), .none)) := by decide

example : Seq.each (σ := Seq (Option Nat) × List (Nat × Option Nat)) (·.1)
    (fun st j a => ((st.1, st.2 ++ [(j, a)]), .cont)) 3 (witness, []) =
    some (.ok ((witness, [(1, some 2), (2, some 3)]), .none)) := rfl

end Verif.Props.Seq
