import Verif.Model.Interp

/-!
# Lemmas about the interpreter core
-/

namespace Verif.Model.Interp

/-- The result, if there is one, satisfies `P`, and no table was overrun. -/
def Res.Holds (x : Res α) (P : α → Prop) : Prop :=
  match x with
  | .ok a => P a
  | .ub u => u ≠ .table
  | .exit => True
  | .more => True

namespace Res

theorem Holds.bind {x : Res α} {f : α → Res β} {P : α → Prop} {Q : β → Prop}
    (h : x.Holds P) (hf : ∀ a, P a → (f a).Holds Q) : (x >>= f).Holds Q := by
  cases x with
  | ok a => exact hf a h
  | ub u => exact h
  | exit => trivial
  | more => trivial

theorem Holds.mono {x : Res α} {P Q : α → Prop} (h : x.Holds P) (hf : ∀ a, P a → Q a) :
    x.Holds Q := by
  cases x with
  | ok a => exact hf a h
  | ub u => exact h
  | exit => trivial
  | more => trivial

theorem Holds.ok {x : Res α} {P : α → Prop} (h : x.Holds P) {a : α} (e : x = .ok a) : P a := by
  subst e; exact h

theorem Holds.ne_table {x : Res α} {P : α → Prop} (h : x.Holds P) : x ≠ .ub .table := by
  intro e; subst e; exact h rfl

@[simp] theorem holds_ok {a : α} {P : α → Prop} : (Res.ok a).Holds P ↔ P a := Iff.rfl
@[simp] theorem holds_exit {P : α → Prop} : (Res.exit : Res α).Holds P := trivial
@[simp] theorem holds_more {P : α → Prop} : (Res.more : Res α).Holds P := trivial
@[simp] theorem holds_null {P : α → Prop} : (Res.ub .null : Res α).Holds P := by simp [Holds]
@[simp] theorem holds_type {P : α → Prop} : (Res.ub .type : Res α).Holds P := by simp [Holds]
@[simp] theorem holds_arith {P : α → Prop} : (Res.ub .arith : Res α).Holds P := by simp [Holds]

end Res

/-! ## Evaluation while an error is pending -/

/-- How the counters may change: at most one expression per step. -/
structure Counts (s s' : St) : Prop where
  sandbox : s'.sandbox = s.sandbox
  steps : s.steps ≤ s'.steps
  limit : s.steps ≤ 2000 → s'.steps ≤ 2000
  evals : s.sandbox = true → s'.evals + s.steps ≤ s.evals + s'.steps

theorem Counts.refl (s : St) : Counts s s := ⟨rfl, Nat.le_refl _, id, fun _ => Nat.le_refl _⟩

theorem Counts.trans {a b c : St} (h : Counts a b) (k : Counts b c) : Counts a c where
  sandbox := k.sandbox.trans h.sandbox
  steps := Nat.le_trans h.steps k.steps
  limit := fun x => k.limit (h.limit x)
  evals := fun x => by
    have h1 := h.evals x
    have h2 := k.evals (by rw [h.sandbox]; exact x)
    omega

theorem Counts.same {s s' : St} (h4 : s'.sandbox = s.sandbox) (h5 : s'.steps = s.steps)
    (h6 : s'.evals = s.evals) : Counts s s' := ⟨h4, by omega, by omega, by omega⟩

theorem counts_tick (s : St) : (tick s).Holds fun s1 =>
    s1 = { s with steps := s1.steps } ∧ Counts s s1 ∧ Counts s { s1 with evals := s1.evals + 1 } := by
  unfold tick
  split
  · split
    · trivial
    · refine ⟨rfl, ⟨rfl, Nat.le_succ _, fun _ => by dsimp only; omega, fun _ => by dsimp only; omega⟩,
        ⟨rfl, Nat.le_succ _, fun _ => by dsimp only; omega, fun _ => by dsimp only; omega⟩⟩
  · rename_i h
    exact ⟨rfl, Counts.refl s, ⟨rfl, Nat.le_refl _, id, fun x => absurd x h⟩⟩

/-- Nothing observable changed: only new objects and the counters. -/
structure Quiet (s s' : St) : Prop where
  flow : s'.flow = s.flow
  ctxs : s'.ctxs = s.ctxs
  stack : s'.stack = s.stack
  recursion : s'.recursion = s.recursion
  deser : s'.deser = s.deser
  counts : Counts s s'
  log : s'.log = s.log
  fresh : s.fresh ≤ s'.fresh
  obj : ∀ i, i < s.fresh → s'.obj i = s.obj i

theorem Quiet.refl (s : St) : Quiet s s :=
  ⟨rfl, rfl, rfl, rfl, rfl, Counts.refl s, rfl, Nat.le_refl _, fun _ _ => rfl⟩

theorem Quiet.trans {a b c : St} (h : Quiet a b) (k : Quiet b c) : Quiet a c where
  flow := k.flow.trans h.flow
  ctxs := k.ctxs.trans h.ctxs
  stack := k.stack.trans h.stack
  recursion := k.recursion.trans h.recursion
  deser := k.deser.trans h.deser
  counts := h.counts.trans k.counts
  log := k.log.trans h.log
  fresh := Nat.le_trans h.fresh k.fresh
  obj := fun i hi => (k.obj i (Nat.lt_of_lt_of_le hi h.fresh)).trans (h.obj i hi)

theorem quiet_alloc (s : St) (o : Obj) : Quiet s (alloc s o).1 :=
  ⟨rfl, rfl, rfl, rfl, rfl, .same rfl rfl rfl, rfl, Nat.le_succ _,
    fun _ hi => if_neg (Nat.ne_of_lt hi)⟩

theorem quiet_newStr (s : St) (k : Name) : Quiet s (newStr s k).1 := quiet_alloc _ _
theorem quiet_newNum (s : St) (n : Int) : Quiet s (newNum s n).1 := quiet_alloc _ _
theorem quiet_newCode (s : St) (ps : List Name) (b : List Node) : Quiet s (newCode s ps b).1 :=
  quiet_alloc _ _

theorem quiet_tick (s : St) : (tick s).Holds fun s1 =>
    Quiet s s1 ∧ Quiet s { s1 with evals := s1.evals + 1 } :=
  (counts_tick s).mono fun s1 ⟨h, c, d⟩ => by
    rw [h] at c d ⊢
    exact ⟨⟨rfl, rfl, rfl, rfl, rfl, c, rfl, Nat.le_refl _, fun _ _ => rfl⟩,
      ⟨rfl, rfl, rfl, rfl, rfl, d, rfl, Nat.le_refl _, fun _ _ => rfl⟩⟩

theorem find_pending {s : St} (h : s.flow.isSome) (k : Name) : find s k = (s, nilO) := by
  simp [find, h]

theorem findMy_pending {s : St} (h : s.flow.isSome) (k : Name) : findMy s k = (s, nilO) := by
  simp [findMy, find_pending h, h]

theorem assignVar_pending {s : St} (h : s.flow.isSome) (k : Name) (v : Nat) :
    assignVar s k v = (s, nilO) := by simp [assignVar, h]

theorem assignMy_pending {s : St} (h : s.flow.isSome) (k : Name) (v : Nat) :
    assignMy s k v = (s, nilO) := by simp [assignMy, find_pending h, h]

theorem assignLocal_pending {s : St} (h : s.flow.isSome) (k : Name) (v : Nat) :
    assignLocal s k v = (s, nilO) := by simp [assignLocal, h]

/-- `ev` is quiet on expressions and answers Nil to messages while an error is pending. -/
def EvQuiet (ev : Eval) : Prop :=
  (∀ e s, s.flow.isSome → (ev (.expr e) s).Holds fun a => Quiet s a.1) ∧
  (∀ r m args s, s.flow.isSome → (ev (.send r m args) s).Holds fun a => a = (s, nilO, false))

theorem Quiet.pending {s s' : St} (h : Quiet s s') (hs : s.flow.isSome) : s'.flow.isSome := by
  rw [h.flow]; exact hs

theorem quiet_evalArgs {ev : Eval} (hev : EvQuiet ev) (es : List Node) :
    ∀ (k : Nat) (s : St), s.flow.isSome → (evalArgs ev k es s).Holds fun a => Quiet s a.1 := by
  induction es with
  | nil => intro k s _; exact Quiet.refl s
  | cons e es ih =>
    intro k s hs
    refine (hev.1 e s hs).bind ?_
    rintro ⟨s1, v, b⟩ h1
    dsimp only
    split
    · trivial
    · refine (ih (k + 1) s1 (h1.pending hs)).bind ?_
      rintro ⟨s2, vs⟩ h2
      exact h1.trans h2

theorem quiet_chain {ev : Eval} (hev : EvQuiet ev) (ms : List (Name × List Node)) :
    ∀ (lit : Bool) (r : Nat) (s : St), s.flow.isSome →
      (chain ev lit r ms s).Holds fun a => Quiet s a.1 := by
  induction ms with
  | nil => intro lit r s _; exact Quiet.refl s
  | cons m ms ih =>
    intro lit r s hs
    obtain ⟨m, as⟩ := m
    refine (quiet_tick s).bind ?_
    rintro s1 ⟨h1, -⟩
    refine (quiet_evalArgs hev as _ s1 (h1.pending hs)).bind ?_
    rintro ⟨s2, vs⟩ h2
    have h12 := h1.trans h2
    refine (hev.2 r m (vs ++ [nilO]) s2 (h12.pending hs)).bind ?_
    rintro ⟨s3, v, b⟩ h3
    cases h3
    exact (ih true nilO s2 (h12.pending hs)).mono fun a h => h12.trans h

theorem quiet_message {ev : Eval} (hev : EvQuiet ev) (recv : Node) (ms : List (Name × List Node))
    (s : St) (hs : s.flow.isSome) : (message ev recv ms s).Holds fun a => Quiet s a.1 := by
  refine (quiet_tick s).bind ?_
  rintro s1 ⟨h1, -⟩
  have hs1 := h1.pending hs
  have go : ∀ (s2 : St) (r : Nat) (lit : Bool), Quiet s1 s2 →
      (chain ev lit r ms s2).Holds fun a => Quiet s a.1 := by
    intro s2 r lit h2
    exact (quiet_chain hev ms lit r s2 (h2.pending hs1)).mono fun a h => (h1.trans h2).trans h
  cases recv with
  | ref own k =>
    have e : (if own then findMy s1 k else find s1 k) = (s1, nilO) := by
      cases own
      · exact find_pending hs1 k
      · exact findMy_pending hs1 k
    simp only [e]
    split
    · exact h1
    · exact go s1 _ _ (Quiet.refl _)
  | str k => exact go _ _ _ (quiet_newStr _ _)
  | num k => exact go _ _ _ (quiet_newNum _ _)
  | code ps b => exact go _ _ _ (quiet_newCode _ _ _)
  | nested n =>
    refine (hev.1 _ s1 hs1).bind ?_
    rintro ⟨s2, r, b⟩ h2
    exact go _ _ _ h2
  | msg _ _ => simp
  | assign _ _ _ => simp
  | ret _ => simp
  | eop => simp

theorem quiet_assignment {ev : Eval} (hev : EvQuiet ev) (mode : Mode) (k : Name) (value : Node)
    (s : St) (hs : s.flow.isSome) : (assignment ev mode k value s).Holds fun a => Quiet s a.1 := by
  refine (quiet_tick s).bind ?_
  rintro s1 ⟨h1, -⟩
  refine (hev.1 value s1 (h1.pending hs)).bind ?_
  rintro ⟨s2, x, b⟩ h2
  have h12 := h1.trans h2
  have hs2 := h12.pending hs
  cases mode <;> simp only [assignMy_pending hs2, assignLocal_pending hs2, assignVar_pending hs2] <;>
    exact h12

theorem quiet_expr {ev : Eval} (hev : EvQuiet ev) (e : Node) (s : St) (hs : s.flow.isSome) :
    (expr ev e s).Holds fun a => Quiet s a.1 := by
  refine (quiet_tick s).bind ?_
  rintro s0 ⟨-, h1⟩
  generalize ({ s0 with evals := s0.evals + 1 } : St) = s1 at h1
  dsimp only
  have hs1 := h1.pending hs
  cases e with
  | str k => exact h1.trans (quiet_newStr _ _)
  | num k => exact h1.trans (quiet_newNum _ _)
  | code ps b => exact h1.trans (quiet_newCode _ _ _)
  | ref own k =>
    have e : (if own then findMy s1 k else find s1 k) = (s1, nilO) := by
      cases own
      · exact find_pending hs1 k
      · exact findMy_pending hs1 k
    simp only [e]
    exact h1
  | msg recv ms =>
    refine (quiet_message hev recv ms s1 hs1).bind ?_
    rintro ⟨s2, r⟩ h2
    exact h1.trans h2
  | assign mode k v =>
    refine (quiet_assignment hev mode k v s1 hs1).bind ?_
    rintro ⟨s2, r⟩ h2
    exact h1.trans h2
  | ret v =>
    refine (quiet_tick s1).bind ?_
    rintro s2 ⟨h2, -⟩
    refine (hev.1 v s2 (h2.pending hs1)).bind ?_
    rintro ⟨s3, r, b⟩ h3
    exact (h1.trans h2).trans h3
  | nested n => exact (hev.1 n s1 hs1).mono fun a h => h1.trans h
  | eop => exact h1

theorem exec_quiet (env : Env) : ∀ n, EvQuiet (exec env n) := by
  intro n
  induction n with
  | zero => exact ⟨fun _ _ _ => trivial, fun _ _ _ _ _ => trivial⟩
  | succ n ih =>
    refine ⟨fun e s hs => quiet_expr ih e s hs, fun r m args s hs => ?_⟩
    simp only [exec, send, hs, if_true, plain, Res.ok_bind]
    rfl

theorem quiet_runList {ev : Eval} (hev : EvQuiet ev) (es : List Node) :
    ∀ (s : St), s.flow.isSome → (runList ev es s).Holds fun a => Quiet s a.1 := by
  induction es with
  | nil => intro s _; exact Quiet.refl s
  | cons e es ih =>
    intro s hs
    refine (hev.1 e s hs).bind ?_
    rintro ⟨s1, v, b⟩ h1
    dsimp only
    split
    · exact h1
    · exact (ih s1 (h1.pending hs)).mono fun a h => h1.trans h

/-! ## What every evaluation leaves alone -/

/-- Events allowed while the flag for reading back is `d`. -/
def EvOk (d : Bool) : Event → Prop
  | .native d' f _ _ => (d' = true → white f = true) ∧ (d = true → d' = true)
  | .block _ _ _ => True

/-- What any completed evaluation guarantees. -/
structure Frame (s s' : St) : Prop where
  ctxs : s'.ctxs = s.ctxs
  stack : s'.stack = s.stack
  deser : s'.deser = s.deser
  counts : Counts s s'
  log : ∃ l, s'.log = l ++ s.log ∧ ∀ e ∈ l, EvOk s.deser e

theorem Frame.refl (s : St) : Frame s s :=
  ⟨rfl, rfl, rfl, Counts.refl s, [], rfl, by simp⟩

theorem Frame.trans {a b c : St} (h : Frame a b) (k : Frame b c) : Frame a c where
  ctxs := k.ctxs.trans h.ctxs
  stack := k.stack.trans h.stack
  deser := k.deser.trans h.deser
  counts := h.counts.trans k.counts
  log := by
    obtain ⟨l1, e1, p1⟩ := h.log
    obtain ⟨l2, e2, p2⟩ := k.log
    refine ⟨l2 ++ l1, by rw [e2, e1, List.append_assoc], ?_⟩
    intro e he
    rcases List.mem_append.1 he with he | he
    · have := p2 e he
      rw [h.deser] at this
      exact this
    · exact p1 e he

/-- A change of heap, pending error and recursion flag only. -/
theorem Frame.heap {s s' : St} (h1 : s'.ctxs = s.ctxs) (h2 : s'.stack = s.stack)
    (h3 : s'.deser = s.deser) (h4 : s'.sandbox = s.sandbox) (h5 : s'.steps = s.steps)
    (h6 : s'.evals = s.evals) (h7 : s'.log = s.log) : Frame s s' :=
  ⟨h1, h2, h3, .same h4 h5 h6, [], by simp [h7], by simp⟩

theorem frame_alloc (s : St) (o : Obj) : Frame s (alloc s o).1 := .heap rfl rfl rfl rfl rfl rfl rfl
theorem frame_newStr (s : St) (k : Name) : Frame s (newStr s k).1 := frame_alloc _ _
theorem frame_newNum (s : St) (n : Int) : Frame s (newNum s n).1 := frame_alloc _ _
theorem frame_newCode (s : St) (ps : List Name) (b : List Node) : Frame s (newCode s ps b).1 :=
  frame_alloc _ _
theorem frame_raise (s : St) (k : Name) : Frame s (raise s k) := .heap rfl rfl rfl rfl rfl rfl rfl
theorem frame_put (s : St) (i : Nat) (o : Obj) : Frame s (s.put i o) :=
  .heap rfl rfl rfl rfl rfl rfl rfl
theorem frame_setProp (s : St) (o : Nat) (k : Name) (v : Nat) : Frame s (setProp s o k v) :=
  .heap rfl rfl rfl rfl rfl rfl rfl
theorem frame_flow (s : St) (f : Option Flow) : Frame s { s with flow := f } :=
  .heap rfl rfl rfl rfl rfl rfl rfl
theorem frame_rec (s : St) (f : Option Nat) : Frame s { s with recursion := f } :=
  .heap rfl rfl rfl rfl rfl rfl rfl

theorem frame_eatCont (s : St) : Frame s (eatCont s) := by
  unfold eatCont; split
  · exact frame_flow _ _
  · exact Frame.refl _

theorem frame_eatBrk (s : St) : Frame s (eatBrk s) := by
  unfold eatBrk; split
  · exact frame_flow _ _
  · exact Frame.refl _

theorem Quiet.frame {s s' : St} (h : Quiet s s') : Frame s s' :=
  ⟨h.ctxs, h.stack, h.deser, h.counts, [], by simp [h.log], by simp⟩

theorem frame_tick (s : St) : (tick s).Holds fun s1 =>
    Frame s s1 ∧ Frame s { s1 with evals := s1.evals + 1 } :=
  (quiet_tick s).mono fun _ h => ⟨h.1.frame, h.2.frame⟩

theorem frame_find (s : St) (k : Name) : Frame s (find s k).1 := by
  unfold find
  split
  · exact Frame.refl s
  · split
    · exact Frame.refl s
    · split
      · exact Frame.refl s
      · exact frame_raise _ _

theorem frame_findMy (s : St) (k : Name) : Frame s (findMy s k).1 := by
  unfold findMy
  have h := frame_find s nMe
  revert h
  generalize find s nMe = p
  obtain ⟨s1, c⟩ := p
  intro h
  dsimp only at h ⊢
  split
  · exact h
  · split
    · exact h
    · exact h.trans (frame_raise _ _)

theorem frame_assignVar (s : St) (k : Name) (v : Nat) : Frame s (assignVar s k v).1 := by
  unfold assignVar
  split
  · exact Frame.refl s
  · split
    · exact frame_setProp _ _ _ _
    · exact frame_raise _ _

theorem frame_assignMy (s : St) (k : Name) (v : Nat) : Frame s (assignMy s k v).1 := by
  unfold assignMy
  have h := frame_find s nMe
  revert h
  generalize find s nMe = p
  obtain ⟨s1, c⟩ := p
  intro h
  dsimp only at h ⊢
  split
  · exact h
  · exact h.trans (frame_setProp _ _ _ _)

theorem frame_assignLocal (s : St) (k : Name) (v : Nat) : Frame s (assignLocal s k v).1 := by
  unfold assignLocal
  split
  · exact Frame.refl s
  · split
    · exact frame_setProp _ _ _ _
    · exact Frame.refl s

theorem frame_bindParams (ps : List Name) : ∀ (as : List Nat) (s : St),
    Frame s (bindParams s ps as) := by
  induction ps with
  | nil => intro as s; cases as <;> exact Frame.refl s
  | cons p ps ih =>
    intro as s
    cases as with
    | nil => exact Frame.refl s
    | cons a as => exact (frame_assignLocal s p a).trans (ih as _)

theorem frame_enter (ps : List Name) (args : List Nat) (my : Option Nat) (b : Nat) (s : St) :
    Frame s (enter ps args my b s) := by
  unfold enter
  refine (frame_bindParams ps args s).trans ?_
  cases my with
  | none => exact frame_assignLocal _ _ _
  | some m =>
    exact ((frame_assignLocal _ _ _).trans (frame_assignLocal _ _ _)).trans (frame_assignLocal _ _ _)

/-- States in which the tables have room for one more scope. -/
structure Room (s : St) : Prop where
  pos : 1 ≤ s.ctxs.length
  room : s.ctxs.length ≤ 300
  stack : s.stack.length ≤ s.ctxs.length

/-- States in which statements run. -/
structure Room1 (s : St) : Prop where
  pos : 1 ≤ s.ctxs.length
  room : s.ctxs.length ≤ 300
  stack : s.stack.length < s.ctxs.length

theorem Room1.weak {s : St} (h : Room1 s) : Room s := ⟨h.pos, h.room, Nat.le_of_lt h.stack⟩

theorem Room1.frame {s s' : St} (h : Room1 s) (f : Frame s s') : Room1 s' :=
  ⟨by rw [f.ctxs]; exact h.pos, by rw [f.ctxs]; exact h.room, by rw [f.ctxs, f.stack]; exact h.stack⟩

theorem Room.frame {s s' : St} (h : Room s) (f : Frame s s') : Room s' :=
  ⟨by rw [f.ctxs]; exact h.pos, by rw [f.ctxs]; exact h.room, by rw [f.ctxs, f.stack]; exact h.stack⟩

/-- When a task may be evaluated. -/
def Task.Pre (s : St) : Task → Prop
  | .block _ _ _ => Room s
  | _ => Room1 s

/-- `ev` leaves the frame alone. -/
def EvFrame (ev : Eval) : Prop := ∀ t s, t.Pre s → (ev t s).Holds fun a => Frame s a.1

theorem frame_evalArgs {ev : Eval} (hev : EvFrame ev) (es : List Node) :
    ∀ (k : Nat) (s : St), Room1 s → (evalArgs ev k es s).Holds fun a => Frame s a.1 := by
  induction es with
  | nil => intro k s _; exact Frame.refl s
  | cons e es ih =>
    intro k s hs
    refine (hev (.expr e) s hs).bind ?_
    rintro ⟨s1, v, b⟩ h1
    dsimp only
    split
    · trivial
    · refine (ih (k + 1) s1 (hs.frame h1)).bind ?_
      rintro ⟨s2, vs⟩ h2
      exact h1.trans h2

theorem frame_chain {ev : Eval} (hev : EvFrame ev) (ms : List (Name × List Node)) :
    ∀ (lit : Bool) (r : Nat) (s : St), Room1 s →
      (chain ev lit r ms s).Holds fun a => Frame s a.1 := by
  induction ms with
  | nil => intro lit r s _; exact Frame.refl s
  | cons m ms ih =>
    intro lit r s hs
    obtain ⟨m, as⟩ := m
    refine (frame_tick s).bind ?_
    rintro s1 ⟨h1, -⟩
    refine (frame_evalArgs hev as _ s1 (hs.frame h1)).bind ?_
    rintro ⟨s2, vs⟩ h2
    have h12 := h1.trans h2
    refine (hev (.send r m (vs ++ [nilO])) s2 (hs.frame h12)).bind ?_
    rintro ⟨s3, v, b⟩ h3
    have h13 := h12.trans h3
    exact (ih true v s3 (hs.frame h13)).mono fun a h => h13.trans h

theorem frame_message {ev : Eval} (hev : EvFrame ev) (recv : Node) (ms : List (Name × List Node))
    (s : St) (hs : Room1 s) : (message ev recv ms s).Holds fun a => Frame s a.1 := by
  refine (frame_tick s).bind ?_
  rintro s1 ⟨h1, -⟩
  have hs1 := hs.frame h1
  have go : ∀ (s2 : St) (r : Nat) (lit : Bool), Frame s1 s2 →
      (chain ev lit r ms s2).Holds fun a => Frame s a.1 := by
    intro s2 r lit h2
    exact (frame_chain hev ms lit r s2 (hs1.frame h2)).mono fun a h => (h1.trans h2).trans h
  cases recv with
  | ref own k =>
    have fin : ∀ (p : St × Nat), Frame s1 p.1 →
        (if realFlow p.1.flow then Res.ok (p.1, nilO) else chain ev false p.2 ms p.1).Holds
          fun a => Frame s a.1 := by
      intro p e
      split
      · exact h1.trans e
      · exact go _ _ _ e
    cases own
    · exact fin _ (frame_find _ _)
    · exact fin _ (frame_findMy _ _)
  | str k => exact go _ _ _ (frame_newStr _ _)
  | num k => exact go _ _ _ (frame_newNum _ _)
  | code ps b => exact go _ _ _ (frame_newCode _ _ _)
  | nested n =>
    refine (hev (.expr (.nested n)) s1 hs1).bind ?_
    rintro ⟨s2, r, b⟩ h2
    exact go _ _ _ h2
  | msg _ _ => simp
  | assign _ _ _ => simp
  | ret _ => simp
  | eop => simp

theorem frame_assignment {ev : Eval} (hev : EvFrame ev) (mode : Mode) (k : Name) (value : Node)
    (s : St) (hs : Room1 s) : (assignment ev mode k value s).Holds fun a => Frame s a.1 := by
  refine (frame_tick s).bind ?_
  rintro s1 ⟨h1, -⟩
  refine (hev (.expr value) s1 (hs.frame h1)).bind ?_
  rintro ⟨s2, x, b⟩ h2
  have h12 := h1.trans h2
  cases mode
  · exact h12.trans (frame_assignMy _ _ _)
  · exact h12.trans (frame_assignLocal _ _ _)
  · exact h12.trans (frame_assignVar _ _ _)

theorem frame_expr {ev : Eval} (hev : EvFrame ev) (e : Node) (s : St) (hs : Room1 s) :
    (expr ev e s).Holds fun a => Frame s a.1 := by
  refine (frame_tick s).bind ?_
  rintro s0 ⟨-, h1⟩
  generalize ({ s0 with evals := s0.evals + 1 } : St) = s1 at h1
  dsimp only
  have hs1 := hs.frame h1
  cases e with
  | str k => exact h1.trans (frame_newStr _ _)
  | num k => exact h1.trans (frame_newNum _ _)
  | code ps b => exact h1.trans (frame_newCode _ _ _)
  | ref own k =>
    cases own
    · exact h1.trans (frame_find _ _)
    · exact h1.trans (frame_findMy _ _)
  | msg recv ms =>
    refine (frame_message hev recv ms s1 hs1).bind ?_
    rintro ⟨s2, r⟩ h2
    exact h1.trans h2
  | assign mode k v =>
    refine (frame_assignment hev mode k v s1 hs1).bind ?_
    rintro ⟨s2, r⟩ h2
    exact h1.trans h2
  | ret v =>
    refine (frame_tick s1).bind ?_
    rintro s2 ⟨h2, -⟩
    refine (hev (.expr v) s2 (hs1.frame h2)).bind ?_
    rintro ⟨s3, r, b⟩ h3
    exact (h1.trans h2).trans h3
  | nested n => exact (hev (.expr n) s1 hs1).mono fun a h => h1.trans h
  | eop => exact h1

theorem frame_runList {ev : Eval} (hev : EvFrame ev) (es : List Node) :
    ∀ (s : St), Room1 s → (runList ev es s).Holds fun a => Frame s a.1 := by
  induction es with
  | nil => intro s _; exact Frame.refl s
  | cons e es ih =>
    intro s hs
    refine (hev (.expr e) s hs).bind ?_
    rintro ⟨s1, v, b⟩ h1
    dsimp only
    split
    · exact h1
    · exact (ih s1 (hs.frame h1)).mono fun a h => h1.trans h

/-! ### Conversions -/

theorem frame_cast2string {ev : Eval} (hev : EvFrame ev) (o : Nat) (s : St) (hs : Room1 s) :
    (cast2string ev o s).Holds fun a => Frame s a.1 := by
  unfold cast2string
  split
  · exact Frame.refl s
  · refine (hev (.send o nToString [nilO]) s hs).bind ?_
    rintro ⟨s1, v, b⟩ h1
    dsimp only
    split
    · exact h1
    · exact h1.trans ((frame_raise _ _).trans (frame_newStr _ _))

theorem frame_cast2number {ev : Eval} (hev : EvFrame ev) (o : Nat) (s : St) (hs : Room1 s) :
    (cast2number ev o s).Holds fun a => Frame s a.1 := by
  unfold cast2number
  split
  · exact Frame.refl s
  · refine (hev (.send o nToNumber [nilO]) s hs).bind ?_
    rintro ⟨s1, v, b⟩ h1
    dsimp only
    split
    · exact h1
    · exact h1.trans ((frame_raise _ _).trans (frame_newNum _ _))

theorem frame_cast2bool {ev : Eval} (hev : EvFrame ev) (o : Nat) (s : St) (hs : Room1 s) :
    (cast2bool ev o s).Holds fun a => Frame s a.1 := by
  unfold cast2bool
  split
  · exact Frame.refl s
  · refine (hev (.send o nToBool [nilO]) s hs).bind ?_
    rintro ⟨s1, v, b⟩ h1
    dsimp only
    split
    · exact h1
    · exact h1.trans (frame_raise _ _)

/-- Conversion to text while an error is pending. -/
theorem cast2string_pending {ev : Eval} (hev : EvQuiet ev) (o : Nat) (s : St) (hs : s.flow.isSome) :
    (cast2string ev o s).Holds fun a => Frame s a.1 ∧
      ((∃ k, (s.obj o).val = .str k) → a = (s, o)) ∧
      ((∀ k, (s.obj o).val ≠ .str k) → (∀ k, (s.obj nilO).val ≠ .str k) →
        a = newStr (raise s eRstr) nQuestion) := by
  unfold cast2string
  split
  · rename_i k hk
    exact ⟨Frame.refl s, fun _ => rfl, fun h => absurd hk (h k)⟩
  · rename_i hk
    refine (hev.2 o nToString [nilO] s hs).bind ?_
    rintro ⟨s1, v, b⟩ h1
    cases h1
    dsimp only
    split
    · rename_i k hn
      exact ⟨Frame.refl _, fun ⟨k, h⟩ => absurd h (hk k), fun _ h => absurd hn (h k)⟩
    · exact ⟨(frame_raise _ _).trans (frame_newStr _ _), fun ⟨k, h⟩ => absurd h (hk k), fun _ _ => rfl⟩

/-! ### Blocks -/

theorem frame_handle {ev : Eval} (hev : EvFrame ev) (hq : EvQuiet ev) (b res : Nat) (s : St)
    (hs : Room s) : (handle ev b res s).Holds fun a => Frame s a.1 := by
  have key : ∀ f, s.flow = some f → (match getp (s.obj b).props nCatch with
    | none => Res.ok (s, res)
    | some c => do
      let (s, a) ← cast2string ev (flowObj f) s
      let (s, _) ← ev (.block c [a] none) { s with flow := none }
      Res.ok (s, b)).Holds fun a => Frame s a.1 := by
    intro f hf
    split
    · exact Frame.refl s
    · rename_i c hc
      refine (cast2string_pending hq (flowObj f) s (by rw [hf]; rfl)).bind ?_
      rintro ⟨s1, a⟩ ⟨h1, -⟩
      have h2 := h1.trans (frame_flow s1 none)
      refine (hev (.block c [a] none) _ (hs.frame h2)).bind ?_
      rintro ⟨s2, v, r⟩ h3
      exact h2.trans h3
  unfold handle
  split
  · exact Frame.refl s
  · exact Frame.refl s
  · exact Frame.refl s
  · rename_i f _ _ hf
    exact key f hf

/-- What the body of a block does, seen after its scope is closed. -/
theorem frame_body {ev : Eval} (hev : EvFrame ev) (hq : EvQuiet ev) (b : Nat)
    (args : List Nat) (my : Option Nat) (s : St) (hs : Room s) (ps : List Name) (body : List Node) :
    (openCtx { s with log := .block b args my :: s.log }).Holds fun s1 =>
      (runList ev body (enter ps args my b s1)).Holds fun a =>
        Frame { s with log := .block b args my :: s.log } (closeCtx a.1) := by
  have hopen : (openCtx { s with log := .block b args my :: s.log }).Holds fun s1 =>
      (∃ c, s1.ctxs = c :: s.ctxs) ∧ s1.stack = s.stack ∧ s1.deser = s.deser ∧ Counts s s1 ∧
      s1.log = .block b args my :: s.log ∧ (s.ctxs.length ≥ 300 → s1.flow.isSome) := by
    unfold openCtx
    have hl := hs.room
    rw [if_neg (by show ¬ s.ctxs.length ≥ 301; omega)]
    by_cases hc : s.ctxs.length - 1 ≥ 299
    · simp only [if_pos hc]
      exact ⟨⟨_, rfl⟩, rfl, rfl, .same rfl rfl rfl, rfl, fun _ => rfl⟩
    · simp only [if_neg hc]
      exact ⟨⟨_, rfl⟩, rfl, rfl, .same rfl rfl rfl, rfl, fun h => absurd h (by have := hs.pos; omega)⟩
  refine hopen.mono ?_
  rintro s1 ⟨⟨c, hc⟩, hst, hde, hco, hlo, hfl⟩
  have he := frame_enter ps args my b s1
  have hbody : (runList ev body (enter ps args my b s1)).Holds fun a =>
      Frame (enter ps args my b s1) a.1 := by
    by_cases h300 : s.ctxs.length ≥ 300
    · have hf := hfl h300
      have : (enter ps args my b s1) = s1 := by
        have hb : ∀ (ps : List Name) (as : List Nat), bindParams s1 ps as = s1 := by
          intro ps
          induction ps with
          | nil => intro as; cases as <;> rfl
          | cons p ps ih =>
            intro as
            cases as with
            | nil => rfl
            | cons a as => simp only [bindParams, assignLocal_pending hf, ih]
        unfold enter
        rw [hb]
        cases my <;> simp only [assignLocal_pending hf]
      rw [this]
      exact (quiet_runList hq body s1 hf).mono fun a h => h.frame
    · refine frame_runList hev body _ (Room1.frame ⟨?_, ?_, ?_⟩ he)
      · rw [hc]; simp
      · rw [hc, List.length_cons]; omega
      · rw [hc, hst, List.length_cons]; have := hs.stack; omega
  refine hbody.mono ?_
  rintro ⟨s2, r⟩ h2
  have h12 := he.trans h2
  show Frame { s with log := .block b args my :: s.log } (closeCtx s2)
  have e2 : s2.ctxs = c :: s.ctxs := by rw [h12.ctxs, hc]
  have hne : ∃ d l, s.ctxs = d :: l := by
    have := hs.pos
    cases h : s.ctxs with
    | nil => rw [h] at this; simp at this
    | cons d l => exact ⟨d, l, rfl⟩
  obtain ⟨d, l, hd⟩ := hne
  have e3 : closeCtx s2 = { s2 with ctxs := s.ctxs } := by
    unfold closeCtx; rw [e2, hd]
  rw [e3]
  obtain ⟨l', hl', pl'⟩ := h12.log
  refine ⟨rfl, ?_, ?_, ?_, l', ?_, ?_⟩
  · exact h12.stack.trans hst
  · exact h12.deser.trans hde
  · have := hco.trans h12.counts
    exact ⟨this.sandbox, this.steps, this.limit, this.evals⟩
  · show s2.log = _
    rw [hl', hlo]
  · intro e he
    have := pl' e he
    rw [hde] at this
    exact this

/-- Running a block leaves the frame alone and is recorded. -/
theorem frame_blockRun_code {ev : Eval} (hev : EvFrame ev) (hq : EvQuiet ev) (b : Nat)
    (args : List Nat) (my : Option Nat) (s : St) (hs : Room s) {ps : List Name} {body : List Node}
    (hb : (s.obj b).val = .code ps body) :
    (blockRun ev b args my s).Holds fun a =>
      Frame { s with log := .block b args my :: s.log } a.1 := by
  unfold blockRun
  rw [hb]
  refine (frame_body hev hq b args my s hs ps body).bind ?_
  intro s1 h1
  refine h1.bind ?_
  rintro ⟨s2, r⟩ hclose
  have hr : Room { s with log := .block b args my :: s.log } := ⟨hs.pos, hs.room, hs.stack⟩
  exact (frame_handle hev hq b _ (closeCtx s2) (hr.frame hclose)).mono fun a h => hclose.trans h

theorem frame_blockRun {ev : Eval} (hev : EvFrame ev) (hq : EvQuiet ev) (b : Nat) (args : List Nat)
    (my : Option Nat) (s : St) (hs : Room s) :
    (blockRun ev b args my s).Holds fun a => Frame s a.1 := by
  cases hb : (s.obj b).val with
  | code ps body =>
    refine (frame_blockRun_code hev hq b args my s hs hb).mono fun a h => ?_
    have h0 : Frame s { s with log := .block b args my :: s.log } :=
      ⟨rfl, rfl, rfl, .same rfl rfl rfl, [.block b args my], rfl, fun e he => by
        simp only [List.mem_singleton] at he
        subst he; trivial⟩
    exact h0.trans h
  | nil => unfold blockRun; rw [hb]; exact Frame.refl s
  | obj => unfold blockRun; rw [hb]; exact Frame.refl s
  | bool _ => unfold blockRun; rw [hb]; simp
  | num _ => unfold blockRun; rw [hb]; simp
  | str _ => unfold blockRun; rw [hb]; simp
  | arr _ => unfold blockRun; rw [hb]; simp
  | nat _ => unfold blockRun; rw [hb]; simp

/-! ### Loops -/

theorem frame_timesLoop {ev : Eval} (hev : EvFrame ev) (b : Nat) :
    ∀ (n i : Nat) (s : St), Room1 s → (timesLoop ev b n i s).Holds fun a => Frame s a := by
  intro n
  induction n with
  | zero => intro i s _; exact Frame.refl s
  | succ n ih =>
    intro i s hs
    have h1 := frame_newNum s (i + 1 : Nat)
    refine (hev (.block b [(newNum s (i + 1 : Nat)).2] none) _ (hs.frame h1).weak).bind ?_
    rintro ⟨s2, v, r⟩ h2
    have h3 := (h1.trans h2).trans (frame_eatCont s2)
    dsimp only
    split
    · exact h3
    · exact (ih (i + 1) _ (hs.frame h3)).mono fun a h => h3.trans h

theorem frame_whileRound {ev : Eval} (hev : EvFrame ev) (b c : Nat) (args : List Nat) (s : St)
    (hs : Room1 s) : (whileRound ev b c args s).Holds fun a => Frame s a.1 := by
  unfold whileRound
  split
  · exact Frame.refl s
  · refine (hev (.block c args none) s hs.weak).bind ?_
    rintro ⟨s1, v, r⟩ h1
    refine (frame_cast2bool hev v s1 (hs.frame h1)).bind ?_
    rintro ⟨s2, t⟩ h2
    have h12 := h1.trans h2
    dsimp only
    split
    · exact h12
    · refine (hev (.block b args none) s2 (hs.frame h12).weak).bind ?_
      rintro ⟨s3, v3, r3⟩ h3
      have h13 := (h12.trans h3).trans (frame_eatCont s3)
      exact (hev (.loopWhile b c args) (eatCont s3) (hs.frame h13)).mono fun a h => h13.trans h

theorem frame_eachRound {ev : Eval} (hev : EvFrame ev) (r b i : Nat) (s : St) (hs : Room1 s) :
    (eachRound ev r b i s).Holds fun a => Frame s a.1 := by
  unfold eachRound
  split
  · split
    · exact Frame.refl s
    · rename_i x _
      have h1 := frame_newNum s (i + 1 : Nat)
      refine (hev (.block b [(newNum s (i + 1 : Nat)).2, x, r] none) _ (hs.frame h1).weak).bind ?_
      rintro ⟨s2, v, q⟩ h2
      have h3 := (h1.trans h2).trans (frame_eatCont s2)
      dsimp only
      split
      · exact h3
      · exact (hev (.loopEach r b (i + 1)) _ (hs.frame h3)).mono fun a h => h3.trans h
  · simp

/-! ### Built-in operations and dispatch -/

theorem holds_arg (args : List Nat) (i : Nat) : (arg args i).Holds fun _ => True := by
  unfold arg; split <;> simp

theorem holds_boolOf (s : St) (r : Nat) : (boolOf s r).Holds fun _ => True := by
  unfold boolOf; split <;> simp

theorem frame_branch {ev : Eval} (hev : EvFrame ev) (hit : Bool) (r : Nat) (args : List Nat) (s : St)
    (hs : Room1 s) : (branch ev hit r args s).Holds fun a => Frame s a.1 := by
  unfold branch
  split
  · refine (holds_arg args 0).bind fun b _ => ?_
    split
    · refine (hev (.block b [r] none) s hs.weak).bind ?_
      rintro ⟨s1, v, q⟩ h1
      exact h1
    · exact frame_raise _ _
  · exact frame_eatBrk _

/-- Hypothesis on the primitives: they do not overrun the tables (they cannot reach them). -/
def Env.Safe (env : Env) : Prop := ∀ p obj fresh r args, env.prim p obj fresh r args ≠ .ub .table

theorem frame_native {env : Env} (henv : env.Safe) {ev : Eval} (hev : EvFrame ev) (f : Native)
    (r : Nat) (args : List Nat) (s : St) (hs : Room1 s) (hd : s.deser = true → white f = true) :
    (native env ev f r args s).Holds fun a => Frame s a.1 := by
  cases f with
  | myself => exact Frame.refl s
  | make => exact frame_alloc _ _
  | onDo =>
    refine (holds_arg args 0).bind fun m _ => ?_
    split
    · refine (holds_arg args 1).bind fun b _ => ?_
      dsimp only
      split
      · exact (frame_put s b _).trans (frame_put _ _ _)
      · exact (frame_put s b _).trans (frame_raise _ _)
    · exact frame_raise _ _
  | recursive => exact frame_rec _ _
  | chainOn => exact frame_put _ _ _
  | chainOff => exact frame_put _ _ _
  | respond => exact Frame.refl s
  | caseDo =>
    refine (holds_arg args 1).bind fun b _ => ?_
    split
    · refine (holds_arg args 0).bind fun x _ => ?_
      refine (hev (.send r nEquals [x]) s hs).bind ?_
      rintro ⟨s1, v, q⟩ h1
      refine (frame_cast2bool hev v s1 (hs.frame h1)).bind ?_
      rintro ⟨s2, t⟩ h2
      have h12 := h1.trans h2
      dsimp only
      split
      · refine (hev (.block b [x] none) s2 (hs.frame h12).weak).bind ?_
        rintro ⟨s3, v3, q3⟩ h3
        exact ((h12.trans h3).trans (frame_eatCont _)).trans (frame_eatBrk _)
      · exact h12
    · exact frame_raise _ _
  | message =>
    refine (holds_arg args 0).bind fun m _ => ?_
    refine (frame_cast2string hev m s hs).bind ?_
    rintro ⟨s1, m1⟩ h1
    refine (holds_arg args 1).bind fun l _ => ?_
    dsimp only
    split
    · rename_i l k _ _
      refine (hev (.send r k (if l.isEmpty then [] else l ++ [nilO])) s1 (hs.frame h1)).bind ?_
      rintro ⟨s2, v, q⟩ h2
      exact h1.trans h2
    · exact h1.trans (frame_raise _ _)
  | ifTrue => exact (holds_boolOf s r).bind fun c _ => frame_branch hev c r args s hs
  | ifFalse => exact (holds_boolOf s r).bind fun c _ => frame_branch hev (!c) r args s hs
  | brk =>
    refine (holds_boolOf s r).bind fun c _ => ?_
    cases c
    · exact Frame.refl s
    · exact frame_flow _ _
  | cont =>
    refine (holds_boolOf s r).bind fun c _ => ?_
    cases c
    · exact Frame.refl s
    · exact frame_flow _ _
  | run =>
    refine (hev (.block r args (some r)) s hs.weak).bind ?_
    rintro ⟨s1, v, q⟩ h1
    exact (h1.trans (frame_eatCont _)).trans (frame_eatBrk _)
  | times =>
    refine (holds_arg args 0).bind fun a _ => ?_
    refine (frame_cast2number hev a s hs).bind ?_
    rintro ⟨s1, t⟩ h1
    dsimp only
    split
    · refine (frame_timesLoop hev r t.toNat 0 s1 (hs.frame h1)).bind ?_
      intro s2 h2
      exact (h1.trans h2).trans (frame_eatBrk _)
    · simp
  | whileTrue =>
    refine (holds_arg args 0).bind fun c _ => ?_
    have h1 : Frame s (if isCode s c then s else raise s eBlock) := by
      split
      · exact Frame.refl s
      · exact frame_raise _ _
    refine (hev (.loopWhile r c args) _ (hs.frame h1)).bind ?_
    rintro ⟨s2, v, q⟩ h2
    exact (h1.trans h2).trans (frame_eatBrk _)
  | procedure =>
    have h1 := frame_newNum s 1
    refine (hev (.block r [(newNum s 1).2] none) _ (hs.frame h1).weak).bind ?_
    rintro ⟨s2, v, q⟩ h2
    exact (h1.trans h2).trans (frame_eatBrk _)
  | catch_ => exact (holds_arg args 0).bind fun c _ => frame_setProp _ _ _ _
  | error => exact (holds_arg args 0).bind fun c _ => frame_flow _ _
  | set =>
    refine (holds_arg args 0).bind fun k _ => ?_
    refine (frame_cast2string hev k s hs).bind ?_
    rintro ⟨s1, k1⟩ h1
    refine (holds_arg args 1).bind fun v _ => ?_
    split
    · exact h1.trans (frame_setProp _ _ _ _)
    · simp
  | each =>
    refine (holds_arg args 0).bind fun b _ => ?_
    split
    · refine (hev (.loopEach r b 0) s hs).bind ?_
      rintro ⟨s1, v, q⟩ h1
      exact h1.trans (frame_eatBrk _)
    · exact frame_raise _ _
  | push =>
    refine (holds_arg args 0).bind fun x _ => ?_
    split
    · exact frame_put _ _ _
    · simp
  | newArr => exact frame_alloc _ _
  | newPush => exact (holds_arg args 0).bind fun x _ => frame_alloc _ _
  | endProgram => exact frame_flow _ _
  | eval =>
    have hdf : s.deser = false := by
      cases h : s.deser
      · rfl
      · exact absurd (hd h) (by decide)
    show Res.Holds (match (s.obj r).val with
      | .str k => _
      | _ => _) _
    split
    · split
      · exact Frame.refl s
      · rename_i e _
        have hs1 : Room1 { s with deser := true } := ⟨hs.pos, hs.room, hs.stack⟩
        refine (hev (.expr e) _ hs1).bind ?_
        rintro ⟨s1, v, q⟩ h1
        obtain ⟨l, hl, pl⟩ := h1.log
        refine ⟨h1.ctxs, h1.stack, hdf.symm,
          ⟨h1.counts.sandbox, h1.counts.steps, h1.counts.limit, h1.counts.evals⟩, l, hl, ?_⟩
        intro e he
        have := pl e he
        cases e with
        | block b args' my' => trivial
        | native d' g r' args' => exact ⟨this.1, fun h => by rw [hdf] at h; cases h⟩
    · simp
  | prim p =>
    have hp := henv p s.obj s.fresh r args
    show Res.Holds (env.prim p s.obj s.fresh r args >>= _) _
    have : (env.prim p s.obj s.fresh r args).Holds fun _ => True := by
      cases h : env.prim p s.obj s.fresh r args with
      | ub u => intro hu; subst hu; exact hp h
      | _ => trivial
    refine this.bind fun o _ => ?_
    exact .heap rfl rfl rfl rfl rfl rfl rfl

theorem frame_call {env : Env} (henv : env.Safe) {ev : Eval} (hev : EvFrame ev) (f r : Nat)
    (args : List Nat) (s : St) (hs : Room1 s) :
    (call env ev f r args s).Holds fun a => Frame s a.1 := by
  unfold call
  split
  · rename_i g _
    split
    · exact Frame.refl s
    · rename_i hw
      have hd : s.deser = true → white g = true := by
        intro h
        cases hg : white g
        · exact absurd (by rw [h, hg]; rfl) hw
        · rfl
      have hs1 : Room1 { s with log := .native s.deser g r args :: s.log } :=
        ⟨hs.pos, hs.room, hs.stack⟩
      refine (frame_native henv hev g r args _ hs1 hd).mono ?_
      rintro ⟨s1, v⟩ h
      obtain ⟨l, hl, pl⟩ := h.log
      refine ⟨h.ctxs, h.stack, h.deser, ⟨h.counts.sandbox, h.counts.steps, h.counts.limit,
        h.counts.evals⟩, l ++ [.native s.deser g r args], by rw [List.append_assoc]; exact hl, ?_⟩
      intro e he
      rcases List.mem_append.1 he with he | he
      · exact pl e he
      · simp only [List.mem_singleton] at he
        subst he
        exact ⟨hd, id⟩
  · split
    · split
      · rename_i h
        have h1 := hs.stack
        have h2 := hs.room
        omega
      · have hs1 : Room { s with stack := f :: s.stack } :=
          ⟨hs.pos, hs.room, by have := hs.stack; simp only [List.length_cons]; omega⟩
        refine (hev (.block f args (some r)) _ hs1).bind ?_
        rintro ⟨s1, v, q⟩ h
        refine ⟨h.ctxs, ?_, h.deser, ⟨h.counts.sandbox, h.counts.steps, h.counts.limit,
          h.counts.evals⟩, h.log⟩
        show s1.stack.tail = s.stack
        rw [h.stack]; rfl
    · refine (hev (.block f args none) s hs.weak).bind ?_
      rintro ⟨s1, v, q⟩ h
      exact h
  · exact Frame.refl s

theorem frame_send {env : Env} (henv : env.Safe) {ev : Eval} (hev : EvFrame ev) (n r : Nat) (m : Name)
    (args : List Nat) (s : St) (hs : Room1 s) :
    (send env ev n r m args s).Holds fun a => Frame s a.1 := by
  unfold send
  split
  · exact Frame.refl s
  · split
    · trivial
    · rename_i rec _
      have h1 := (frame_rec s rec).trans (frame_newStr _ m)
      refine (hev (.send r (respondName (args.length - 1))
        ((newStr { s with recursion := rec } m).2 :: args)) _ (hs.frame h1)).bind ?_
      rintro ⟨s2, v, q⟩ h2
      exact h1.trans h2
    · rename_i f rec _
      have h1 := frame_rec s rec
      refine (frame_call henv hev f r args _ (hs.frame h1)).bind ?_
      rintro ⟨s2, v⟩ h2
      exact h1.trans h2

theorem holds_plain {x : Res (St × Nat)} {s : St} (h : x.Holds fun a => Frame s a.1) :
    (plain x).Holds fun a => Frame s a.1 :=
  h.bind fun _ h => h

/-- Every evaluation leaves the scopes, the running methods and the modes as they were. -/
theorem exec_frame {env : Env} (henv : env.Safe) : ∀ n, EvFrame (exec env n) := by
  intro n
  induction n with
  | zero => intro t s _; trivial
  | succ n ih =>
    intro t s hs
    cases t with
    | expr e => exact frame_expr ih e s hs
    | send r m args => exact holds_plain (frame_send henv ih n r m args s hs)
    | block b args my => exact holds_plain (frame_blockRun ih (exec_quiet env n) b args my s hs)
    | loopWhile b c args => exact frame_whileRound ih b c args s hs
    | loopEach r b i => exact frame_eachRound ih r b i s hs

end Verif.Model.Interp
