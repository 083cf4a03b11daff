import Verif.Lemmas.GC

/-!
# Properties of the garbage collector (C15, C16)

Two views: one collection on an arbitrary heap (`Ready`), and whole programs, compared with a program that never
collects anything (`Verif.Spec.GC.World`).
-/

namespace Verif.Props.GC

open Verif.Model Verif.Model.GC
open Verif.Spec.GC (Reach World Node Op)

/-- `y` is an element, value or name in `x`. -/
def RefersTo (h : Heap) (x y : Nat) : Prop :=
  ∃ o, h.mem x = some o ∧
    (o.isArray = true ∧ y ∈ o.elems ∨ ∃ k v, ((k, v) ∈ o.props ∨ (k, v) ∈ o.methods) ∧ (y = k ∨ y = v))

/-- `k` is the name of a property or method of `x`. -/
def NameIn (h : Heap) (x k : Nat) : Prop := ∃ o v, h.mem x = some o ∧ ((k, v) ∈ o.props ∨ (k, v) ∈ o.methods)

/-- What a collection needs: the list of all objects (`l`) is intact, no marks are set, contexts are sticky, what can
be reached exists, and names have no properties, methods or elements of their own. -/
structure Ready (h : Heap) (l ctx : List Nat) : Prop where
  list : Wf h l
  unmarked : ∀ x o, h.mem x = some o → o.mark = false
  sticky : ∀ c ∈ ctx, ∃ o, h.mem c = some o ∧ o.sticky = true
  exist : ∀ x, Reach (RefersTo h) ctx x → (h.mem x).isSome = true
  names : ∀ x k, Reach (RefersTo h) ctx x → NameIn h x k → ∀ z, ¬ RefersTo h k z

theorem next_iff {h : Heap} {x y : Nat} : Next h x y ↔ RefersTo h x y := by
  unfold Next RefersTo Obj.outs Obj.keys
  constructor
  · rintro ⟨o, e, hy⟩
    refine ⟨o, e, ?_⟩
    simp only [List.mem_append, List.mem_map] at hy
    rcases hy with ((hy | ⟨p, hp, rfl⟩) | ⟨p, hp, rfl⟩) | (⟨p, hp, rfl⟩ | ⟨p, hp, rfl⟩)
    · left
      split at hy
      · rename_i ha; exact ⟨ha, hy⟩
      · cases hy
    · exact .inr ⟨p.1, p.2, .inl hp, .inr rfl⟩
    · exact .inr ⟨p.1, p.2, .inr hp, .inr rfl⟩
    · exact .inr ⟨p.1, p.2, .inl hp, .inl rfl⟩
    · exact .inr ⟨p.1, p.2, .inr hp, .inl rfl⟩
  · rintro ⟨o, e, hy⟩
    refine ⟨o, e, ?_⟩
    simp only [List.mem_append, List.mem_map]
    rcases hy with ⟨ha, hy⟩ | ⟨k, v, h | h, rfl | rfl⟩
    · left; left; left; rw [if_pos ha]; exact hy
    · exact .inr (.inl ⟨(y, v), h, rfl⟩)
    · exact .inl (.inl (.inr ⟨(k, y), h, rfl⟩))
    · exact .inr (.inr ⟨(y, v), h, rfl⟩)
    · exact .inl (.inr ⟨(k, y), h, rfl⟩)

theorem next_eq (h : Heap) : Next h = RefersTo h := by
  funext x y
  exact propext next_iff

theorem Ready.collect {h : Heap} {l ctx : List Nat} (hr : Ready h l ctx) :
    ∃ (h' : Heap) (M : Nat → Prop), GC.collect h ctx = .ok h' ∧ Wf h' (l.filter (fun x => (h'.mem x).isSome)) ∧
      h'.fresh = h.fresh ∧
      (∀ y, M y → Reach (RefersTo h) ctx y) ∧ (∀ y, Reach (RefersTo h) ctx y → y ∈ ctx ∨ M y) ∧
      (∀ x o, h.mem x = some o → M x ∨ o.sticky = true → ∃ g, h'.mem x = some { o with gnext := g }) ∧
      (∀ x o, h.mem x = some o → ¬ M x → o.sticky = false → h'.mem x = none) ∧
      (∀ x, h.mem x = none → h'.mem x = none) := by
  have hnext : Found h ctx = Reach (RefersTo h) ctx := by unfold Found; rw [next_eq]
  have hc : Closed h (Reach (RefersTo h) ctx) (fun k => ∀ z, ¬ RefersTo h k z) := by
    constructor
    · intro x hx
      exact Option.isSome_iff_exists.1 (hr.exist x hx)
    · intro x hx
      exact hr.list.lt x ((hr.list.all x).1 (hr.exist x hx))
    · intro x o hx e y hy
      exact .step hx (next_iff.1 ⟨o, e, .inl hy⟩)
    · intro x o hx e y hy
      refine ⟨.step hx (next_iff.1 ⟨o, e, .inr hy⟩), ?_⟩
      refine hr.names x y hx ?_
      unfold Obj.keys at hy
      simp only [List.mem_append, List.mem_map] at hy
      rcases hy with ⟨p, hp, rfl⟩ | ⟨p, hp, rfl⟩
      · exact ⟨o, p.2, e, .inl hp⟩
      · exact ⟨o, p.2, e, .inr hp⟩
  obtain ⟨h', M, h1, h2, h3, h4, h5, h6⟩ := collect_ok hr.list
    (by rintro x ⟨o, e, hm⟩; rw [hr.unmarked x o e] at hm; cases hm) hc (fun c hc => .root hc)
    (by
      intro k _ hp z hz
      exact hp z (next_iff.1 hz))
  rw [hnext] at h4 h5
  exact ⟨h', M, h1, h2, h3, h4, h5, h6⟩

/-! ## C15: nothing reachable is freed -/

/-- **C15** (one collection, any heap): a collection never touches freed memory, and every object that can be reached
from the open scopes through elements, properties and methods is still there with the same contents.
Missing: prototype links are not followed and names with properties of their own are excluded (`C15_violated_link`,
`C15_violated_name`). -/
theorem C15_collect_partial (h : Heap) (l ctx : List Nat) (hr : Ready h l ctx) :
    ∃ h', collect h ctx = .ok h' ∧
      ∀ x, Reach (RefersTo h) ctx x → ∃ o o', h.mem x = some o ∧ h'.mem x = some o' ∧
        o'.isArray = o.isArray ∧ o'.elems = o.elems ∧ o'.tail = o.tail ∧ o'.props = o.props ∧
        o'.methods = o.methods ∧ o'.link = o.link ∧ o'.sticky = o.sticky := by
  obtain ⟨h', M, e, _, _, _, hM, hkeep, _, _⟩ := hr.collect
  refine ⟨h', e, ?_⟩
  intro x hx
  obtain ⟨o, eo⟩ := Option.isSome_iff_exists.1 (hr.exist x hx)
  have : M x ∨ o.sticky = true := by
    rcases hM x hx with hc | hm
    · obtain ⟨p, ep, hs⟩ := hr.sticky x hc
      rw [eo] at ep
      cases ep
      exact .inr hs
    · exact .inl hm
  obtain ⟨g, eg⟩ := hkeep x o eo this
  exact ⟨o, _, eo, eg, rfl, rfl, rfl, rfl, rfl, rfl, rfl⟩

/-- **C15** (whole programs): whatever a program does, with collections at any points, it never touches a freed object,
and everything it can get hold of is as if nothing had ever been freed. -/
theorem C15_program_partial (ops : List Op) (hl : World.start.LegalRun ops) :
    ∃ s, run start ops = .ok s ∧ s.ctxs = (World.start.run ops).scopes ∧
      ∀ x, (World.start.run ops).Live x → ∃ o n, s.heap.mem x = some o ∧ (World.start.run ops).node x = some n ∧
        o.isArray = n.isArray ∧ o.elems.drop o.tail = n.elems ∧ o.props = n.props ∧ o.methods = n.methods := by
  obtain ⟨s, e, l, R, L, h⟩ := run_ok start_ok hl
  refine ⟨s, e, h.scopes, ?_⟩
  intro x hx
  obtain ⟨_, o, n, eo, en, hr⟩ := h.live x (h.ofLive hx)
  exact ⟨o, n, eo, en, hr.arr, hr.elems, hr.props, hr.methods⟩

/-- A prototype that is only referred to by its descendant is freed: a variable holds an object (2), a second variable
an object (4) made from it; the first variable is removed; after a collection object 4 is there and reachable, and its
prototype is gone. -/
theorem C15_violated_link :
    ∃ s o, run start [.make 0 false none, .make 0 false (some 2), .del false 0 1, .collect] = .ok s ∧
      s.heap.mem 4 = some o ∧ o.link = some 2 ∧ s.heap.mem 2 = none := by
  obtain ⟨s, e, h⟩ := Out.of_sat
    (o := run start [.make 0 false none, .make 0 false (some 2), .del false 0 1, .collect])
    (p := fun s => (match s.heap.mem 4 with | some o => o.link == some 2 | none => false) && (s.heap.mem 2).isNone)
    (by decide +kernel)
  simp only [Bool.and_eq_true] at h
  cases e4 : s.heap.mem 4 with
  | none => rw [e4] at h; simp at h
  | some o =>
    rw [e4] at h
    simp only [beq_iff_eq, Option.isNone_iff_eq_none] at h
    exact ⟨s, o, e, e4, h.1, h.2⟩

/-- A text that serves as name (1) and is also an ordinary value loses its own properties: the value (4) of its property is
freed although the text is reachable. -/
theorem C15_violated_name :
    ∃ s o, run start [.make 0 false none, .make 0 false none, .put false 1 3 4, .put false 0 3 1,
      .put false 0 1 2, .del false 0 2, .collect]
        = .ok s ∧
      s.heap.mem 1 = some o ∧ o.props = [(3, 4)] ∧ s.heap.mem 4 = none := by
  obtain ⟨s, e, h⟩ := Out.of_sat
    (o := run start [.make 0 false none, .make 0 false none, .put false 1 3 4, .put false 0 3 1,
      .put false 0 1 2, .del false 0 2, .collect])
    (p := fun s => (match s.heap.mem 1 with | some o => o.props == [(3, 4)] | none => false) && (s.heap.mem 4).isNone)
    (by decide +kernel)
  simp only [Bool.and_eq_true] at h
  cases e4 : s.heap.mem 1 with
  | none => rw [e4] at h; simp at h
  | some o =>
    rw [e4] at h
    simp only [beq_iff_eq, Option.isNone_iff_eq_none] at h
    exact ⟨s, o, e, e4, h.1, h.2⟩

/-- A permanent (sticky) object such as the prototype of all objects survives when its variable is overwritten, but its
methods do not: here object 1 is permanent with method 3 and no variable refers to it. -/
def permanentHeap : Heap :=
  { mem := fun y =>
      if y = 0 then some ⟨false, [], 0, [], [], none, true, false, none⟩
      else if y = 1 then some ⟨false, [], 0, [], [(2, 3)], none, true, false, some 0⟩
      else if y = 2 then some ⟨false, [], 0, [], [], none, false, false, some 1⟩
      else if y = 3 then some ⟨false, [], 0, [], [], none, false, false, some 2⟩
      else none
    first := some 3
    fresh := 4 }

theorem C15_violated_permanent :
    ∃ h' o, collect permanentHeap [0] = .ok h' ∧ h'.mem 1 = some o ∧ o.methods = [(2, 3)] ∧ h'.mem 3 = none := by
  obtain ⟨s, e, h⟩ := Out.of_sat (o := collect permanentHeap [0])
    (p := fun s => (match s.mem 1 with | some o => o.methods == [(2, 3)] | none => false) && (s.mem 3).isNone)
    (by decide +kernel)
  simp only [Bool.and_eq_true] at h
  cases e4 : s.mem 1 with
  | none => rw [e4] at h; simp at h
  | some o =>
    rw [e4] at h
    simp only [beq_iff_eq, Option.isNone_iff_eq_none] at h
    exact ⟨s, o, e, e4, h.1, h.2⟩

/-! ## C16: everything else is freed -/

/-- **C16**: after a collection exactly the permanent objects and those reachable from the open scopes are left; no mark
stays set; and the heap is ready for the next collection. Elements that were shifted off a sequence still count as its
elements (`C16_violated`). -/
theorem C16_collect (h : Heap) (l ctx : List Nat) (hr : Ready h l ctx) :
    ∃ h', collect h ctx = .ok h' ∧
      (∀ x, (h'.mem x).isSome = true ↔
        ∃ o, h.mem x = some o ∧ (o.sticky = true ∨ Reach (RefersTo h) ctx x)) ∧
      (∀ x o', h'.mem x = some o' → o'.mark = false) ∧
      Ready h' (l.filter fun x => (h'.mem x).isSome) ctx := by
  obtain ⟨h', M, e, hwf, hfr, hM1, hM2, hkeep, hfree, hno⟩ := hr.collect
  have hany : ∀ x o', h'.mem x = some o' → ∃ o g, h.mem x = some o ∧ o' = { o with gnext := g } ∧
      (o.sticky = true ∨ M x) := by
    intro x o' e'
    cases eo : h.mem x with
    | none => rw [hno x eo] at e'; cases e'
    | some o =>
      by_cases hk : M x ∨ o.sticky = true
      · obtain ⟨g, eg⟩ := hkeep x o eo hk
        rw [e'] at eg
        cases eg
        exact ⟨o, g, rfl, rfl, hk.symm⟩
      · have := hfree x o eo (fun hm => hk (.inl hm)) (by
          cases hs : o.sticky with
          | false => rfl
          | true => exact absurd (.inr hs) hk)
        rw [this] at e'
        cases e'
  have hstay : ∀ x, Reach (RefersTo h) ctx x → (h'.mem x).isSome = true := by
    intro x hx
    obtain ⟨o, eo⟩ := Option.isSome_iff_exists.1 (hr.exist x hx)
    have : M x ∨ o.sticky = true := by
      rcases hM2 x hx with hc | hm
      · obtain ⟨p, ep, hs⟩ := hr.sticky x hc
        rw [eo] at ep
        cases ep
        exact .inr hs
      · exact .inl hm
    obtain ⟨g, eg⟩ := hkeep x o eo this
    simp [eg]
  have href : ∀ x y, RefersTo h' x y → RefersTo h x y := by
    rintro x y ⟨o', e', hy⟩
    obtain ⟨o, g, eo, rfl, _⟩ := hany x o' e'
    exact ⟨o, eo, hy⟩
  have hreach : ∀ x, Reach (RefersTo h') ctx x → Reach (RefersTo h) ctx x := by
    intro x hx
    induction hx with
    | root h => exact .root h
    | step _ he ih => exact .step ih (href _ _ he)
  have hmark : ∀ x o', h'.mem x = some o' → o'.mark = false := by
    intro x o' e'
    obtain ⟨o, g, eo, rfl, _⟩ := hany x o' e'
    exact hr.unmarked x o eo
  refine ⟨h', e, ?_, hmark, hwf, hmark, ?_, ?_, ?_⟩
  · intro x
    constructor
    · intro hx
      obtain ⟨o', e'⟩ := Option.isSome_iff_exists.1 hx
      obtain ⟨o, g, eo, _, hk⟩ := hany x o' e'
      exact ⟨o, eo, hk.imp id (hM1 x)⟩
    · rintro ⟨o, eo, hk | hk⟩
      · obtain ⟨g, eg⟩ := hkeep x o eo (.inr hk)
        simp [eg]
      · exact hstay x hk
  · intro c hc
    obtain ⟨o, eo, hs⟩ := hr.sticky c hc
    obtain ⟨g, eg⟩ := hkeep c o eo (.inr hs)
    exact ⟨_, eg, hs⟩
  · intro x hx
    exact hstay x (hreach x hx)
  · intro x k hx hk z hz
    obtain ⟨o', v, e', hv⟩ := hk
    obtain ⟨o, g, eo, rfl, _⟩ := hany x o' e'
    exact hr.names x k (hreach x hx) ⟨o, v, eo, hv⟩ z (href k z hz)

/-- **C16**: a second collection right after the first frees nothing and changes nothing the program can see. -/
theorem C16_again (h : Heap) (l ctx : List Nat) (hr : Ready h l ctx) :
    ∃ h' h'', collect h ctx = .ok h' ∧ collect h' ctx = .ok h'' ∧
      ∀ x, (h''.mem x).isSome = (h'.mem x).isSome := by
  obtain ⟨h1, e1, i1, _, r1⟩ := C16_collect h l ctx hr
  obtain ⟨h2, e2, i2, _, _⟩ := C16_collect h1 _ ctx r1
  obtain ⟨h1', e1', keep1⟩ := C15_collect_partial h l ctx hr
  rw [e1] at e1'
  cases e1'
  refine ⟨h1, h2, e1, e2, ?_⟩
  have hreach : ∀ x, Reach (RefersTo h) ctx x → Reach (RefersTo h1) ctx x := by
    intro x hx
    induction hx with
    | root h => exact .root h
    | step hx he ih =>
      obtain ⟨o, o', eo, eo', ha, hel, _, hp, hm, _⟩ := keep1 _ hx
      obtain ⟨p, ep, hy⟩ := he
      rw [eo] at ep
      cases ep
      refine .step ih ⟨o', eo', ?_⟩
      rw [ha, hel, hp, hm]
      exact hy
  intro x
  cases hs : (h1.mem x).isSome with
  | false =>
    cases hs2 : (h2.mem x).isSome with
    | false => rfl
    | true =>
      obtain ⟨o, eo, _⟩ := (i2 x).1 hs2
      simp [eo] at hs
  | true =>
    rw [i2 x]
    obtain ⟨o1, eo1⟩ := Option.isSome_iff_exists.1 hs
    refine ⟨o1, eo1, ?_⟩
    obtain ⟨o, eo, hk⟩ := (i1 x).1 hs
    rcases hk with hk | hk
    · left
      obtain ⟨h1'', M, e, _, _, _, _, hkeep, _, _⟩ := hr.collect
      rw [e1] at e
      cases e
      obtain ⟨g, eg⟩ := hkeep x o eo (.inr hk)
      rw [eo1] at eg
      cases eg
      exact hk
    · exact .inr (hreach x hk)

/-- **C16** (whole programs): in a program that never shifts an element off a sequence, right after a collection
exactly the objects the program can get hold of exist. -/
theorem C16_program_partial (ops : List Op) (hl : World.start.LegalRun (ops ++ [.collect])) (hns : ∀ x, Op.shift x ∉ ops) :
    ∃ s, run start (ops ++ [.collect]) = .ok s ∧
      ∀ x, (s.heap.mem x).isSome = true ↔ (World.start.run ops).Live x := by
  have hrun : ∀ (ops : List Op) (w : World), w.LegalRun (ops ++ [.collect]) → w.LegalRun ops := by
    intro ops
    induction ops with
    | nil => intro w _; trivial
    | cons op ops ih => intro w h; exact ⟨h.1, ih _ h.2⟩
  have happ : ∀ (ops : List Op) (s s1 : St), run s ops = .ok s1 → run s (ops ++ [.collect]) = step s1 .collect := by
    intro ops
    induction ops with
    | nil =>
      intro s s1 e
      cases e
      simp only [List.nil_append, run]
      cases step s .collect <;> rfl
    | cons op ops ih =>
      intro s s1 e
      simp only [run, Out.bind_eq_ok] at e
      obtain ⟨s2, e2, e3⟩ := e
      simp only [List.cons_append, run, e2, Out.ok_bind]
      exact ih s2 s1 e3
  obtain ⟨s1, e1, h1⟩ := run_ok start_ok (hrun ops _ hl)
  have hn := neat_run start_ok start_neat (hrun ops _ hl) hns e1
  obtain ⟨s2, e2, h2⟩ := step_ok (op := .collect) h1 trivial
  refine ⟨s2, by rw [happ ops _ _ e1, e2], ?_⟩
  intro x
  constructor
  · intro hx
    exact collect_exact h1 hn e2 hx
  · intro hx
    obtain ⟨l, R, L, h⟩ := h2
    obtain ⟨_, o, n, eo, _, _⟩ := h.live x (h.ofLive hx)
    simp [eo]

/-- An element that was shifted off (4) stays in memory although no variable, property or live element refers to it. -/
theorem C16_violated :
    ∃ s o, run start [.make 0 true none, .make 0 false none, .push 2 4, .del false 0 0, .shift 2, .collect] = .ok s ∧
      s.heap.mem 2 = some o ∧ o.elems.drop o.tail = [] ∧ (s.heap.mem 4).isSome = true ∧
      ¬ (World.start.run [.make 0 true none, .make 0 false none, .push 2 4, .del false 0 0, .shift 2, .collect]).Live 4 := by
  obtain ⟨s, e, h⟩ := Out.of_sat
    (o := run start [.make 0 true none, .make 0 false none, .push 2 4, .del false 0 0, .shift 2, .collect])
    (p := fun s => (match s.heap.mem 2 with | some o => o.elems.drop o.tail == [] | none => false) && (s.heap.mem 4).isSome)
    (by decide +kernel)
  simp only [Bool.and_eq_true] at h
  cases e4 : s.heap.mem 2 with
  | none => rw [e4] at h; simp at h
  | some o =>
    rw [e4] at h
    simp only [beq_iff_eq] at h
    refine ⟨s, o, e, e4, h.1, h.2, ?_⟩
    generalize hw : World.start.run [.make 0 true none, .make 0 false none, .push 2 4, .del false 0 0, .shift 2, .collect] = w
    have h0 : w.node 0 = some ⟨false, false, [], [(1, 2)], []⟩ := by rw [← hw]; decide +kernel
    have h1 : w.node 1 = some ⟨false, true, [], [], []⟩ := by rw [← hw]; decide +kernel
    have h2 : w.node 2 = some ⟨true, false, [], [], []⟩ := by rw [← hw]; decide +kernel
    have hsc : w.scopes = [0] := by rw [← hw]; decide +kernel
    have : ∀ x, w.Live x → x = 0 ∨ x = 1 ∨ x = 2 := by
      intro x hx
      induction hx with
      | root hx => rw [hsc] at hx; simp at hx; exact .inl hx
      | step _ he ih =>
        obtain ⟨n, en, hy⟩ := he
        rcases ih with rfl | rfl | rfl
        · rw [h0] at en; cases en; simp at hy; omega
        · rw [h1] at en; cases en; simp at hy
        · rw [h2] at en; cases en; simp at hy
    intro h4
    have := this 4 h4
    omega

/-! ## Examples -/

/-- A legal program with a shared object, a cycle, scopes and several collections. -/
def demo : List Op :=
  [.make 0 true none, .make 0 false none, .push 2 4, .push 2 4, .put true 4 3 2, .collect, .enter, .make 5 false none,
   .push 2 7, .leave, .collect, .pop 2, .del false 0 0, .collect]

/-- Liveness of concrete objects can be found by search. -/
theorem live_of_path {w : World} {x y : Nat} (h : w.Live x) (n : Node) (hn : w.node x = some n)
    (hy : y ∈ n.elems ∨ (y ∈ n.props.map (·.1) ∨ y ∈ n.props.map (·.2) ∨ y ∈ n.methods.map (·.1) ∨ y ∈ n.methods.map (·.2))) :
    w.Live y := by
  refine .step h ⟨n, hn, ?_⟩
  simp only [List.mem_map] at hy
  rcases hy with hy | ⟨p, hp, rfl⟩ | ⟨p, hp, rfl⟩ | ⟨p, hp, rfl⟩ | ⟨p, hp, rfl⟩
  · exact .inl hy
  · exact .inr ⟨p.1, p.2, .inl hp, .inl rfl⟩
  · exact .inr ⟨p.1, p.2, .inl hp, .inr rfl⟩
  · exact .inr ⟨p.1, p.2, .inr hp, .inl rfl⟩
  · exact .inr ⟨p.1, p.2, .inr hp, .inr rfl⟩

theorem live_root {w : World} {x : Nat} (h : x ∈ w.scopes) : w.Live x := .root h

theorem demo_legal : World.start.LegalRun demo := by
  refine ⟨⟨live_root (by decide), _, rfl, rfl⟩, ⟨live_root (by decide), _, rfl, rfl⟩, ?_⟩
  refine ⟨⟨?_, ?_, _, rfl, rfl, rfl⟩, ⟨?_, ?_, _, rfl, rfl, rfl⟩, ?_⟩
  · exact live_of_path (x := 0) (live_root (by decide +kernel)) _ rfl (by decide +kernel)
  · exact live_of_path (x := 0) (live_root (by decide +kernel)) _ rfl (by decide +kernel)
  · exact live_of_path (x := 0) (live_root (by decide +kernel)) _ rfl (by decide +kernel)
  · exact live_of_path (x := 0) (live_root (by decide +kernel)) _ rfl (by decide +kernel)
  refine ⟨⟨?_, ?_, ?_, ⟨_, rfl, rfl⟩, _, rfl, rfl⟩, trivial, trivial, ?_⟩
  · exact live_of_path (x := 0) (live_root (by decide +kernel)) _ rfl (by decide +kernel)
  · exact live_of_path (x := 0) (live_root (by decide +kernel)) _ rfl (by decide +kernel)
  · exact live_of_path (x := 0) (live_root (by decide +kernel)) _ rfl (by decide +kernel)
  refine ⟨⟨live_root (by decide +kernel), _, rfl, rfl⟩, ⟨?_, ?_, _, rfl, rfl, rfl⟩, ?_, trivial, ?_⟩
  · exact live_of_path (x := 0) (live_root (by decide +kernel)) _ rfl (by decide +kernel)
  · exact live_of_path (x := 5) (live_root (by decide +kernel)) _ rfl (by decide +kernel)
  · unfold World.Legal; decide +kernel
  refine ⟨?_, live_root (by decide +kernel), trivial, trivial⟩
  exact live_of_path (x := 0) (live_root (by decide +kernel)) _ rfl (by decide +kernel)

/-- The program runs; afterwards object 4 is still there with its method although its variable is gone, and the scope (5)
and the object popped from the sequence (7) are gone. -/
example : (run start demo).sat (fun s =>
    (match s.heap.mem 4 with | some o => o.methods == [(3, 2)] | none => false) && (s.heap.mem 5).isNone &&
    (s.heap.mem 7).isNone) = true := by decide +kernel

example : World.start.LegalRun demo := demo_legal

example : ∃ ops, demo = ops ++ [.collect] ∧ ∀ x, Op.shift x ∉ ops :=
  ⟨demo.dropLast, by decide, by intro x; simp [demo]⟩

/-- A heap with a cycle (1 and 2), garbage (3) and a permanent object (4) is ready for a collection. -/
def demoHeap : Heap :=
  { mem := fun y =>
      if y = 0 then some ⟨false, [], 0, [(5, 1)], [], none, true, false, some 1⟩
      else if y = 1 then some ⟨true, [2, 2], 1, [], [], none, false, false, some 2⟩
      else if y = 2 then some ⟨true, [1], 0, [], [], none, false, false, some 3⟩
      else if y = 3 then some ⟨true, [1], 0, [], [], none, false, false, some 4⟩
      else if y = 4 then some ⟨false, [], 0, [], [], none, true, false, some 5⟩
      else if y = 5 then some ⟨false, [], 0, [], [], none, false, false, none⟩
      else none
    first := some 0
    fresh := 6 }

theorem demoHeap_reach {x : Nat} (h : Reach (RefersTo demoHeap) [0] x) : x = 0 ∨ x = 1 ∨ x = 2 ∨ x = 5 := by
  induction h with
  | root h => simp at h; exact .inl h
  | step _ he ih =>
    obtain ⟨o, e, hy⟩ := he
    rcases ih with rfl | rfl | rfl | rfl <;> simp [demoHeap] at e <;> subst e <;> simp at hy <;> omega

example : Ready demoHeap [0, 1, 2, 3, 4, 5] [0] where
  list := by
    refine ⟨?_, by decide, ?_, ?_⟩
    · exact ⟨rfl, _, rfl, rfl, _, rfl, rfl, _, rfl, rfl, _, rfl, rfl, _, rfl, rfl, _, rfl, rfl⟩
    · intro x
      simp only [demoHeap]
      by_cases h0 : x = 0 <;> by_cases h1 : x = 1 <;> by_cases h2 : x = 2 <;> by_cases h3 : x = 3 <;>
        by_cases h4 : x = 4 <;> by_cases h5 : x = 5 <;> simp_all
    · intro x hx
      simp at hx
      simp only [demoHeap]
      omega
  unmarked x o e := by
    simp only [demoHeap] at e
    (repeat' split at e) <;> simp at e <;> subst e <;> rfl
  sticky c hc := by
    simp at hc
    subst hc
    exact ⟨_, rfl, rfl⟩
  exist x hx := by
    rcases demoHeap_reach hx with rfl | rfl | rfl | rfl <;> rfl
  names x k hx hk z hz := by
    obtain ⟨o, v, e, hv⟩ := hk
    obtain ⟨p, ep, hz⟩ := hz
    rcases demoHeap_reach hx with rfl | rfl | rfl | rfl <;> simp [demoHeap] at e <;> subst e <;> simp at hv
    obtain ⟨rfl, rfl⟩ := hv
    simp [demoHeap] at ep
    subst ep
    simp at hz

end Verif.Props.GC
