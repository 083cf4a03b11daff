import Verif.Lemmas.Report
import Verif.Spec.Report
import Verif.Props.GC

/-! # C109: the memory report, and when memory is cleaned -/

namespace Verif.Props.Report

open Verif.Model Verif.Model.GC Verif.Model.Report Verif.Model.Float
open Verif.Spec.Report
open Verif.Spec.GC (World Op)

theorem length_of {p : Nat → Prop} {l l' : List Nat} (h : Lists p l) (h' : Lists p l') : l.length = l'.length :=
  (List.perm_ext_iff_of_nodup h.1 h'.1 |>.2 fun x => (h.2 x).trans (h'.2 x).symm).length_eq

/-- What exists, what exists and is permanent. -/
def Exists (h : Heap) (x : Nat) : Prop := ∃ o, h.mem x = some o
def Permanent (h : Heap) (x : Nat) : Prop := ∃ o, h.mem x = some o ∧ o.sticky = true

theorem few {w : World} {s : St} {l : List Nat} {R L : Nat → Prop} (h : Sim w s l R L) : l.length ≤ w.fresh := by
  have hsub : l ⊆ List.range s.heap.fresh := fun x hx => List.mem_range.2 (h.wf.lt x hx)
  have := h.wf.nodup.length_le_of_subset hsub
  rw [List.length_range, h.fresh] at this
  exact this

theorem exists_iff {h : Heap} {x : Nat} : Exists h x ↔ (h.mem x).isSome = true := Option.isSome_iff_exists.symm

theorem counts {s : St} {w : World} (hs : Ok w s) (hlen : w.fresh ≤ 2147483647) :
    ∃ h' n, collectCount s.heap s.ctxs = .ok (h', n) ∧ collect s.heap s.ctxs = .ok h' ∧
      (∀ before, Lists (Exists s.heap) before → n.objects = before.length) ∧
      (∀ permanent, Lists (Permanent s.heap) permanent → n.sticky = permanent.length) ∧
      (∀ kept, Lists (Exists h') kept → n.kept = kept.length) ∧
      (∀ gone, Lists (fun x => Exists s.heap x ∧ ¬ Exists h' x) gone → n.dust = gone.length) ∧
      n.kept + n.dust = n.objects ∧ n.sticky ≤ n.kept := by
  obtain ⟨l, R, L, h⟩ := hs
  have hl : Lists (Exists s.heap) l := ⟨h.wf.nodup, fun x => (h.wf.all x).symm.trans exists_iff.symm⟩
  obtain ⟨h', n, e1, e2, c1, c2, c3, c4⟩ := collectCount_ok h.wf h.closed (fun c hc => (h.ctx c hc).1)
    (Nat.le_trans (few h) hlen)
  obtain ⟨h'', M, e, hwf, _, _, _, hkeep, _, hno⟩ := collect_ok h.wf h.un h.closed (fun c hc => (h.ctx c hc).1) h.names
  rw [e2] at e
  cases e
  refine ⟨h', n, e1, e2, ?_, ?_, ?_, ?_, ?_, ?_⟩
  · intro before hb
    rw [c1]
    exact length_of hl hb
  · intro permanent hp
    rw [c4]
    refine length_of (p := Permanent s.heap) ⟨h.wf.nodup.sublist List.filter_sublist, fun x => ?_⟩ hp
    rw [List.mem_filter, hl.2 x]
    unfold Exists Permanent stickyAt
    cases s.heap.mem x with
    | none => simp
    | some o => simp
  · intro kept hk
    rw [c2]
    exact length_of (p := Exists h') ⟨h.wf.nodup.sublist List.filter_sublist,
      fun x => (hwf.all x).symm.trans exists_iff.symm⟩ hk
  · intro gone hg
    rw [c3]
    refine length_of (p := fun x => Exists s.heap x ∧ ¬ Exists h' x)
      ⟨h.wf.nodup.sublist List.filter_sublist, fun x => ?_⟩ hg
    rw [List.mem_filter, hl.2 x]
    dsimp only
    rw [exists_iff (h := h')]
    cases (h'.mem x).isSome <;> simp
  · rw [c1, c2, c3, ← List.countP_eq_length_filter, ← List.countP_eq_length_filter]
    rw [List.length_eq_countP_add_countP (fun x => (h'.mem x).isSome) (l := l)]
    congr 1
    refine List.countP_congr fun x _ => ?_
    cases (h'.mem x).isSome <;> simp
  · rw [c2, c4, ← List.countP_eq_length_filter, ← List.countP_eq_length_filter]
    refine List.countP_mono_left fun x _ hx => ?_
    unfold stickyAt at hx
    cases ex : s.heap.mem x with
    | none => rw [ex] at hx; cases hx
    | some o =>
      rw [ex] at hx
      obtain ⟨g, eg⟩ := hkeep x o ex (.inr hx)
      rw [eg]
      rfl

theorem fresh_step (w : World) (op : Op) : (w.step op).fresh ≤ w.fresh + 2 := by
  cases op <;> simp only [World.step, World.set] <;> omega

/-- A step that is no collection leaves the counters alone. -/
theorem step_other {s s1 : St} (n : Counts) {op : Op} (ho : op ≠ .collect) (e : GC.step s op = .ok s1) :
    Report.step (s, n) op = .ok (s1, n) := by
  cases op with
  | collect => exact absurd rfl ho
  | _ => simp only [Report.step, e, Out.ok_bind]

/-- Programs with counters do what programs do. -/
theorem run_counts : ∀ {ops : List Op} {w : World} {s : St} (n : Counts), Ok w s → w.LegalRun ops →
    w.fresh + 2 * ops.length ≤ 2147483647 →
    ∃ s' n', Report.run (s, n) ops = .ok (s', n') ∧ GC.run s ops = .ok s' ∧ Ok (w.run ops) s' ∧
      (w.run ops).fresh ≤ w.fresh + 2 * ops.length ∧ (Op.collect ∉ ops → n' = n)
  | [], _, s, n, h, _, _ => ⟨s, n, rfl, rfl, h, Nat.le_refl _, fun _ => rfl⟩
  | op :: ops, w, s, n, h, hl, hsz => by
    simp only [List.length_cons] at hsz ⊢
    obtain ⟨s1, e1, h1⟩ := step_ok h hl.1
    have hf := fresh_step w op
    have hstep : ∃ n1, Report.step (s, n) op = .ok (s1, n1) ∧ (op ≠ .collect → n1 = n) := by
      by_cases ho : op = .collect
      · subst ho
        obtain ⟨l', R, L, hs⟩ := h
        obtain ⟨h', n', e2, e3, _⟩ := collectCount_ok hs.wf hs.closed (fun c hc => (hs.ctx c hc).1)
          (Nat.le_trans (few hs) (by omega))
        refine ⟨n', ?_, fun h => absurd rfl h⟩
        simp only [GC.step, e3, Out.ok_bind] at e1
        cases e1
        simp only [Report.step, e2, Out.ok_bind]
      · exact ⟨n, step_other n ho e1, fun _ => rfl⟩
    obtain ⟨n1, en, hn⟩ := hstep
    obtain ⟨s2, n2, e2, e3, h2, hf2, hn2⟩ := run_counts n1 h1 hl.2 (by omega)
    refine ⟨s2, n2, by simp only [Report.run, en, Out.ok_bind, e2], by simp only [GC.run, e1, Out.ok_bind, e3], h2, ?_, ?_⟩
    · show ((w.step op).run ops).fresh ≤ _
      omega
    · intro hc
      rw [List.mem_cons, not_or] at hc
      rw [hn2 hc.2, hn (fun e => hc.1 e.symm)]

theorem legal_append : ∀ {ops rest : List Op} {w : World}, w.LegalRun (ops ++ rest) →
    w.LegalRun ops ∧ (w.run ops).LegalRun rest
  | [], _, _, h => ⟨trivial, h⟩
  | _ :: _, _, _, h => by
    have := legal_append h.2
    exact ⟨⟨h.1, this.1⟩, this.2⟩

theorem run_append : ∀ {ops rest : List Op} {s s1 : St × Counts}, Report.run s ops = .ok s1 →
    Report.run s (ops ++ rest) = Report.run s1 rest
  | [], _, _, _, e => by cases e; rfl
  | op :: ops, rest, s, s1, e => by
    simp only [Report.run, Out.bind_eq_ok] at e
    obtain ⟨s2, e2, e3⟩ := e
    simp only [List.cons_append, Report.run, e2, Out.ok_bind]
    exact run_append e3

theorem gc_append : ∀ {ops rest : List Op} {s s1 : St}, GC.run s ops = .ok s1 →
    GC.run s (ops ++ rest) = GC.run s1 rest
  | [], _, _, _, e => by cases e; rfl
  | op :: ops, rest, s, s1, e => by
    simp only [GC.run, Out.bind_eq_ok] at e
    obtain ⟨s2, e2, e3⟩ := e
    simp only [List.cons_append, GC.run, e2, Out.ok_bind]
    exact gc_append e3

/-- Full statement: the report always tells about the present. It does not hold (`C109_violated`). -/
def C109_full : Prop :=
  ∀ (ops : List Op), World.start.LegalRun ops → 2 * ops.length < 2147483647 →
    ∃ s n, Report.run Report.start ops = .ok (s, n) ∧ ∀ now, Lists (Exists s.heap) now → n.kept = now.length

/-- **C109**: whatever a program does before the last collection and (without collecting) after it, the report tells, in
this order: the memory in use, how many objects there were before that collection, how many of those are permanent, how
many were left after it and how many were removed by it. -/
theorem C109_partial (ops rest : List Op) (used : Nat) (hl : World.start.LegalRun (ops ++ .collect :: rest))
    (hr : Op.collect ∉ rest) (hlen : 2 * (ops ++ .collect :: rest).length < 2147483647) :
    ∃ s1 s2 s3 n, GC.run GC.start ops = .ok s1 ∧ GC.step s1 .collect = .ok s2 ∧ GC.run s2 rest = .ok s3 ∧
      Report.run Report.start (ops ++ .collect :: rest) = .ok (s3, n) ∧
      ∀ before permanent kept gone, Lists (Exists s1.heap) before → Lists (Permanent s1.heap) permanent →
        Lists (Exists s2.heap) kept → Lists (fun x => Exists s1.heap x ∧ ¬ Exists s2.heap x) gone →
        report used n = [used, before.length, permanent.length, kept.length, gone.length] ∧
        kept.length + gone.length = before.length ∧ permanent.length ≤ kept.length := by
  have hlen' : (ops ++ Op.collect :: rest).length = ops.length + (rest.length + 1) := by simp
  rw [hlen'] at hlen
  obtain ⟨l1, l2⟩ := legal_append hl
  obtain ⟨s1, n1, e1, g1, h1, f1, _⟩ := run_counts ⟨0, 0, 0, 0⟩ start_ok l1
    (by show 1 + _ ≤ _; omega)
  have hf1 : (World.start.run ops).fresh ≤ 1 + 2 * ops.length := f1
  obtain ⟨s2, g2, h2⟩ := step_ok h1 (op := .collect) trivial
  obtain ⟨h', n, e2, e3, c1, c2, c3, c4, c5, c6⟩ := counts h1 (by omega)
  simp only [GC.step, e3, Out.ok_bind] at g2
  cases g2
  obtain ⟨s3, n3, e4, g4, _, _, hn⟩ := run_counts n h2 l2.2 (by
    show (World.start.run ops).fresh + _ ≤ _
    omega)
  cases hn hr
  refine ⟨s1, _, s3, n, g1, by simp only [GC.step, e3, Out.ok_bind], g4, ?_, ?_⟩
  · rw [show Report.start = (GC.start, ⟨0, 0, 0, 0⟩) from rfl, run_append e1]
    simp only [Report.run, Report.step, e2, Out.ok_bind]
    exact e4
  · intro before permanent kept gone hb hp hk hg
    have a1 := c1 before hb
    have a2 := c2 permanent hp
    have a3 := c3 kept hk
    have a4 := c4 gone hg
    refine ⟨?_, by omega, by omega⟩
    simp only [report, a1, a2, a3, a4]

/-- **C109**: in a program that never shifts an element off a sequence, the report after a collection tells how many
objects the program can get hold of. -/
theorem C109_live (ops : List Op) (hl : World.start.LegalRun (ops ++ [.collect])) (hns : ∀ x, Op.shift x ∉ ops)
    (hlen : 2 * (ops ++ [Op.collect]).length < 2147483647) (live : List Nat)
    (hlive : Lists (fun x => (World.start.run ops).Live x) live) :
    ∃ s n, Report.run Report.start (ops ++ [.collect]) = .ok (s, n) ∧ n.kept = live.length := by
  simp only [List.length_append, List.length_cons, List.length_nil] at hlen
  obtain ⟨l1, _⟩ := legal_append hl
  obtain ⟨s1, n1, e1, g1, h1, f1, _⟩ := run_counts ⟨0, 0, 0, 0⟩ start_ok l1 (by show 1 + _ ≤ _; omega)
  have hf1 : (World.start.run ops).fresh ≤ 1 + 2 * ops.length := f1
  obtain ⟨h', n, e2, e3, _, _, c3, _⟩ := counts h1 (by omega)
  obtain ⟨s, es, hs⟩ := Verif.Props.GC.C16_program_partial ops hl hns
  rw [gc_append g1] at es
  simp only [GC.run, GC.step, e3, Out.ok_bind] at es
  cases es
  refine ⟨{ s1 with heap := h' }, n, ?_, c3 live ⟨hlive.1, fun x => (hlive.2 x).trans ((hs x).symm.trans exists_iff.symm)⟩⟩
  rw [show Report.start = (GC.start, ⟨0, 0, 0, 0⟩) from rfl, run_append e1]
  simp only [Report.run, Report.step, e2, Out.ok_bind]

/-- After a collection the figures stay although objects are made: here there are three objects, but the report still
tells of one. -/
theorem C109_violated : ¬ C109_full := by
  intro h
  have hlegal : World.start.LegalRun [.collect, .make 0 false none] :=
    ⟨trivial, ⟨Verif.Props.GC.live_root (by decide), _, rfl, rfl⟩, trivial⟩
  obtain ⟨s, n, e, hn⟩ := h _ hlegal (by decide)
  obtain ⟨t, et, ht⟩ := Out.of_sat (o := Report.run Report.start [.collect, .make 0 false none])
    (p := fun t => (t.1.heap.mem 0).isSome && (t.1.heap.mem 1).isSome && (t.1.heap.mem 2).isSome && t.2.kept == 1 &&
      t.1.heap.fresh == 3) (by decide +kernel)
  rw [e] at et
  cases et
  simp only [Bool.and_eq_true, beq_iff_eq] at ht
  obtain ⟨⟨⟨⟨t0, t1⟩, t2⟩, tk⟩, tf⟩ := ht
  obtain ⟨s1, n1, e1, _, ⟨l, R, L, hsim⟩, _⟩ := run_counts ⟨0, 0, 0, 0⟩ start_ok hlegal (by decide)
  rw [show Report.start = (GC.start, ⟨0, 0, 0, 0⟩) from rfl, e1] at e
  cases e
  have := hn [0, 1, 2] ⟨by decide, fun x => ?_⟩
  · rw [tk] at this
    cases this
  · rw [exists_iff]
    constructor
    · intro hx
      simp only [List.mem_cons, List.not_mem_nil, or_false] at hx
      rcases hx with rfl | rfl | rfl <;> assumption
    · intro hx
      have := hsim.wf.lt x ((hsim.wf.all x).1 hx)
      simp only [List.mem_cons, List.not_mem_nil, or_false]
      omega

/-- **C109**: memory is cleaned by itself after a statement exactly when the tidiness says so and more than four fifths
of the limit are in use, or after every statement when the tidiness says that; the rounding of the product with 0.8 does
not matter below 2^50 bytes. -/
theorem C109_cycle (normal always : Bool) (other : Bool) (rest : Int) (used limit : Nat) (hu : used < 2 ^ 53)
    (hl : limit < 2 ^ 50) :
    cycle ((if normal then 1 else 0) + (if other then 2 else 0) + (if always then 4 else 0) + 8 * rest) used limit = true ↔
      Due (normal = true) (always = true) used limit := by
  unfold cycle Due
  rw [gt_threshold hu hl]
  simp only [Bool.or_eq_true, Bool.and_eq_true, decide_eq_true_eq]
  cases normal <;> cases other <;> cases always <;> simp <;> omega

/-- With the limit at the start (10 MB, tidiness 1) memory is cleaned from 8000001 bytes on. -/
example : cycle 1 8000000 10000000 = false ∧ cycle 1 8000001 10000000 = true ∧ cycle 0 8000001 10000000 = false ∧
    cycle 4 0 10000000 = true := by decide +kernel

/-- A longer run is legal if both parts are. -/
theorem legal_of : ∀ {ops rest : List Op} {w : World}, w.LegalRun ops → (w.run ops).LegalRun rest →
    w.LegalRun (ops ++ rest)
  | [], _, _, _, h => h
  | _ :: _, _, _, h, h' => ⟨h.1, legal_of h.2 h'⟩

/-- The hypotheses of `C109_partial` and `C109_live` are met by a program with a shared object, a cycle, scopes and
several collections, which goes on after the last one; its report adds up. -/
example : World.start.LegalRun (Verif.Props.GC.demo ++ [.make 0 false none]) :=
  legal_of Verif.Props.GC.demo_legal ⟨⟨Verif.Props.GC.live_root (by decide +kernel), _, rfl, rfl⟩, trivial⟩

example : Verif.Props.GC.demo = Verif.Props.GC.demo.dropLast ++ [Op.collect] ∧
    (∀ x, Op.shift x ∉ Verif.Props.GC.demo.dropLast) := by
  refine ⟨by decide, ?_⟩
  intro x h
  simp [Verif.Props.GC.demo] at h

example : (match Report.run Report.start (Verif.Props.GC.demo ++ [.make 0 false none]) with
    | .ok s => report 5 s.2
    | _ => []) = [5, 6, 1, 5, 1] := by decide +kernel

end Verif.Props.Report
