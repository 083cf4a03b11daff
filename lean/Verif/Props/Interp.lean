import Verif.Lemmas.Interp
import Verif.Lemmas.InterpMono
import Verif.Lemmas.InterpBoot
import Verif.Lemmas.InterpScope
import Verif.Lemmas.InterpLoop

/-!
# Properties of the interpreter core (C13, C14, C35, C36, C37, C42, C43)

`exec env n` is the interpreter with at most `n` nested calls, `.ok` means that the evaluation is
complete, `.ub .table` an access outside the tables for scopes and running methods.
-/

namespace Verif.Props.Interp

open Verif.Model.Interp
open Verif.Spec.Scope (Stack Op Shallow)
open Verif.Spec.Loop (Sig Rounds While Each)
open Verif.Spec.Dispatch (Protos pick)

/-! ## C13: variables -/

/-- Any sequence of scope openings and closings, declarations, assignments, reads and recoveries from
errors behaves as on a stack of partial functions: same answers (Nil where the specification has
none), same bindings in every open scope afterwards, and no other object is touched. -/
theorem C13 {s : St} {w : Stack} (h : Rep s w) (os : List Op) (ho : Shallow 300 w os) :
    ∃ (s' : St), scopeOps s os = .ok (s', (Verif.Spec.Scope.run w os).2.map (·.getD nilO)) ∧
      Rep s' (Verif.Spec.Scope.run w os).1 ∧ Apart s s' := scopeOps_ok os h ho

/-- The start state, seen as a stack of scopes. -/
def world : Stack := ⟨[bindings bootObj worldO], false⟩

theorem boot_rep : Rep boot world :=
  ⟨by decide, by decide, ⟨[], rfl⟩, rfl, rfl⟩

/-- Shadowing, assignment to an outer scope, an unknown name and recovery. -/
def scopeDemo : List Op :=
  [.declare vX 30, .enter, .read vX, .declare vX 31, .enter, .assign vX 32, .declare vY 33, .read vX, .leave,
   .read vX, .leave, .read vX, .read vY, .declare vX 34, .caught, .read vX]

example : Shallow 300 world scopeDemo := by decide +kernel

example : (scopeOps boot scopeDemo).sat (fun a => a.2 ==
    [30, 0, 30, 31, 0, 32, 33, 32, 0, 32, 0, 30, 0, 0, 0, 30]) = true := by decide +kernel

/-- Declares the receiver as `self` and `own`. -/
def meOps : Option Nat → List Op
  | some m => [.declare nMe m, .declare nMy m]
  | none => []

/-- What a block declares when it starts: its parameters, `self` and `own` if it is run for an object,
and the running task. -/
def entryOps (ps : List Name) (args : List Nat) (my : Option Nat) (b : Nat) : List Op :=
  (ps.zip args).map (fun p => .declare p.1 p.2) ++
    (meOps my ++ [.declare nTask b])

theorem scopeOps_bind (ps : List Name) : ∀ (args : List Nat) (s : St) (os : List Op),
    (scopeOps s ((ps.zip args).map (fun p => Op.declare p.1 p.2) ++ os) >>= fun a => Res.ok a.1) =
      (scopeOps (bindParams s ps args) os >>= fun a => Res.ok a.1) := by
  induction ps with
  | nil => intro args s os; cases args <;> rfl
  | cons p ps ih =>
    intro args s os
    cases args with
    | nil => rfl
    | cons a as =>
      simp only [List.zip_cons_cons, List.map_cons, List.cons_append, scopeOps, scopeOp, Res.ok_bind, bindParams]
      rw [← ih as]
      generalize scopeOps _ _ = x
      cases x <;> rfl

/-- A block starts by declaring its parameters with the arguments, and the receiver, in its own scope:
no outer variable and no other object changes. -/
theorem C13_entry {s : St} {w : Stack} (h : Rep s w) (ps : List Name) (args : List Nat)
    (my : Option Nat) (b : Nat) :
    Rep (enter ps args my b s) (Verif.Spec.Scope.run w (entryOps ps args my b)).1 ∧
      Apart s (enter ps args my b s) := by
  have hsh : ∀ (os : List Op) (w : Stack), (∀ o ∈ os, ∃ k v, o = .declare k v) → Shallow 300 w os := by
    intro os
    induction os with
    | nil => intro w _; trivial
    | cons o os ih =>
      intro w ho
      obtain ⟨k, v, rfl⟩ := ho o (by simp)
      exact ih _ fun o h => ho o (by simp [h])
  obtain ⟨s', e, hr, ha⟩ := scopeOps_ok (entryOps ps args my b) h (hsh _ _ (by
    intro o ho
    simp only [entryOps, List.mem_append, List.mem_map, List.mem_singleton] at ho
    rcases ho with ⟨p, -, rfl⟩ | ho | rfl
    · exact ⟨_, _, rfl⟩
    · cases my with
      | none => cases ho
      | some m =>
        simp only [meOps, List.mem_cons, List.not_mem_nil, or_false] at ho
        rcases ho with rfl | rfl <;> exact ⟨_, _, rfl⟩
    · exact ⟨_, _, rfl⟩))
  have hb := scopeOps_bind ps args s (meOps my ++ [.declare nTask b])
  unfold entryOps at e
  rw [e] at hb
  simp only [Res.ok_bind] at hb
  have : enter ps args my b s = s' := by
    unfold enter
    cases my with
    | none =>
      simp only [meOps, List.nil_append, scopeOps, scopeOp, Res.ok_bind, Res.ok.injEq] at hb
      exact hb.symm
    | some m =>
      simp only [meOps, List.cons_append, List.nil_append, scopeOps, scopeOp, Res.ok_bind, Res.ok.injEq] at hb
      exact hb.symm
  rw [this]
  exact ⟨hr, ha⟩

example : (find (enter [vX, vY] [41, 42, 0] (some 20) 43 boot) vY).2 = 42 ∧
    (find (enter [vX, vY] [41, 42, 0] (some 20) 43 boot) nMe).2 = 20 := by decide +kernel

/-- How statements use the scopes: a name reads, `>> k := …` declares and `k := …` assigns the value of
the expression, after it has been evaluated. -/
theorem C13_statements (env : Env) (n : Nat) (k : Name) (value : Node) (s s1 : St) (v : Nat) (q : Bool)
    (hs : s.sandbox = false) (hv : exec env n (.expr value) { s with evals := s.evals + 1 } = .ok (s1, v, q)) :
    (exec env (n + 1) (.expr (.ref false k)) s = do
      let (t, a) ← scopeOp { s with evals := s.evals + 1 } (.read k)
      .ok (t, a, false)) ∧
    (exec env (n + 1) (.expr (.assign .loc k value)) s = do
      let (t, a) ← scopeOp s1 (.declare k v)
      .ok (t, a, false)) ∧
    (exec env (n + 1) (.expr (.assign .var k value)) s = do
      let (t, a) ← scopeOp s1 (.assign k v)
      .ok (t, a, false)) := by
  have ht : ∀ t : St, t.sandbox = false → tick t = .ok t := by
    intro t h; unfold tick; rw [if_neg (by rw [h]; simp)]
  refine ⟨?_, ?_, ?_⟩
  · simp only [exec, expr, ht s hs, Res.ok_bind, Bool.false_eq_true, if_false, scopeOp]
  · simp only [exec, expr, ht s hs, Res.ok_bind, assignment, ht { s with evals := s.evals + 1 } hs, hv, scopeOp]
  · simp only [exec, expr, ht s hs, Res.ok_bind, assignment, ht { s with evals := s.evals + 1 } hs, hv, scopeOp]

example : boot.sandbox = false ∧
    (exec demo 3 (.expr (.num 5)) { boot with evals := boot.evals + 1 }).sat (fun a => a.2.1 == 50) = true :=
  ⟨rfl, by decide +kernel⟩

/-- Properties: `my k := …` gives the object that is `me` in the innermost scope the property, changes nothing else and
answers the value; `my k` answers the property. -/
theorem C13_properties (env : Env) (n : Nat) (k : Name) (value : Node) (s s1 : St) (v o c : Nat) (l : List Nat) (q : Bool)
    (hs : s.sandbox = false) (hv : exec env n (.expr value) { s with evals := s.evals + 1 } = .ok (s1, v, q))
    (hf : s1.flow = none) (hc : s1.ctxs = c :: l) (hme : getp (s1.obj c).props nMe = some o) :
    (∃ s2, exec env (n + 1) (.expr (.assign .own k value)) s = .ok (s2, v, false) ∧ s2.flow = none ∧ s2.ctxs = s1.ctxs ∧
      (∀ k', getp (s2.obj o).props k' = if k' = k then some v else getp (s1.obj o).props k') ∧
      (s2.obj o).meths = (s1.obj o).meths ∧ ∀ j, j ≠ o → s2.obj j = s1.obj j) ∧
    (∀ x, s1.sandbox = false → getp (s1.obj o).props k = some x →
      exec env (n + 1) (.expr (.ref true k)) s1 = .ok ({ s1 with evals := s1.evals + 1 }, x, false)) := by
  have ht : ∀ t : St, t.sandbox = false → tick t = .ok t := by
    intro t h; unfold tick; rw [if_neg (by rw [h]; simp)]
  have hfind : ∀ t : St, t.flow = none → t.ctxs = c :: l → getp (t.obj c).props nMe = some o → find t nMe = (t, o) := by
    intro t h1 h2 h3
    unfold find
    rw [if_neg (by rw [h1]; simp), h2, findIn, h3]
  constructor
  · refine ⟨setProp s1 o k v, ?_, hf, rfl, ?_, ?_, ?_⟩
    · simp only [exec, expr, ht s hs, Res.ok_bind, assignment, ht { s with evals := s.evals + 1 } hs, hv, assignMy,
        hfind s1 hf hc hme]
      rw [if_neg (by rw [hf]; simp)]
    · intro k'
      simp only [setProp, St.put, if_true]
      exact getp_setp _ _ _ _
    · simp only [setProp, St.put, if_true]
    · intro j hj
      simp only [setProp, St.put, if_neg hj]
  · intro x hx hg
    simp only [exec, expr, ht s1 hx, Res.ok_bind, if_true, findMy, hfind { s1 with evals := s1.evals + 1 } hf hc hme]
    rw [if_neg (by rw [hf]; simp)]
    simp only [hg]

example : (enter [vX] [41, 0] (some 20) 43 boot).sandbox = false ∧ (enter [vX] [41, 0] (some 20) 43 boot).flow = none ∧
    ((enter [vX] [41, 0] (some 20) 43 boot).ctxs.head?.bind fun c =>
      getp ((enter [vX] [41, 0] (some 20) 43 boot).obj c).props nMe) = some 20 := by decide +kernel

/-- Scopes are balanced: whatever is evaluated, the open scopes are the same afterwards. -/
theorem C13_balanced {env : Env} (henv : env.Safe) (n : Nat) (e : Node) (s s' : St) (v : Nat) (q : Bool)
    (hs : s.ctxs ≠ []) (h300 : s.ctxs.length ≤ 300) (hst : s.stack.length < s.ctxs.length)
    (h : exec env n (.expr e) s = .ok (s', v, q)) : s'.ctxs = s.ctxs :=
  ((exec_frame henv n (.expr e) s
    ⟨by cases hc : s.ctxs with
      | nil => exact absurd hc hs
      | cons _ _ => simp, h300, hst⟩).ok h).ctxs

example : boot.ctxs ≠ [] ∧ boot.ctxs.length ≤ 300 ∧ boot.stack.length < boot.ctxs.length ∧
    (exec demo 20 (.expr (.msg (.nested (.code [vX] [.assign .loc vY (.ref false vX)]))
      [(mRun, [.num 5])])) boot).sat (fun a => a.1.fresh > 51) = true := by
  refine ⟨by decide, by decide, by decide, by decide +kernel⟩

/-! ## C14: nesting of scopes -/

/-- No program can make the interpreter leave the tables for scopes and running methods, and when a
program is complete only the scopes that were open before are open. -/
theorem C14 {env : Env} (henv : env.Safe) (n : Nat) (p : List Node) (s : St)
    (hc : s.ctxs = [worldO]) (hst : s.stack = []) :
    program env n p s ≠ .ub .table ∧
      ∀ s' r, program env n p s = .ok (s', r) → s'.ctxs = [worldO] ∧ s'.stack = [] := by
  have h := frame_runList (exec_frame henv n) p s
    ⟨by rw [hc]; simp, by rw [hc]; simp, by rw [hc, hst]; simp⟩
  refine ⟨h.ne_table, fun s' r e => ?_⟩
  have hf := h.ok e
  exact ⟨hf.ctxs.trans hc, hf.stack.trans hst⟩

example : demo.Safe ∧ boot.ctxs = [worldO] ∧ boot.stack = [] := ⟨demo_safe, rfl, rfl⟩

/-- At the limit the body of a block has no effect: the error "too many nested calls" is pending
afterwards (unless the block has a handler), nothing was sent, no other block was run and no object
that existed before has changed. -/
theorem C14_limit (env : Env) (n b : Nat) (args : List Nat) (my : Option Nat) (s s' : St) (v : Nat)
    (q : Bool) (ps : List Name) (body : List Node) (hb : (s.obj b).val = .code ps body)
    (hbf : b < s.fresh) (hlen : s.ctxs.length = 300) (hcatch : getp (s.obj b).props nCatch = none)
    (h : exec env n (.block b args my) s = .ok (s', v, q)) :
    (∃ e, s'.flow = some (.err e) ∧ (s'.obj e).val = .str eNesting) ∧
      s'.log = .block b args my :: s.log ∧ s'.ctxs = s.ctxs ∧
      ∀ i, i < s.fresh → s'.obj i = s.obj i := by
  cases n with
  | zero => cases h
  | succ n =>
    simp only [exec, plain, blockRun, hb] at h
    have hopen : ∃ s1, openCtx { s with log := .block b args my :: s.log } = .ok s1 ∧
        s1.flow = some (.err s.fresh) ∧ s1.log = .block b args my :: s.log ∧
        s1.ctxs = (s.fresh + 1) :: s.ctxs ∧ s1.fresh = s.fresh + 2 ∧
        (s1.obj s.fresh).val = .str eNesting ∧ ∀ i, i < s.fresh → s1.obj i = s.obj i := by
      unfold openCtx
      dsimp only
      rw [if_neg (by omega), if_pos (by omega)]
      refine ⟨_, rfl, rfl, rfl, rfl, rfl, ?_, ?_⟩
      · simp [raise, newStr, alloc]
      · intro i hi
        have h1 : i ≠ s.fresh + 1 := by omega
        have h2 : i ≠ s.fresh := by omega
        simp [raise, newStr, alloc, h1, h2]
    obtain ⟨s1, e1, hf, hl, hc, hfr, ho, hobj⟩ := hopen
    rw [e1] at h
    simp only [Res.ok_bind] at h
    have hent : enter ps args my b s1 = s1 := by
      have hp : s1.flow.isSome := by rw [hf]; rfl
      have hb : ∀ (ps : List Name) (as : List Nat), bindParams s1 ps as = s1 := by
        intro ps
        induction ps with
        | nil => intro as; cases as <;> rfl
        | cons p ps ih =>
          intro as
          cases as with
          | nil => rfl
          | cons a as => simp only [bindParams, assignLocal_pending hp, ih]
      unfold enter
      rw [hb]
      cases my <;> simp only [assignLocal_pending hp]
    rw [hent] at h
    cases hr : runList (exec env n) body s1 with
    | more => rw [hr] at h; cases h
    | exit => rw [hr] at h; cases h
    | ub u => rw [hr] at h; cases h
    | ok a =>
      obtain ⟨s2, r⟩ := a
      rw [hr] at h
      have hq := (quiet_runList (exec_quiet env n) body s1 (by rw [hf]; rfl)).ok hr
      simp only [Res.ok_bind] at h
      have hne : ∃ d l, s.ctxs = d :: l := by
        cases hd : s.ctxs with
        | nil => rw [hd] at hlen; simp at hlen
        | cons d l => exact ⟨d, l, rfl⟩
      obtain ⟨d, l, hd⟩ := hne
      have hq2 : s2.flow = s1.flow := hq.flow
      have hq3 : s2.ctxs = s1.ctxs := hq.ctxs
      have hq4 : s2.log = s1.log := hq.log
      have hq5 : ∀ i, i < s1.fresh → s2.obj i = s1.obj i := hq.obj
      have hcl : closeCtx s2 = { s2 with ctxs := s.ctxs } := by
        unfold closeCtx; rw [hq3, hc, hd]
      rw [hcl] at h
      have hcb : getp (s2.obj b).props nCatch = none := by
        rw [hq5 b (by omega), hobj b hbf]; exact hcatch
      simp only [handle, hq2, hf, hcb, Res.ok_bind] at h
      cases h
      exact ⟨⟨s.fresh, by rw [← hf, ← hq2], by rw [hq5 _ (by omega)]; exact ho⟩,
        by rw [← hl, ← hq4], rfl, fun i hi => by rw [hq5 i (by omega), hobj i hi]⟩

/-- A state with 300 open scopes. -/
def deep : St := { boot with ctxs := List.replicate 299 30 ++ [worldO] }

example : deep.ctxs.length = 300 ∧
    (exec demo 5 (.block 50 [] none)
      { deep with obj := fun i => if i = 50 then { val := .code [] [.assign .loc vX (.num 1)] } else bootObj i,
                  fresh := 51 }).sat (fun a => a.1.flow.isSome) = true := by
  decide +kernel

/-! ## C35: pending errors -/

/-- While an error (or the end of the program, or a break or continue) is pending, whatever statements
follow, nothing happens: no message is delivered, no block is run, no variable or other object that
existed before changes, and the error is still pending. -/
theorem C35_silent (env : Env) (n : Nat) (p : List Node) (s s' : St) (r : Option Nat)
    (hf : s.flow ≠ none) (h : program env n p s = .ok (s', r)) :
    s'.flow = s.flow ∧ s'.log = s.log ∧ s'.ctxs = s.ctxs ∧ s'.stack = s.stack ∧
      ∀ i, i < s.fresh → s'.obj i = s.obj i := by
  have hq := (quiet_runList (exec_quiet env n) p s (by
    cases h : s.flow with
    | none => exact absurd h hf
    | some _ => rfl)).ok h
  exact ⟨hq.flow, hq.log, hq.ctxs, hq.stack, hq.obj⟩

/-- `x := 1. Object new. {…} run.` after an error. -/
def ignored : List Node :=
  [.assign .loc vX (.num 1), .msg (.ref false vObject) [(mNew, [])],
   .msg (.nested (.code [] [.assign .loc vX (.num 2)])) [(mRun, [.num 3])]]

example : ({ boot with flow := some (.err strP) } : St).flow ≠ none ∧
    (program demo 20 ignored { boot with flow := some (.err strP) }).sat
      (fun a => a.1.log.isEmpty) = true ∧
    (program demo 20 ignored boot).sat (fun a => a.1.log.length == 3) = true := by
  refine ⟨by decide, by decide +kernel, by decide +kernel⟩

/-- Messages sent while something is pending answer Nil and change nothing at all. -/
theorem C35_send (env : Env) (n r : Nat) (m : Name) (args : List Nat) (s : St) (a : Ans)
    (hf : s.flow ≠ none) (h : exec env n (.send r m args) s = .ok a) : a = (s, nilO, false) :=
  ((exec_quiet env n).2 r m args s (by
    cases h : s.flow with
    | none => exact absurd h hf
    | some _ => rfl)).ok h

example : ({ boot with flow := some (.err strP) } : St).flow ≠ none ∧
    (exec demo 5 (.send objectP mNew [nilO]) { boot with flow := some (.err strP) }).sat
      (fun a => a.2.1 == nilO) = true := by
  refine ⟨by decide, by decide +kernel⟩

/-- Which block catches: a block in whose body the error `e` (a text) is raised keeps it pending if it
has no handler; if it has a handler, the handler is the very next thing that runs, it receives `e`,
nothing is pending when it starts, and the block is the answer. -/
theorem C35_handler {env : Env} (henv : env.Safe) (n b : Nat) (args : List Nat) (my : Option Nat)
    (s s1 s2 s' : St) (v : Nat) (q : Bool) (r : Option Nat) (ps : List Name) (body : List Node) (e : Nat)
    (k : Name) (hs : Room s) (hb : (s.obj b).val = .code ps body)
    (hopen : openCtx { s with log := .block b args my :: s.log } = .ok s1)
    (hrun : runList (exec env n) body (enter ps args my b s1) = .ok (s2, r))
    (hflow : s2.flow = some (.err e)) (htext : (s2.obj e).val = .str k)
    (h : exec env (n + 1) (.block b args my) s = .ok (s', v, q)) :
    (getp (s2.obj b).props nCatch = none → s'.flow = some (.err e) ∧ s'.log = s2.log) ∧
    (∀ c ps' body', getp (s2.obj b).props nCatch = some c → (s2.obj c).val = .code ps' body' →
      v = b ∧ (∃ l, s'.log = l ++ .block c [e] none :: s2.log) ∧
      ∃ v' q', exec env n (.block c [e] none) { closeCtx s2 with flow := none } = .ok (s', v', q')) := by
  simp only [exec, plain, blockRun, hb, hopen, hrun, Res.ok_bind] at h
  have hcl : (closeCtx s2).flow = s2.flow ∧ (closeCtx s2).obj = s2.obj ∧ (closeCtx s2).log = s2.log := by
    unfold closeCtx; split <;> exact ⟨rfl, rfl, rfl⟩
  have hroom : Room (closeCtx s2) := by
    have h0 : Room { s with log := .block b args my :: s.log } := ⟨hs.pos, hs.room, hs.stack⟩
    exact h0.frame (((frame_body (exec_frame henv n) (exec_quiet env n) b args my s hs
      ps body).ok hopen).ok hrun)
  generalize closeCtx s2 = t at h hcl hroom
  obtain ⟨h1, h2, h3⟩ := hcl
  rw [← h2, ← h3]
  rw [← h1] at hflow
  rw [← h2] at htext
  simp only [handle, hflow] at h
  constructor
  · intro hc
    rw [hc] at h
    simp only [Res.ok_bind] at h
    cases h
    exact ⟨hflow, rfl⟩
  · intro c ps' body' hc hcode
    rw [hc] at h
    simp only [flowObj, cast2string, htext, Res.ok_bind] at h
    cases hx : exec env n (.block c [e] none) { t with flow := none } with
    | more => rw [hx] at h; cases h
    | exit => rw [hx] at h; cases h
    | ub u => rw [hx] at h; cases h
    | ok a =>
      obtain ⟨s3, v3, q3⟩ := a
      rw [hx] at h
      simp only [Res.ok_bind] at h
      cases h
      refine ⟨rfl, ?_, _, _, rfl⟩
      cases n with
      | zero => cases hx
      | succ n =>
        have hf3 := (frame_blockRun_code (exec_frame henv n) (exec_quiet env n) c [e] none
          { t with flow := none } ⟨hroom.pos, hroom.room, hroom.stack⟩ hcode)
        simp only [exec, plain] at hx
        cases hy : blockRun (exec env n) c [e] none { t with flow := none } with
        | more => rw [hy] at hx; cases hx
        | exit => rw [hy] at hx; cases hx
        | ub u => rw [hy] at hx; cases hx
        | ok a =>
          rw [hy] at hx
          obtain ⟨s4, v4⟩ := a
          cases hx
          obtain ⟨l, hl, -⟩ := (hf3.ok hy).log
          exact ⟨l, hl⟩

/-- A block that raises an error and has a handler, and that handler. -/
def caughtWorld : St :=
  { boot with
    obj := fun i =>
      if i = 50 then { val := .code [] [.msg (.ref false vCode) [(mError, [.str 77])],
                                        .assign .loc vX (.num 1)],
                       link := some codeP, props := [(nCatch, 51)] }
      else if i = 51 then { val := .code [vE] [], link := some codeP }
      else bootObj i
    fresh := 52 }

example : Room caughtWorld ∧
    ((do
      let s1 ← openCtx { caughtWorld with log := [.block 50 [nilO] none] }
      let a ← runList (exec demo 10) [.msg (.ref false vCode) [(mError, [.str 77])],
        .assign .loc vX (.num 1)] (enter [] [nilO] none 50 s1)
      let b ← exec demo 11 (.block 50 [nilO] none) caughtWorld
      Res.ok (a.1, b)).sat fun x =>
        (match x.1.flow with
          | some (.err e) => x.2.1.log.head? == some (Event.block 51 [e] none)
          | _ => false) && x.2.1.flow == none && getp (x.1.obj 50).props nCatch == some 51) = true := by
  refine ⟨⟨by decide, by decide, by decide⟩, by decide +kernel⟩

/-- The text of a world variable after a program. -/
def textOf (k : Name) (a : St × Option Nat) : Option Name :=
  match getp (a.1.obj worldO).props k with
  | some v => match (a.1.obj v).val with
    | .str t => some t
    | _ => none
  | none => none

/-- `>> x := 0. { Code error: 5. } catch: { :e x := e. }, run.` -/
def numberError : List Node :=
  [.assign .loc vX (.num 0),
   .msg (.nested (.code [] [.msg (.ref false vCode) [(mError, [.num 5])]]))
     [(mCatch, [.code [vE] [.assign .var vX (.ref false vE)]]), (mRun, [])]]

/-- The code does not meet C35 for errors that are not texts: the handler of `numberError` receives the
text "?" instead of the error, because the conversion to text is a message and no message is delivered
while the error is pending (`base.c:2493`). -/
theorem C35_nontext_violated : ∃ a, program demo 30 numberError boot = .ok a ∧ textOf vX a = some nQuestion := by
  obtain ⟨a, h, hc⟩ := Res.of_sat (o := program demo 30 numberError boot)
    (p := fun a => textOf vX a == some nQuestion) (by decide +kernel)
  exact ⟨a, h, by simpa using hc⟩

/-- An object whose conversion to a number raises the error 77 is used as a number of rounds:
`>> x := 0. >> y := Object new. y on: [to number] do: { Code error: ['77']. }.
{ { :i }, times: y. } catch: { :e x := e. }, run.` -/
def maskedError : List Node :=
  [.assign .loc vX (.num 0),
   .assign .loc vY (.msg (.ref false vObject) [(mNew, [])]),
   .msg (.ref false vY) [(mOnDo, [.str nToNumber, .code [] [.msg (.ref false vCode) [(mError, [.str 77])]]])],
   .msg (.nested (.code [] [.msg (.nested (.code [300] [])) [(mTimes, [.ref false vY])]]))
     [(mCatch, [.code [vE] [.assign .var vX (.ref false vE)]]), (mRun, [])]]

/-- The code does not meet C35 for errors raised during a conversion: the handler of `maskedError`
receives the error about the conversion, the error 77 is lost (`world.c:430-437`). -/
theorem C35_conversion_violated :
    ∃ a, program demo 40 maskedError boot = .ok a ∧ textOf vX a = some eRnum := by
  obtain ⟨a, h, hc⟩ := Res.of_sat (o := program demo 40 maskedError boot)
    (p := fun a => textOf vX a == some eRnum) (by decide +kernel)
  exact ⟨a, h, by simpa using hc⟩

/-- `{ Code error: ['77']. } catch: 5, run.` -/
def badHandler : List Node :=
  [.msg (.nested (.code [] [.msg (.ref false vCode) [(mError, [.str 77])]]))
     [(mCatch, [.num 5]), (mRun, [])]]

/-- Whether a run ends with a union read through the wrong member. -/
def isTypeUb : Res α → Bool
  | .ub .type => true
  | _ => false

theorem of_isTypeUb {x : Res α} (h : isTypeUb x = true) : x = .ub .type := by
  cases x with
  | ub u => cases u <;> first | rfl | cases h
  | _ => cases h

/-- The code does not meet C35 if the handler is not a block: the number 5 is used as the address of a
piece of code (`base.c:2502`, `2594-2599`). -/
theorem C35_handler_violated : program demo 30 badHandler boot = .ub .type :=
  of_isTypeUb (by decide +kernel)

/-! ## C36: break and continue -/

/-- `times:` with a number runs the block up to that many times with 1, 2, …; break ends the loop,
continue starts the next round, and neither is pending afterwards; errors are. -/
theorem C36_times (env : Env) (k r a : Nat) (n : Int) (s s' : St) (v : Nat)
    (hf : s.flow = none) (ha : (s.obj a).val = .num n)
    (h : native env (exec env k) .times r [a, nilO] s = .ok (s', v)) :
    ∃ out, Rounds (timesBody env r) 1 n.toNat s (clear s') out ∧ s'.flow = out ∧
      out ≠ some .brk ∧ out ≠ some .cont := by
  simp only [native, arg, List.getElem?_cons_zero, Res.ok_bind, cast2number, ha] at h
  by_cases hi : InInt n
  · rw [if_pos hi] at h
    cases ht : timesLoop (exec env k) r n.toNat 0 s with
    | more => rw [ht] at h; cases h
    | exit => rw [ht] at h; cases h
    | ub u => rw [ht] at h; cases h
    | ok s2 =>
      rw [ht] at h
      simp only [Res.ok_bind] at h
      cases h
      obtain ⟨out, h1, h2, h3, h4⟩ := timesLoop_spec env k r n.toNat 0 s s2 ht hf
      exact ⟨out, h1, h2, h3, h4⟩
  · rw [if_neg hi] at h; cases h

/-- A loop over three elements whose block breaks in the second round, and a loop of three rounds that
skips the rest of each round. -/
def loops : St :=
  { boot with
    obj := fun i =>
      if i = 50 then { val := .code [vX] [.msg (.ref false vTrue) [(mContinue, [])],
                                          .msg (.ref false vTrue) [(mBreak, [])]], link := some codeP }
      else if i = 51 then { val := .num 3, link := some numP }
      else if i = 52 then { val := .code [vX] [.msg (.ref false vTrue) [(mBreak, [])]], link := some codeP }
      else if i = 53 then { val := .arr [51, 51, 51], link := some arrP }
      else if i = 54 then { val := .code [vX] [.ret (.ref false vFalse)], link := some codeP }
      else bootObj i
    fresh := 55 }

example : loops.flow = none ∧ (loops.obj 51).val = .num 3 ∧
    (native demo (exec demo 20) .times 50 [51, nilO] loops).sat
      (fun a => a.1.flow == none && a.1.log.length == 6) = true ∧
    (native demo (exec demo 20) .times 52 [51, nilO] loops).sat
      (fun a => a.1.flow == none && a.1.log.length == 2) = true := by
  refine ⟨rfl, rfl, by decide +kernel, by decide +kernel⟩

/-- `each:` runs the block for the elements from the first on, as long as there are elements; break
ends the loop, continue starts the next round, and neither is pending afterwards. -/
theorem C36_each (env : Env) (k r b : Nat) (s s' : St) (v : Nat)
    (hf : s.flow = none) (hb : isCode s b = true)
    (h : native env (exec env k) .each r [b, nilO] s = .ok (s', v)) :
    ∃ out, Each (items r) (eachBody env r b) 0 s (clear s') out ∧ s'.flow = out ∧
      out ≠ some .brk ∧ out ≠ some .cont := by
  simp only [native, arg, List.getElem?_cons_zero, Res.ok_bind, hb, if_true] at h
  cases ht : exec env k (.loopEach r b 0) s with
  | more => rw [ht] at h; cases h
  | exit => rw [ht] at h; cases h
  | ub u => rw [ht] at h; cases h
  | ok x =>
    obtain ⟨s2, v2, q2⟩ := x
    rw [ht] at h
    simp only [Res.ok_bind] at h
    cases h
    obtain ⟨out, h1, h2, h3, h4⟩ := loopEach_spec env r b k 0 s s2 v2 q2 ht hf
    exact ⟨out, h1, h2, h3, h4⟩

example : loops.flow = none ∧ isCode loops 50 = true ∧
    (native demo (exec demo 20) .each 53 [50, nilO] loops).sat
      (fun a => a.1.flow == none && a.1.log.length == 6) = true := by
  refine ⟨rfl, rfl, by decide +kernel⟩

/-- `while:`: as long as the condition answers true the block runs; break (in the block or in the
condition) ends the loop, continue in the block starts the next round, and neither is pending
afterwards.  Missing from C36: if the last evaluation of the condition ended with a continue, this
continue is pending after the loop, see `C36_while_violated`. -/
theorem C36_while_partial (env : Env) (k r c : Nat) (s s' : St) (v : Nat)
    (hf : s.flow = none) (hb : isCode s c = true)
    (h : native env (exec env k) .whileTrue r [c, nilO] s = .ok (s', v)) :
    (s'.flow = some .cont ∧ ∃ s0 t, whileCond env c [c, nilO] s0 (clear s') t .cont) ∨
    ∃ out, While (whileCond env c [c, nilO]) (whileBody env r [c, nilO]) s (clear s') out ∧
      s'.flow = out ∧ out ≠ some .brk ∧ out ≠ some .cont := by
  simp only [native, arg, List.getElem?_cons_zero, Res.ok_bind, hb, if_true] at h
  cases ht : exec env k (.loopWhile r c [c, nilO]) s with
  | more => rw [ht] at h; cases h
  | exit => rw [ht] at h; cases h
  | ub u => rw [ht] at h; cases h
  | ok x =>
    obtain ⟨s2, v2, q2⟩ := x
    rw [ht] at h
    simp only [Res.ok_bind] at h
    cases h
    rcases loopWhile_spec env r c [c, nilO] k s s2 v2 q2 ht hf with hl | ⟨out, h1, h2, h3, h4⟩
    · exact .inl hl
    · exact .inr ⟨out, h1, h2, h3, h4⟩

example : loops.flow = none ∧ isCode loops 54 = true ∧
    (native demo (exec demo 20) .whileTrue 50 [54, nilO] loops).sat
      (fun a => a.1.flow == none && a.1.log.length == 1) = true := by
  refine ⟨rfl, rfl, by decide +kernel⟩

/-- `>> x := 0. { :y x := 1. } while: { :y <- (True continue). }. x := 2.` -/
def condContinue : List Node :=
  [.assign .loc vX (.str 400),
   .msg (.nested (.code [vY] [])) [(mWhile, [.code [vY] [.ret (.nested (.msg (.ref false vTrue)
     [(mContinue, [])]))]])],
   .assign .loc vX (.str 401)]

/-- The code does not meet C36 for a continue in the condition of `while:`: it is still pending after
the loop, so the statements that follow are ignored (`base.c:2531-2540`). -/
theorem C36_while_violated : ∃ a, program demo 30 condContinue boot = .ok a ∧
    a.1.flow = some .cont ∧ textOf vX a = some 400 := by
  obtain ⟨a, h, hc⟩ := Res.of_sat (o := program demo 30 condContinue boot)
    (p := fun a => a.1.flow == some .cont && textOf vX a == some 400) (by decide +kernel)
  simp only [Bool.and_eq_true, beq_iff_eq] at hc
  exact ⟨a, h, hc.1, hc.2⟩

/-- `if:` and `else:` are not loops: a break or continue in their block is still pending afterwards, so
it reaches the loop around them. -/
theorem C36_branch (env : Env) (k r b : Nat) (t : Bool) (s s' : St) (v : Nat)
    (hr : (s.obj r).val = .bool t) (hb : isCode s b = true)
    (h : native env (exec env k) (if t then .ifTrue else .ifFalse) r [b, nilO] s = .ok (s', v)) :
    ∃ v' q, exec env k (.block b [r] none) s = .ok (s', v', q) ∧ v = r := by
  have h' : branch (exec env k) true r [b, nilO] s = .ok (s', v) := by
    cases t with
    | true => simpa only [if_true, native, boolOf, hr, Res.ok_bind] using h
    | false =>
      simpa only [Bool.false_eq_true, if_false, native, boolOf, hr, Res.ok_bind, Bool.not_false] using h
  simp only [branch, if_true, arg, List.getElem?_cons_zero, Res.ok_bind, hb] at h'
  cases hx : exec env k (.block b [r] none) s with
  | more => rw [hx] at h'; cases h'
  | exit => rw [hx] at h'; cases h'
  | ub u => rw [hx] at h'; cases h'
  | ok a =>
    obtain ⟨s2, v2, q2⟩ := a
    rw [hx] at h'
    cases h'
    exact ⟨v2, q2, rfl, rfl⟩

example : (loops.obj falseO).val = .bool false ∧ isCode loops 52 = true ∧
    (native demo (exec demo 20) .ifFalse falseO [52, nilO] loops).sat
      (fun a => a.1.flow == some .brk) = true := by
  refine ⟨rfl, rfl, by decide +kernel⟩

/-- The other branch is not run; nothing happens. -/
theorem C36_branch_not (env : Env) (k r b : Nat) (t : Bool) (s : St)
    (hf : s.flow = none) (hr : (s.obj r).val = .bool t) :
    native env (exec env k) (if t then .ifFalse else .ifTrue) r [b, nilO] s = .ok (s, r) := by
  cases t <;>
    simp [native, boolOf, hr, branch, eatBrk, hf]

example : loops.flow = none ∧ (loops.obj trueO).val = .bool true := ⟨rfl, rfl⟩

/-- A plain object, or Nil, whose prototype is Boolean counts as False: the block of `if:` is not run and that of `else:`
is. -/
theorem C36_branch_plain (env : Env) (k r b : Nat) (s : St) (hf : s.flow = none)
    (hr : (s.obj r).val = .obj ∨ (s.obj r).val = .nil) :
    native env (exec env k) .ifTrue r [b, nilO] s = .ok (s, r) ∧
    (isCode s b = true → ∀ s' v, native env (exec env k) .ifFalse r [b, nilO] s = .ok (s', v) →
      ∃ v' q, exec env k (.block b [r] none) s = .ok (s', v', q) ∧ v = r) := by
  have hb : boolOf s r = .ok false := by rcases hr with hr | hr <;> simp [boolOf, hr]
  constructor
  · simp [native, hb, branch, eatBrk, hf]
  · intro hc s' v h
    simp only [native, hb, Res.ok_bind, Bool.not_false, branch, if_true, arg, List.getElem?_cons_zero, hc] at h
    cases hx : exec env k (.block b [r] none) s with
    | more => rw [hx] at h; cases h
    | exit => rw [hx] at h; cases h
    | ub u => rw [hx] at h; cases h
    | ok a =>
      obtain ⟨s2, v2, q2⟩ := a
      rw [hx] at h
      cases h
      exact ⟨v2, q2, rfl, rfl⟩

example : loops.flow = none ∧ (loops.obj nilO).val = .nil ∧ isCode loops 52 = true ∧
    (native demo (exec demo 20) .ifFalse nilO [52, nilO] loops).sat (fun a => a.1.flow == some .brk) = true := by
  refine ⟨rfl, rfl, rfl, by decide +kernel⟩

/-- `>> x := ['400']. { :i 1 case: 1 do: { :y True break. }. x := ['401']. } times: 1.` -/
def caseBreak : List Node :=
  [.assign .loc vX (.str 400),
   .msg (.nested (.code [] [
      .msg (.ref false vTrue) [(mCase, [.ref false vTrue, .code [vY] [.msg (.ref false vTrue) [(mBreak, [])]]])],
      .assign .var vX (.str 401)])) [(mTimes, [.num 1])]]

/-- The code does not meet C36 for a break inside the block of `case:do:` in a loop: `case:do:` takes
the break for itself (`base.c:404-409`) and the round goes on. -/
theorem C36_case_violated : ∃ a, program demo 30 caseBreak boot = .ok a ∧ textOf vX a = some 401 := by
  obtain ⟨a, h, hc⟩ := Res.of_sat (o := program demo 30 caseBreak boot)
    (p := fun a => textOf vX a == some 401) (by decide +kernel)
  exact ⟨a, h, by simpa using hc⟩

/-! ## C37: dispatch -/

/-- The prototype chain of an object. -/
def chainOf (s : St) : Nat → List Nat → Prop := Protos fun o => (s.obj o).link

/-- The method that answers message `m`: the first one along the prototype chain that is not running,
or that is running if recursion was requested for the receiver. -/
def answering (s : St) (r : Nat) (m : Name) (l : List Nat) : Option Nat :=
  pick (fun o => getp (s.obj o).meths m) (fun f => !s.stack.contains f || s.recursion == some r) l

theorem search_of_ok (s : St) (r : Nat) (m : Name) {l : List Nat} (hl : chainOf s r l) {n : Nat}
    {x : Option Nat × Option Nat} (h : search s.obj s.stack s.recursion r m n r = some x) :
    x.1 = answering s r m l := by
  have h2 := search_le s.obj s.stack s.recursion r m (Nat.le_max_left n l.length) h
  rw [search_spec s r m hl _ (Nat.le_max_right n l.length)] at h2
  unfold answering
  show x.1 = pick (methodOf s m) (mayRun s r) l
  cases hp : pick (methodOf s m) (mayRun s r) l with
  | none => rw [hp] at h2; cases h2; rfl
  | some f => rw [hp] at h2; cases h2; rfl

/-- A literal stands for a new object with the value that was written; its prototype is the one for texts, numbers or
blocks, so that is where its messages are looked up. Nothing else changes. -/
theorem C37_literals (env : Env) (n : Nat) (s : St) (hs : s.sandbox = false) (k : Name) (x : Int) (ps : List Name)
    (b : List Node) :
    let made := fun (node : Node) (val : Val) (proto : Nat) => ∃ s', exec env (n + 1) (.expr node) s = .ok (s', s.fresh, false) ∧
      (s'.obj s.fresh).val = val ∧ (s'.obj s.fresh).link = some proto ∧ (s'.obj s.fresh).meths = [] ∧
      s'.flow = s.flow ∧ s'.ctxs = s.ctxs ∧ s'.log = s.log ∧ ∀ j, j ≠ s.fresh → s'.obj j = s.obj j
    made (.str k) (.str k) strP ∧ made (.num x) (.num x) numP ∧ made (.code ps b) (.code ps b) codeP := by
  have ht : tick s = .ok s := by unfold tick; rw [if_neg (by rw [hs]; simp)]
  refine ⟨?_, ?_, ?_⟩
  all_goals
    simp only [exec, expr, ht, Res.ok_bind, newStr, newNum, newCode, alloc]
    refine ⟨_, rfl, ?_, ?_, ?_, rfl, rfl, rfl, fun j hj => ?_⟩
    · simp only [if_true]
    · simp only [if_true]
    · simp only [if_true]
    · simp only [if_neg hj]

example : boot.sandbox = false ∧ (boot.obj strP).link = some objectP ∧ strP ≠ numP ∧ numP ≠ codeP ∧ strP ≠ codeP := by decide +kernel

/-- A message whose answering method is built in runs exactly that operation for the receiver with the
arguments, before anything else. -/
theorem C37_native {env : Env} (henv : env.Safe) (n r : Nat) (m : Name) (args : List Nat) (s s' : St)
    (v : Nat) (q : Bool) (l : List Nat) (f : Nat) (g : Native) (hroom : Room1 s) (hf : s.flow = none)
    (hd : s.deser = false) (hl : chainOf s r l) (hm : answering s r m l = some f)
    (hg : (s.obj f).val = .nat g) (h : exec env n (.send r m args) s = .ok (s', v, q)) :
    (∃ t, s'.log = t ++ .native false g r args :: s.log) ∧ ((s'.obj r).chain = true → v = r) := by
  cases n with
  | zero => cases h
  | succ n =>
    simp only [exec, plain] at h
    cases hs : search s.obj s.stack s.recursion r m n r with
    | none => unfold send at h; rw [if_neg (by rw [hf]; simp), hs] at h; cases h
    | some x =>
      obtain ⟨f', rec⟩ := x
      have he := search_of_ok s r m hl hs
      rw [hm] at he
      simp only at he
      subst he
      rw [send_found env _ hf hs, call_native env (exec env n) (s := { s with recursion := rec }) hg hd] at h
      have hfr := frame_native henv (exec_frame henv n) g r args
        { s with recursion := rec, log := .native false g r args :: s.log }
        ⟨hroom.pos, hroom.room, hroom.stack⟩ (fun e => by rw [hd] at e; cases e)
      cases hx : native env (exec env n) g r args
          { s with recursion := rec, log := Event.native false g r args :: s.log } with
      | more => rw [hx] at h; cases h
      | exit => rw [hx] at h; cases h
      | ub u => rw [hx] at h; cases h
      | ok a =>
        obtain ⟨s2, v2⟩ := a
        rw [hx] at h
        simp only [Res.ok_bind] at h
        cases h
        obtain ⟨t, ht, -⟩ := (hfr.ok hx).log
        exact ⟨⟨t, ht⟩, fun hc => by rw [if_pos hc]⟩

/-- A message whose answering method was added with `on:do:` runs that block for the receiver with the
arguments, before anything else, and the method is running meanwhile. -/
theorem C37_method {env : Env} (henv : env.Safe) (n r : Nat) (m : Name) (args : List Nat) (s s' : St)
    (v : Nat) (q : Bool) (l : List Nat) (f : Nat) (ps : List Name) (body : List Node)
    (hroom : Room1 s) (hf : s.flow = none) (hl : chainOf s r l) (hm : answering s r m l = some f)
    (hg : (s.obj f).val = .code ps body) (hsb : (s.obj f).selfbind = true)
    (h : exec env (n + 1) (.send r m args) s = .ok (s', v, q)) :
    (∃ t, s'.log = t ++ .block f args (some r) :: s.log) ∧
      ∃ rec s2 v2 q2, exec env n (.block f args (some r)) { s with recursion := rec, stack := f :: s.stack } =
        .ok (s2, v2, q2) ∧ s' = { s2 with stack := s.stack } ∧
        v = if (s'.obj r).chain then r else v2 := by
  simp only [exec, plain] at h
  cases hs : search s.obj s.stack s.recursion r m n r with
  | none => unfold send at h; rw [if_neg (by rw [hf]; simp), hs] at h; cases h
  | some x =>
    obtain ⟨f', rec⟩ := x
    have he := search_of_ok s r m hl hs
    rw [hm] at he
    simp only at he
    subst he
    have hst : s.stack.length < 301 := by
      have h1 := hroom.stack
      have h2 := hroom.room
      omega
    rw [send_found env _ hf hs, call_method env (exec env n) (s := { s with recursion := rec }) hg hsb hst] at h
    have hr : Room { s with recursion := rec, stack := f :: s.stack } :=
      ⟨hroom.pos, hroom.room, by have := hroom.stack; simp only [List.length_cons]; omega⟩
    cases hx : exec env n (.block f args (some r))
        { s with recursion := rec, stack := f :: s.stack } with
    | more => rw [hx] at h; cases h
    | exit => rw [hx] at h; cases h
    | ub u => rw [hx] at h; cases h
    | ok a =>
      obtain ⟨s2, v2, q2⟩ := a
      rw [hx] at h
      simp only [Res.ok_bind] at h
      cases h
      have hst2 : s2.stack = f :: s.stack :=
        ((exec_frame henv n (.block f args (some r)) _ hr).ok hx).stack
      refine ⟨?_, rec, s2, v2, q2, hx, by rw [hst2]; rfl, rfl⟩
      cases n with
      | zero => cases hx
      | succ n =>
        simp only [exec, plain] at hx
        cases hy : blockRun (exec env n) f args (some r)
            { s with recursion := rec, stack := f :: s.stack } with
        | more => rw [hy] at hx; cases hx
        | exit => rw [hy] at hx; cases hx
        | ub u => rw [hy] at hx; cases hx
        | ok a =>
          rw [hy] at hx
          obtain ⟨s4, v4⟩ := a
          cases hx
          obtain ⟨t, ht, -⟩ := ((frame_blockRun_code (exec_frame henv n) (exec_quiet env n) f args (some r)
            _ hr hg).ok hy).log
          exact ⟨t, ht⟩

/-- A message without answering method: the receiver gets the respond message for the number of
arguments, with the message as a text in front of them. -/
theorem C37_respond (env : Env) (n r : Nat) (m : Name) (args : List Nat) (s s' : St)
    (v : Nat) (q : Bool) (l : List Nat) (hf : s.flow = none) (hl : chainOf s r l)
    (hm : answering s r m l = none)
    (h : exec env (n + 1) (.send r m (args ++ [nilO])) s = .ok (s', v, q)) :
    ∃ k s1 v1 q1, s1.flow = none ∧ s1.log = s.log ∧ s1.stack = s.stack ∧
      (s1.obj k).val = .str m ∧ (∀ i, i < s.fresh → s1.obj i = s.obj i) ∧
      exec env n (.send r (match args.length with
        | 1 => nRespondAnd
        | 2 => nRespondAndAnd
        | 3 => nRespondAndAndAnd
        | _ => nRespond) (k :: (args ++ [nilO]))) s1 = .ok (s', v1, q1) ∧
      v = if (s'.obj r).chain then r else v1 := by
  simp only [exec, plain] at h
  cases hs : search s.obj s.stack s.recursion r m n r with
  | none => unfold send at h; rw [if_neg (by rw [hf]; simp), hs] at h; cases h
  | some x =>
    obtain ⟨f', rec⟩ := x
    have he := search_of_ok s r m hl hs
    rw [hm] at he
    simp only at he
    subst he
    rw [send_missing env _ hf hs] at h
    have hn : respondName ((args ++ [nilO]).length - 1) = (match args.length with
        | 1 => nRespondAnd
        | 2 => nRespondAndAnd
        | 3 => nRespondAndAndAnd
        | _ => nRespond) := by
      simp only [List.length_append, List.length_cons, List.length_nil, Nat.zero_add, Nat.add_sub_cancel,
        respondName]
      split
      · rename_i e; rw [e]; rfl
      · split
        · rename_i e; rw [e]; rfl
        · split
          · rename_i e; rw [e]; rfl
          · split <;> first | rfl | contradiction
    rw [hn] at h
    cases hx : exec env n (.send r (match args.length with
        | 1 => nRespondAnd
        | 2 => nRespondAndAnd
        | 3 => nRespondAndAndAnd
        | _ => nRespond) ((newStr { s with recursion := rec } m).2 :: (args ++ [nilO])))
          (newStr { s with recursion := rec } m).1 with
    | more => rw [hx] at h; cases h
    | exit => rw [hx] at h; cases h
    | ub u => rw [hx] at h; cases h
    | ok a =>
      obtain ⟨s2, v2, q2⟩ := a
      rw [hx] at h
      simp only [Res.ok_bind] at h
      cases h
      refine ⟨_, _, v2, q2, ?_, ?_, ?_, ?_, ?_, hx, rfl⟩
      · exact hf
      · rfl
      · rfl
      · simp [newStr, alloc]
      · intro i hi
        have : i ≠ s.fresh := by omega
        simp [newStr, alloc, this]

/-- Object 50 is made from object 51, both have a method for message 500, and 51 one for 501. -/
def family : St :=
  { boot with
    obj := fun i =>
      if i = 50 then { val := .obj, link := some 51, meths := [(500, 60)] }
      else if i = 51 then { val := .obj, link := some objectP, meths := [(501, 62), (500, 61)] }
      else if i = 60 then { val := .code [] [.ret (.msg (.ref false nMe) [(500, [.num 1])])],
                            link := some codeP, selfbind := true }
      else if i = 61 then { val := .code [vX] [.ret (.ref false vX)], link := some codeP, selfbind := true }
      else if i = 62 then { val := .nat .myself }
      else bootObj i
    fresh := 70 }

theorem family_chain : chainOf family 50 [50, 51, objectP] :=
  .more (p := 51) rfl (.more (p := objectP) rfl (.last rfl))

/-- Inside its own method the message goes to the parent; a built-in method of the parent; no method. -/
example : answering family 50 500 [50, 51, objectP] = some 60 ∧
    answering { family with stack := [60] } 50 500 [50, 51, objectP] = some 61 ∧
    answering { family with stack := [60], recursion := some 50 } 50 500 [50, 51, objectP] = some 60 ∧
    answering family 50 501 [50, 51, objectP] = some 62 ∧
    answering family 50 502 [50, 51, objectP] = none := by decide +kernel

example : Room1 family ∧ family.flow = none ∧ family.deser = false ∧ (family.obj 62).val = .nat .myself ∧
    (family.obj 60).selfbind = true ∧
    (exec demo 20 (.send 50 500 [nilO]) family).sat (fun a =>
      a.1.log == [.block 61 [71, nilO] (some 50), .block 60 [nilO] (some 50)] && a.2.1 == 71) = true ∧
    (exec demo 20 (.send 50 501 [nilO]) family).sat (fun a => a.1.log == [.native false .myself 50 [nilO]]) = true ∧
    (exec demo 20 (.send 50 502 ([51] ++ [nilO])) family).sat (fun a => a.2.1 == 50) = true := by
  refine ⟨⟨by decide, by decide, by decide⟩, rfl, rfl, rfl, rfl, by decide +kernel, by decide +kernel,
    by decide +kernel⟩

/-- `recursive` lets the next message to the receiver run its method again, once. -/
theorem C37_recursive (env : Env) (k r : Nat) (args : List Nat) (s : St) :
    ∃ s', native env (exec env k) .recursive r args s = .ok (s', r) ∧
      ∀ m l f, pick (fun o => getp (s.obj o).meths m) (fun _ => true) l = some f →
        answering s' r m l = some f := by
  refine ⟨_, rfl, ?_⟩
  intro m l f h
  have : (fun f => !({ s with recursion := some r } : St).stack.contains f ||
      ({ s with recursion := some r } : St).recursion == some r) = fun _ => true := by
    funext f; simp
  unfold answering
  rw [this]
  exact h

example : pick (fun o => getp ({ family with stack := [60] }.obj o).meths 500) (fun _ => true)
    [50, 51, objectP] = some 60 := by decide +kernel

/-- The recursion request is used up by the search that needs it. -/
theorem C37_recursive_once (s : St) (r : Nat) (m : Name) (l : List Nat) (n f : Nat) (rec : Option Nat)
    (hl : chainOf s r l) (hf : f ∈ s.stack) (hn : l.length ≤ n)
    (h : search s.obj s.stack s.recursion r m n r = some (some f, rec)) : rec = none := by
  rw [search_spec s r m hl n hn] at h
  cases hp : pick (methodOf s m) (mayRun s r) l with
  | none => rw [hp] at h; cases h
  | some g =>
    rw [hp] at h
    simp only [Option.some.injEq, Prod.mk.injEq] at h
    rw [← h.2, h.1, if_pos (by simpa using hf)]

example : (60 : Nat) ∈ ({ family with stack := [60], recursion := some 50 } : St).stack ∧
    search family.obj [60] (some 50) 50 500 3 50 = some (some 60, none) := by decide +kernel

/-! ### A message that is never answered -/

/-- The root object has a method for `respond:` that is running, and an unknown message with four or
more arguments is being turned into `respond:`. -/
def lost : Task → St → Bool
  | .send r m args, s => r == objectP && m == nRespond && decide (args.length ≥ 5) && s.flow == none &&
      (s.obj objectP).link == none && (match getp (s.obj objectP).meths nRespond with
        | some f => s.stack.contains f
        | none => true) && decide (objectP < s.fresh) && !(s.recursion == some objectP)
  | _, _ => false

theorem lost_forever (env : Env) : ∀ n t s, lost t s = true → exec env n t s = .more := by
  intro n
  induction n with
  | zero => intro t s _; rfl
  | succ n ih =>
    intro t s h
    cases t with
    | expr e => cases h
    | block b args my => cases h
    | loopWhile b c args => cases h
    | loopEach r b i => cases h
    | send r m args =>
      simp only [lost, Bool.and_eq_true, beq_iff_eq, decide_eq_true_eq, Bool.not_eq_true',
        beq_eq_false_iff_ne] at h
      obtain ⟨⟨⟨⟨⟨⟨⟨rfl, rfl⟩, hargs⟩, hf⟩, hlink⟩, hm⟩, hfr⟩, hrec⟩ := h
      have hs : n = 0 ∨ search s.obj s.stack s.recursion objectP nRespond n objectP =
          some (none, s.recursion) := by
        cases n with
        | zero => exact .inl rfl
        | succ n =>
          right
          rw [search, hlink]
          cases hg : getp (s.obj objectP).meths nRespond with
          | none => rfl
          | some f =>
            rw [hg] at hm
            simp only at hm ⊢
            rw [if_pos hm, if_neg hrec]
      simp only [exec]
      rcases hs with rfl | hs
      · unfold plain send
        rw [if_neg (by rw [hf]; simp)]
        rfl
      · have hrn : respondName (args.length - 1) = nRespond := by
          unfold respondName
          rw [if_neg (by omega), if_neg (by omega), if_neg (by omega)]
        unfold plain
        rw [send_missing env _ hf hs, hrn, ih]
        · rfl
        · have e : objectP ≠ s.fresh := Nat.ne_of_lt hfr
          have hobj : ((newStr { s with recursion := s.recursion } nRespond).1).obj objectP = s.obj objectP := by
            unfold newStr alloc; dsimp only; rw [if_neg e]
          simp only [lost, Bool.and_eq_true, beq_iff_eq, decide_eq_true_eq, Bool.not_eq_true',
            beq_eq_false_iff_ne]
          rw [hobj]
          refine ⟨⟨⟨⟨⟨⟨⟨?_, ?_⟩, by simp only [List.length_cons]; omega⟩, hf⟩, hlink⟩, hm⟩,
            Nat.lt_succ_of_lt hfr⟩, hrec⟩ <;> trivial

/-- `Object on: ['respond:'] do: { :m self w: 1 x: 2 y: 3 z: 4. }. Object unknown.` -/
def lostMessage : List Node :=
  [.msg (.ref false vObject) [(mOnDo, [.str nRespond, .code [vX] [.msg (.ref false nMe)
     [(500, [.num 1, .num 2, .num 3, .num 4])]]])],
   .msg (.ref false vObject) [(501, [])]]

/-- The code does not meet C37 if the method for `respond:` of the root object itself sends an unknown
message with four arguments: the message is never answered, `respond:` is sent again and again with
ever more arguments until the C stack is exhausted (`world.c:1098-1108`). -/
theorem C37_violated : ∀ n, program demo n lostMessage boot = .more :=
  never_ends demo lost lostMessage boot 10 (lost_forever demo) (by decide +kernel)

/-! ## C42: the sandbox -/

/-- A program that completes in the sandbox has evaluated at most 2000 expressions. -/
theorem C42_partial {env : Env} (henv : env.Safe) (n : Nat) (p : List Node) (s s' : St) (r : Option Nat)
    (hs : Room1 s) (hb : s.sandbox = true) (h0 : s.steps = 0)
    (h : program env n p s = .ok (s', r)) : s'.evals ≤ s.evals + 2000 ∧ s'.steps ≤ 2000 := by
  have hf := (frame_runList (exec_frame henv n) p s hs).ok h
  have h1 := hf.counts.limit (by omega)
  have h2 := hf.counts.evals hb
  simp only at h1 h2
  omega

example : Room1 { boot with sandbox := true } ∧
    (program demo 20 ignored { boot with sandbox := true }).sat (fun a => decide (a.1.evals > 4) && decide (a.1.steps > a.1.evals)) =
      true := by
  refine ⟨⟨by decide, by decide, by decide⟩, by decide +kernel⟩

/-- Once the steps are used up, the next expression ends the process. -/
theorem C42_exit (env : Env) (n : Nat) (e : Node) (s : St) (hb : s.sandbox = true) (h : 2000 ≤ s.steps) :
    exec env (n + 1) (.expr e) s = .exit := by
  simp only [exec, expr, tick, hb, if_true, if_pos (show s.steps + 1 > 2000 by omega), Res.exit_bind]

example : ({ boot with sandbox := true, steps := 2000 } : St).sandbox = true := rfl

/-- Whether a value is a block without a body. -/
def isEmptyCode : Val → Bool
  | .code _ [] => true
  | _ => false

theorem of_isEmptyCode {v : Val} (h : isEmptyCode v = true) : ∃ ps, v = .code ps [] := by
  cases v with
  | code ps body =>
    cases body with
    | nil => exact ⟨ps, rfl⟩
    | cons _ _ => cases h
  | _ => cases h

/-- Whether a value is the built-in conversion of objects to Booleans. -/
def isToBool : Val → Bool
  | .nat (.prim (.other 0)) => true
  | _ => false

theorem of_isToBool {v : Val} (h : isToBool v = true) : v = .nat (.prim (.other 0)) := by
  unfold isToBool at h
  split at h
  · rfl
  · cases h

/-- Whether a value is true. -/
def isTrue : Val → Bool
  | .bool true => true
  | _ => false

theorem of_isTrue {v : Val} (h : isTrue v = true) : v = .bool true := by
  unfold isTrue at h
  split at h
  · rfl
  · cases h

/-- Two blocks without a body are the body and the condition of a `while:` loop; a block counts as true. -/
def spinning : Task → St → Bool
  | .loopWhile b c _, s =>
      s.flow == none && !s.deser && s.recursion == none && decide (0 < s.ctxs.length ∧ s.ctxs.length < 300) &&
      isEmptyCode (s.obj b).val && isEmptyCode (s.obj c).val && decide (b < s.fresh ∧ c < s.fresh ∧ 26 < s.fresh) &&
      (s.obj c).link == some codeP && (s.obj codeP).link == some objectP && (s.obj c).chain == false &&
      getp (s.obj c).meths nToBool == none && getp (s.obj codeP).meths nToBool == none &&
      getp (s.obj objectP).meths nToBool == some 26 && !s.stack.contains 26 &&
      isToBool (s.obj 26).val && isTrue (s.obj trueO).val
  | _, _ => false

theorem spinning_forever : ∀ n t s, spinning t s = true → exec demo n t s = .more := by
  intro n
  induction n with
  | zero => intro t s _; rfl
  | succ n ih =>
    intro t s h
    cases t with
    | expr e => cases h
    | block b args my => cases h
    | send r m args => cases h
    | loopEach r b i => cases h
    | loopWhile b c args =>
      have h' := h
      simp only [spinning, Bool.and_eq_true, beq_iff_eq, decide_eq_true_eq, Bool.not_eq_true'] at h
      obtain ⟨⟨⟨⟨⟨⟨⟨⟨⟨⟨⟨⟨⟨⟨⟨hf, hd⟩, hr⟩, h0, h300⟩, hb⟩, hc⟩, hbf, hcf, h26⟩, hl1⟩, hl2⟩, hch⟩, hm1⟩, hm2⟩,
        hm3⟩, hst⟩, hv⟩, ht⟩ := h
      obtain ⟨psb, hb⟩ := of_isEmptyCode hb
      obtain ⟨psc, hc⟩ := of_isEmptyCode hc
      have hv := of_isToBool hv
      have ht := of_isTrue ht
      simp only [exec]
      unfold whileRound
      rw [if_neg (by rw [hf]; simp)]
      cases n with
      | zero => rfl
      | succ n =>
        obtain ⟨s1, e1, g1⟩ := blockRun_empty (exec demo n) c args s psc hc hf h0 h300
        have ec : exec demo (n + 1) (.block c args none) s = .ok (s1, c, false) := by
          simp only [exec, plain, e1, Res.ok_bind]
        rw [ec]
        simp only [Res.ok_bind]
        have lt : ∀ i, i ≤ 26 → i < s.fresh := fun i hi => by omega
        have o1 : ∀ i, i < s.fresh → s1.obj i = s.obj i := g1.obj
        -- the answer is a block, its conversion answers true
        have ecast : exec demo (n + 1) (.send c nToBool [nilO]) s1 = .more ∨
            ∃ s2, Grow s s2 ∧ exec demo (n + 1) (.send c nToBool [nilO]) s1 = .ok (s2, trueO, false) := by
          have hs : n < 3 ∨ search s1.obj s1.stack s1.recursion c nToBool n c = some (some 26, none) := by
            by_cases hn : n < 3
            · exact .inl hn
            · right
              obtain ⟨m, rfl⟩ : ∃ m, n = m + 3 := ⟨n - 3, by omega⟩
              rw [search, o1 c hcf, hm1, hl1]
              dsimp only
              rw [search, o1 codeP (lt _ (by decide)), hm2, hl2]
              dsimp only
              rw [search, o1 objectP (lt _ (by decide)), hm3]
              dsimp only
              rw [if_neg (by rw [g1.stack, hst]; simp), g1.recursion, hr]
          by_cases hn : n < 3
          · left
            have hsn : search s1.obj s1.stack s1.recursion c nToBool n c = none := by
              have h1 : ∀ x, search s1.obj s1.stack s1.recursion c nToBool 1 x = none →
                search s1.obj s1.stack s1.recursion c nToBool 1 x = none := fun _ h => h
              have hx : n = 0 ∨ n = 1 ∨ n = 2 := by omega
              rcases hx with rfl | rfl | rfl
              · rfl
              · rw [search, o1 c hcf, hm1, hl1]; rfl
              · rw [search, o1 c hcf, hm1, hl1]
                dsimp only
                rw [search, o1 codeP (lt _ (by decide)), hm2, hl2]; rfl
            simp only [exec, plain, send]
            rw [if_neg (by rw [g1.flow, hf]; simp), hsn]
            rfl
          · right
            rcases hs with hs | hs
            · exact absurd hs hn
            · have hv1 : (({ s1 with recursion := none } : St).obj 26).val = .nat (.prim (.other 0)) := by
                show (s1.obj 26).val = _
                rw [o1 26 (lt _ (by decide))]; exact hv
              have hd1 : ({ s1 with recursion := none } : St).deser = false := g1.deser.trans hd
              refine ⟨{ s1 with recursion := none, log := .native false (.prim (.other 0)) c [nilO] :: s1.log },
                ?_, ?_⟩
              · exact ⟨g1.flow, g1.ctxs, g1.stack, hr.symm, g1.deser, g1.fresh, g1.obj⟩
              · simp only [exec, plain]
                rw [send_found demo _ (g1.flow.trans hf) hs, call_native demo _ hv1 hd1]
                simp only [native, demo, Res.ok_bind]
                rw [show (s1.obj c).chain = false by rw [o1 c hcf]; exact hch]
                rfl
        have hcc : (s1.obj c).val = .code psc [] := by rw [o1 c hcf]; exact hc
        unfold cast2bool
        rw [hcc]
        dsimp only
        rcases ecast with e2 | ⟨s2, g2, e2⟩
        · rw [e2]; rfl
        · rw [e2]
          simp only [Res.ok_bind]
          have o2 : ∀ i, i < s.fresh → s2.obj i = s.obj i := g2.obj
          rw [show (s2.obj trueO).val = .bool true by rw [o2 _ (lt _ (by decide))]; exact ht]
          simp only [Res.ok_bind]
          rw [if_neg (by rw [g2.flow, hf]; simp)]
          have hb2 : (s2.obj b).val = .code psb [] := by rw [o2 b hbf]; exact hb
          obtain ⟨s3, e3, g3⟩ := blockRun_empty (exec demo n) b args s2 psb hb2 (g2.flow.trans hf)
            (by rw [g2.ctxs]; exact h0) (by rw [g2.ctxs]; exact h300)
          have eb : exec demo (n + 1) (.block b args none) s2 = .ok (s3, b, false) := by
            simp only [exec, plain, e3, Res.ok_bind]
          rw [eb]
          simp only [Res.ok_bind]
          apply ih
          have hfr := g2.fresh
          have o3 : ∀ i, i < s.fresh → s3.obj i = s.obj i := fun i hi =>
            (g3.obj i (by omega)).trans (o2 i hi)
          have hfr3 := g3.fresh
          have hf3 : s3.flow = none := g3.flow.trans (g2.flow.trans hf)
          rw [eatCont_of_ne (by rw [hf3]; simp)]
          simp only [spinning, Bool.and_eq_true, beq_iff_eq, decide_eq_true_eq, Bool.not_eq_true'] at h' ⊢
          rw [hf3, g3.deser, g2.deser, g3.recursion, g2.recursion, g3.ctxs, g2.ctxs, g3.stack, g2.stack,
            o3 b hbf, o3 c hcf, o3 codeP (lt _ (by decide)), o3 objectP (lt _ (by decide)),
            o3 26 (lt _ (by decide)), o3 trueO (lt _ (by decide))]
          rw [hf] at h'
          obtain ⟨⟨⟨⟨⟨⟨⟨⟨⟨⟨⟨⟨⟨⟨⟨p1, p2⟩, p3⟩, p4⟩, p5⟩, p6⟩, p7⟩, p8⟩, p9⟩, p10⟩, p11⟩, p12⟩,
            p13⟩, p14⟩, p15⟩, p16⟩ := h'
          exact ⟨⟨⟨⟨⟨⟨⟨⟨⟨⟨⟨⟨⟨⟨⟨p1, p2⟩, p3⟩, p4⟩, p5⟩, p6⟩, by omega⟩, p8⟩, p9⟩, p10⟩, p11⟩, p12⟩,
            p13⟩, p14⟩, p15⟩, p16⟩

/-- `{ :x } while: { :x }.` -/
def spin : List Node :=
  [.msg (.nested (.code [vX] [])) [(mWhile, [.code [vX] []])]]

/-- The code does not meet C42: a loop over blocks without a body evaluates no expression, so the steps
are never used up and the program runs forever in the sandbox. -/
theorem C42_violated : ∀ n, program demo n spin { boot with sandbox := true } = .more :=
  never_ends demo spinning spin { boot with sandbox := true } 10 spinning_forever (by decide +kernel)

/-! ## C43: reading an object back -/

/-- The built-in operations needed to build sequences, lists and literals. -/
def harmless : List Native :=
  [.newArr, .newPush, .push, .prim .mapNew, .prim .mapPut, .prim .nilStr, .prim .boolStr, .prim .numStr, .myself]

/-- Whatever text is turned into an object, every built-in operation that runs meanwhile is harmless;
and afterwards the restriction is off. -/
theorem C43 {env : Env} (henv : env.Safe) (k r : Nat) (args : List Nat) (s s' : St) (v : Nat)
    (hs : Room1 s) (hd : s.deser = false)
    (h : native env (exec env k) .eval r args s = .ok (s', v)) :
    s'.deser = false ∧ ∃ l, s'.log = l ++ s.log ∧ ∀ d f o as, Event.native d f o as ∈ l → f ∈ harmless := by
  simp only [native] at h
  split at h
  · split at h
    · cases h
      exact ⟨hd, [], rfl, by simp⟩
    · rename_i e _
      have hfr := exec_frame henv k (.expr e) { s with deser := true } ⟨hs.pos, hs.room, hs.stack⟩
      cases hx : exec env k (.expr e) { s with deser := true } with
      | more => rw [hx] at h; cases h
      | exit => rw [hx] at h; cases h
      | ub u => rw [hx] at h; cases h
      | ok a =>
        obtain ⟨s2, v2, q2⟩ := a
        rw [hx] at h
        cases h
        obtain ⟨l, hl, pl⟩ := (hfr.ok hx).log
        refine ⟨rfl, l, hl, fun d f o as hm => ?_⟩
        have hw := pl _ hm
        have hwf : white f = true := hw.1 (hw.2 rfl)
        revert hwf
        cases f with
        | prim p =>
          cases p with
          | other k => exact fun h => (by cases h)
          | _ => decide
        | _ => decide
  · cases h

/-- The text 77 is read as `Sequence new ← 1` followed by an attempt to define a method. -/
def readText (k : Name) : Option Node :=
  match k with
  | 77 => some (Node.msg (.nested (.msg (.ref false vSequence) [(mNew, [])]))
      [(mPush, [.num 1]), (mOnDo, [.str 500, .code [] []])])
  | _ => none

/-- The environment with that text. -/
def reading : Env := ⟨demo.prim, readText⟩

/-- The start world with the text 77. -/
def readWorld : St :=
  { boot with obj := fun i => if i = 50 then { val := .str 77, link := some strP } else bootObj i, fresh := 51 }

example : reading.Safe ∧ Room1 readWorld ∧ readWorld.deser = false ∧
    (native reading (exec reading 20) .eval 50 [nilO] readWorld).sat
      (fun a => a.1.log == [.native true .push 51 [52, nilO], .native true .newArr arrP [nilO]] &&
        a.2 == nilO) = true := by
  refine ⟨demo_safe, ⟨by decide, by decide, by decide⟩, rfl, by decide +kernel⟩

end Verif.Props.Interp
