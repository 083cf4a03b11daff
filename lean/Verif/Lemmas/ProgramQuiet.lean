import Verif.Lemmas.ProgramHeap

/-!
# Lemmas: enough steps; what is executed while a Break or Continue is pending
-/

namespace Verif.Model.Program
open Verif.Model.Interp
open Verif.Spec.Program (Words V Frame Sig few fewMsgs fewArgs fewStmts)

/-- With enough nested calls the outcome is `a`. -/
def Ev (f : Nat → Res α) (a : α) : Prop := ∃ N, ∀ n, N ≤ n → f n = .ok a

theorem Ev.pure (a : α) : Ev (fun _ => Res.ok a) a := ⟨0, fun _ _ => rfl⟩

theorem Ev.of_eq {f : Nat → Res α} {a : α} (h : ∀ n, f n = .ok a) : Ev f a := ⟨0, fun n _ => h n⟩

theorem Ev.congr {f g : Nat → Res α} {a : α} (h : Ev g a) (e : ∀ n, f n = g n) : Ev f a := by
  obtain ⟨N, h⟩ := h
  exact ⟨N, fun n hn => by rw [e n, h n hn]⟩

theorem Ev.bind {f : Nat → Res α} {g : Nat → α → Res β} {a : α} {b : β} (h : Ev f a) (k : Ev (fun n => g n a) b) :
    Ev (fun n => f n >>= g n) b := by
  obtain ⟨N, h⟩ := h
  obtain ⟨K, k⟩ := k
  exact ⟨max N K, fun n hn => by
    show (f n >>= g n) = _
    rw [h n (by omega), Res.ok_bind]
    exact k n (by omega)⟩

theorem Ev.succ {f g : Nat → Res α} {a : α} (h : Ev g a) (e : ∀ n, f (n + 1) = g n) : Ev f a := by
  obtain ⟨N, h⟩ := h
  refine ⟨N + 1, fun n hn => ?_⟩
  obtain ⟨m, rfl⟩ : ∃ m, n = m + 1 := ⟨n - 1, by omega⟩
  rw [e m, h m (by omega)]

theorem Ev.later {f : Nat → Res α} {a : α} (h : Ev f a) (N : Nat) {g : Nat → Res α} (e : ∀ n, N ≤ n → g n = f n) : Ev g a := by
  obtain ⟨M, h⟩ := h
  exact ⟨max M N, fun n hn => by rw [e n (by omega), h n (by omega)]⟩

theorem tick_free {s : St} (h : s.sandbox = false) : tick s = .ok s := by
  simp only [tick, h, Bool.false_eq_true, if_false]

/-- The call counter. -/
def bump (s : St) : St := { s with evals := s.evals + 1 }

theorem quiet_bump (s : St) : Quiet s (bump s) := ⟨rfl, rfl, rfl, rfl, rfl, rfl, Nat.le_refl _, fun _ _ => rfl⟩

variable {I : List UInt8 → Name} {W : Words}

/-- A pending Break, Continue or error. -/
def Pending (s : St) : Prop := s.flow.isSome = true

theorem Pending.some {s : St} (h : Pending s) : s.flow.isSome = true := h

theorem Pending.of_some {s : St} (h : s.flow.isSome = true) : Pending s := h

theorem Pending.quiet {s s' : St} (h : Pending s) (q : Quiet s s') : Pending s' := by
  unfold Pending; rw [q.flow]; exact h

theorem find_pending {s : St} (h : Pending s) (k : Name) : Interp.find s k = (s, nilO) := by
  simp only [Interp.find, h.some, if_true]

theorem findMy_pending {s : St} (h : Pending s) (k : Name) : Interp.findMy s k = (s, nilO) := by
  simp only [Interp.findMy, find_pending h, h.some, if_true]

/-- Nothing is sent. -/
theorem send_pending {env : Env} {s : St} (h : Pending s) (r : Nat) (m : Name) (args : List Nat) :
    Ev (fun n => exec env n (.send r m args) s) (s, nilO, false) :=
  Ev.succ (g := fun n => plain (send env (exec env n) n r m args s)) (Ev.of_eq fun n => by
    simp only [send, h.some, if_true, plain, Res.ok_bind]) fun _ => rfl

theorem assign_pending {s : St} (h : Pending s) (mode : Mode) (k : Name) (x : Nat) :
    (match mode with
      | .own => Res.ok (assignMy s k x)
      | .loc => Res.ok (assignLocal s k x)
      | .var => Res.ok (assignVar s k x)) = .ok (s, nilO) := by
  cases mode
  · simp only [assignMy, find_pending h, h.some, if_true]
  · simp only [assignLocal, h.some, if_true]
  · simp only [assignVar, h.some, if_true]

/-- An expression that changes nothing but for new objects. -/
def Silent (env : Env) (e : Interp.Node) : Prop := ∀ s, s.sandbox = false → Pending s →
  ∃ s' v q, Ev (fun n => exec env n (.expr e) s) (s', v, q) ∧ Quiet s s'

theorem silent_of {env : Env} {e : Interp.Node} (h : ∀ s, s.sandbox = false → Pending s →
    ∃ s' v q, Ev (fun n => expr (exec env n) e s) (s', v, q) ∧ Quiet s s') : Silent env e := by
  intro s hs hp
  obtain ⟨s', v, q, h1, h2⟩ := h s hs hp
  exact ⟨s', v, q, h1.succ fun _ => rfl, h2⟩

theorem silent_args {env : Env} : ∀ (es : List Interp.Node) (keys : Nat) (s : St), (∀ e ∈ es, Silent env e) → keys + es.length < 40 →
    s.sandbox = false → Pending s →
    ∃ s' vs, Ev (fun n => evalArgs (exec env n) keys es s) (s', vs) ∧ Quiet s s'
  | [], _, s, _, _, _, _ => ⟨s, [], .pure _, .refl s⟩
  | e :: es, keys, s, he, hk, hs, hp => by
    obtain ⟨s1, v, q, h1, q1⟩ := he e (by simp) s hs hp
    simp only [List.length_cons] at hk
    obtain ⟨s2, vs, h2, q2⟩ := silent_args es (keys + 1) s1 (fun e h => he e (by simp [h])) (by omega)
      (q1.sandbox.trans hs) (hp.quiet q1)
    refine ⟨s2, v :: vs, ?_, q1.trans q2⟩
    simp only [evalArgs]
    refine Ev.bind h1 ?_
    have hk' : ¬ keys + 1 ≥ 40 := by omega
    simp only [hk', if_false]
    exact Ev.bind h2 (.pure _)

theorem silent_chain {env : Env} : ∀ (ms : List (Name × List Interp.Node)) (lit : Bool) (r : Nat) (s : St),
    (∀ m ∈ ms, m.2.length ≤ 38 ∧ ∀ e ∈ m.2, Silent env e) → s.sandbox = false → Pending s →
    ∃ s' v, Ev (fun n => chain (exec env n) lit r ms s) (s', v) ∧ Quiet s s'
  | [], _, r, s, _, _, _ => ⟨s, r, .pure _, .refl s⟩
  | (m, as) :: ms, lit, r, s, hm, hs, hp => by
    obtain ⟨hl, ha⟩ := hm (m, as) (by simp)
    dsimp only at hl ha
    obtain ⟨s1, vs, h1, q1⟩ := silent_args as (if lit then 1 else 0) s ha (by split <;> omega) hs hp
    have hp1 := hp.quiet q1
    obtain ⟨s2, v, h2, q2⟩ := silent_chain ms true nilO s1 (fun m h => hm m (by simp [h])) (q1.sandbox.trans hs) hp1
    refine ⟨s2, v, ?_, q1.trans q2⟩
    simp only [chain, tick_free hs, Res.ok_bind]
    refine Ev.bind h1 ?_
    dsimp only
    exact Ev.bind (send_pending hp1 r m _) h2

mutual
theorem silent {env : Env} : ∀ (e : Spec.Node), few e = true → Silent env (lower I W e)
  | .ref m n, _ => silent_of fun s hs hp => by
    refine ⟨bump s, nilO, false, Ev.of_eq fun n => ?_, quiet_bump s⟩
    have hp' := hp.quiet (quiet_bump s)
    simp only [lower, expr, tick_free hs, Res.ok_bind]
    by_cases h : m = 1
    · simp only [h, decide_true, if_true, show findMy { s with evals := s.evals + 1 } _ = _ from findMy_pending hp' _, bump]
    · simp only [h, decide_false, Bool.false_eq_true, if_false, show Interp.find { s with evals := s.evals + 1 } _ = _ from find_pending hp' _, bump]
  | .num v, _ => silent_of fun s hs hp => ⟨_, _, _, Ev.of_eq fun n => by
      simp only [lower, expr, tick_free hs, Res.ok_bind]; rfl, (quiet_bump s).trans (quiet_alloc _ _)⟩
  | .str v, _ => silent_of fun s hs hp => ⟨_, _, _, Ev.of_eq fun n => by
      simp only [lower, expr, tick_free hs, Res.ok_bind]; rfl, (quiet_bump s).trans (quiet_alloc _ _)⟩
  | .block ps b, _ => silent_of fun s hs hp => ⟨_, _, _, Ev.of_eq fun n => by
      simp only [lower, expr, tick_free hs, Res.ok_bind]; rfl, (quiet_bump s).trans (quiet_alloc _ _)⟩
  | .nested e, he => silent_of fun s hs hp => by
    obtain ⟨s', v, q, h1, q1⟩ := silent e (by simpa only [few] using he) (bump s) hs (hp.quiet (quiet_bump s))
    exact ⟨s', v, q, h1.congr fun n => by simp only [lower, expr, tick_free hs, Res.ok_bind]; rfl, (quiet_bump s).trans q1⟩
  | .assign r e, he => silent_of fun s hs hp => by
    cases r with
    | ref m n =>
      simp only [few, Bool.true_and] at he
      obtain ⟨s', v, q, h1, q1⟩ := silent e he (bump s) hs (hp.quiet (quiet_bump s))
      have q2 := (quiet_bump s).trans q1
      refine ⟨s', nilO, false, ?_, q2⟩
      simp only [lower, expr, tick_free hs, Res.ok_bind]
      refine Ev.bind (a := (s', nilO)) ?_ (.pure _)
      unfold assignment
      rw [show tick { s with evals := s.evals + 1 } = _ from tick_free (s := bump s) hs]
      simp only [Res.ok_bind]
      refine Ev.bind h1 ?_
      exact Ev.of_eq fun _ => assign_pending (hp.quiet q2) _ _ _
    | _ => simp only [few, Bool.false_and, Bool.false_eq_true] at he
  | .msg r ms, he => silent_of fun s hs hp => by
    simp only [few, Bool.and_eq_true] at he
    have hms := silentMsgs (env := env) ms he.2
    have hb := (quiet_bump s)
    have hpb := hp.quiet hb
    simp only [lower, expr, tick_free hs, Res.ok_bind]
    have key : ∃ s' v, Ev (fun n => message (exec env n) (lower I W r) (lowerMsgs I W ms) (bump s)) (s', v) ∧ Quiet (bump s) s' := by
      unfold message
      rw [tick_free (s := bump s) hs]
      simp only [Res.ok_bind]
      cases r with
      | ref m n =>
        simp only [lower]
        have key : ∃ s' v, Ev (fun n => if realFlow (bump s).flow = true then Res.ok (bump s, nilO) else
            chain (exec env n) false nilO (lowerMsgs I W ms) (bump s)) (s', v) ∧ Quiet (bump s) s' := by
          by_cases hreal : realFlow (bump s).flow = true
          · exact ⟨bump s, nilO, Ev.of_eq fun n => if_pos hreal, .refl _⟩
          · simp only [hreal, if_false]
            exact silent_chain _ _ _ _ hms hs hpb
        by_cases h : m = 1
        · simp only [h, decide_true, if_true, findMy_pending hpb]
          exact key
        · simp only [h, decide_false, find_pending hpb, Bool.false_eq_true, if_false]
          exact key
      | num v =>
        simp only [lower]
        obtain ⟨s', v, h1, q1⟩ := silent_chain _ true (newNum (bump s) (numberOf v)).2 (newNum (bump s) (numberOf v)).1 hms hs
          (hpb.quiet (quiet_alloc _ _))
        exact ⟨s', v, h1, (quiet_alloc _ _).trans q1⟩
      | str v =>
        simp only [lower]
        obtain ⟨s', v, h1, q1⟩ := silent_chain _ true (newStr (bump s) (I v)).2 (newStr (bump s) (I v)).1 hms hs
          (hpb.quiet (quiet_alloc _ _))
        exact ⟨s', v, h1, (quiet_alloc _ _).trans q1⟩
      | block ps b =>
        simp only [lower]
        obtain ⟨s', v, h1, q1⟩ := silent_chain _ true (newCode (bump s) (ps.map I) (lowerAll I W b)).2
          (newCode (bump s) (ps.map I) (lowerAll I W b)).1 hms hs (hpb.quiet (quiet_alloc _ _))
        exact ⟨s', v, h1, (quiet_alloc _ _).trans q1⟩
      | nested e =>
        simp only [lower]
        obtain ⟨s1, v1, q, h1, q1⟩ := silent (env := env) (.nested e) he.1.2 (bump s) hs hpb
        obtain ⟨s2, v2, h2, q2⟩ := silent_chain (env := env) _ true v1 s1 hms (q1.sandbox.trans hs) (hpb.quiet q1)
        refine ⟨s2, v2, Ev.bind (f := fun n => exec env n (.expr (.nested (lower I W e))) (bump s)) (a := (s1, v1, q)) ?_ h2, q1.trans q2⟩
        exact h1.congr fun n => by simp only [lower]
      | _ => simp only [Spec.Program.receiver, Bool.false_eq_true, false_and] at he
    obtain ⟨s', v, h1, q1⟩ := key
    exact ⟨s', v, false, Ev.bind h1 (.pure _), hb.trans q1⟩
  | .ret _, he => by simp only [few, Bool.false_eq_true] at he
  | .una _, he => by simp only [few, Bool.false_eq_true] at he
  | .bin _ _, he => by simp only [few, Bool.false_eq_true] at he
  | .kw _ _, he => by simp only [few, Bool.false_eq_true] at he
theorem silentMsgs {env : Env} : ∀ (ms : List Spec.Node), fewMsgs ms = true →
    ∀ m ∈ lowerMsgs I W ms, m.2.length ≤ 38 ∧ ∀ e ∈ m.2, Silent env e
  | [], _ => by simp [lowerMsgs]
  | .una n :: ms, h => by
    simp only [fewMsgs] at h
    simp only [lowerMsgs, List.mem_cons]
    rintro m (rfl | hm)
    · exact ⟨by simp, by simp⟩
    · exact silentMsgs ms h m hm
  | .bin o a :: ms, h => by
    simp only [fewMsgs, Bool.and_eq_true] at h
    simp only [lowerMsgs, List.mem_cons]
    rintro m (rfl | hm)
    · refine ⟨by simp, fun e he => ?_⟩
      simp only [List.mem_cons, List.not_mem_nil, or_false] at he
      subst he
      exact silent a h.1
    · exact silentMsgs ms h.2 m hm
  | .kw ps as :: ms, h => by
    simp only [fewMsgs, Bool.and_eq_true, decide_eq_true_eq] at h
    simp only [lowerMsgs, List.mem_cons]
    rintro m (rfl | hm)
    · exact silentArgs as h.1.1 h.1.2
    · exact silentMsgs ms h.2 m hm
  | .ref .. :: _, h => by simp only [fewMsgs, Bool.false_eq_true] at h
  | .num _ :: _, h => by simp only [fewMsgs, Bool.false_eq_true] at h
  | .str _ :: _, h => by simp only [fewMsgs, Bool.false_eq_true] at h
  | .block .. :: _, h => by simp only [fewMsgs, Bool.false_eq_true] at h
  | .nested _ :: _, h => by simp only [fewMsgs, Bool.false_eq_true] at h
  | .assign .. :: _, h => by simp only [fewMsgs, Bool.false_eq_true] at h
  | .msg .. :: _, h => by simp only [fewMsgs, Bool.false_eq_true] at h
  | .ret _ :: _, h => by simp only [fewMsgs, Bool.false_eq_true] at h
theorem silentArgs {env : Env} {n : Nat} : ∀ (as : List Spec.Node), as.length ≤ n → fewArgs as = true →
    (lowerAll I W as).length ≤ n ∧ ∀ e ∈ lowerAll I W as, Silent env e
  | [], _, _ => by simp [lowerAll]
  | a :: as, hl, h => by
    simp only [fewArgs, Bool.and_eq_true] at h
    simp only [List.length_cons] at hl
    obtain ⟨h1, h2⟩ := silentArgs (n := as.length) as (Nat.le_refl _) h.2
    simp only [lowerAll, List.length_cons, List.mem_cons]
    refine ⟨by omega, ?_⟩
    rintro e (rfl | he)
    · exact silent a h.1
    · exact h2 e he
end

/-- Statements that change nothing but for new objects. -/
theorem silent_stmts {env : Env} : ∀ (es : List Spec.Node) (s : St), fewStmts es = true → s.sandbox = false → Pending s →
    ∃ s' r, Ev (fun n => runList (exec env n) (lowerAll I W es) s) (s', r) ∧ Quiet s s'
  | [], s, _, _, _ => ⟨s, none, by simp only [lowerAll, runList]; exact .pure _, .refl s⟩
  | e :: es, s, he, hs, hp => by
    simp only [lowerAll, runList]
    have key : (∃ x, e = .ret x ∧ few x = true) ∨ few e = true ∧ fewStmts es = true := by
      cases e <;> simp_all [fewStmts]
    rcases key with ⟨x, rfl, hx⟩ | ⟨hx, hes⟩
    · obtain ⟨s1, v, q, h1, q1⟩ := silent (I := I) (W := W) (env := env) x hx (bump s) hs (hp.quiet (quiet_bump s))
      refine ⟨s1, some v, Ev.bind (a := (s1, v, true)) ?_ ?_, (quiet_bump s).trans q1⟩
      · refine Ev.succ (g := fun n => expr (exec env n) (lower I W (.ret x)) s) ?_ fun _ => rfl
        simp only [lower, expr, tick_free hs, Res.ok_bind]
        simp only [show tick { s with evals := s.evals + 1 } = _ from tick_free (s := bump s) hs, Res.ok_bind]
        exact Ev.bind h1 (.pure _)
      · simp only [if_true]; exact .pure _
    · obtain ⟨s1, v, q, h1, q1⟩ := silent (I := I) (W := W) (env := env) e hx s hs hp
      cases q with
      | true => exact ⟨s1, some v, Ev.bind h1 (by simp only [if_true]; exact .pure _), q1⟩
      | false =>
        obtain ⟨s2, r, h2, q2⟩ := silent_stmts es s1 hes (q1.sandbox.trans hs) (hp.quiet q1)
        exact ⟨s2, r, Ev.bind h1 (by simp only [Bool.false_eq_true, if_false]; exact h2), q1.trans q2⟩

end Verif.Model.Program
