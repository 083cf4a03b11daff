import Verif.Lemmas.ProgramRun

/-!
# Lemmas: programs do what the reference interpreter does
-/

namespace Verif.Model.Program
open Verif.Model.Interp
open Verif.Spec.Program (Words V Frame Sig M few fewMsgs fewArgs fewStmts upd)

variable {I : List UInt8 → Name} {W : Words} {s0 : St}

/-! ### Expressions -/

theorem modeOf_two : modeOf 2 = .loc := rfl
theorem modeOf_zero : modeOf 0 = .var := rfl

/-- Assignments. -/
theorem sim_assign {ev : Spec.Program.Task → M V} (hE : SimE I W s0 ev) {m : Nat} {n : List UInt8} {e : Spec.Node}
    {fs fs' : List Frame} {r : Except Sig V} (he : few e = true) (put : List Frame → List UInt8 → V → Option (List Frame))
    (hput : ∀ {s : St} {fs fs' : List Frame} {o : Nat} {v : V}, Rep I W s0 s fs → s.flow = none → Holds I W s o v → put fs n v = some fs' →
      ∃ s', (match modeOf m with
        | .own => Res.ok (assignMy s (I n) o)
        | .loc => .ok (assignLocal s (I n) o)
        | .var => .ok (assignVar s (I n) o)) = .ok (s', o) ∧ Rep I W s0 s' fs' ∧ Ext s s' ∧ s'.flow = none)
    (h : (ev (.expr e)).andThen (fun v => fun fs => (put fs n v).map fun fs => (.ok v, fs)) fs = some (r, fs'))
    {s : St} (hr : Rep I W s0 s fs) (hf : s.flow = none) :
    ∃ s' o, Ev (fun k => assignment (exec arith k) (modeOf m) (I n) (lower I W e) s) (s', o) ∧ Post I W s0 s r fs' s' o := by
  unfold assignment
  rw [tick_free hr.sandbox]
  simp only [Res.ok_bind]
  rcases andThen_some h with ⟨g, h1, rfl⟩ | ⟨v, fs1, h1, h2⟩
  · obtain ⟨s1, o, e1, p1⟩ := hE e _ _ _ h1 he s hr hf
    refine ⟨s1, nilO, Ev.bind e1 (Ev.of_eq fun _ => assign_pending (pending_of p1.res) _ _ _), p1.quiet (.refl _)⟩
  · obtain ⟨s1, o, e1, p1⟩ := hE e _ _ _ h1 he s hr hf
    obtain ⟨fs2, h3, h4⟩ := Option.map_eq_some_iff.1 h2
    obtain ⟨rfl, rfl⟩ := Prod.mk.inj h4
    obtain ⟨s2, e2, r2, x2, f2⟩ := hput p1.rep p1.res.1 p1.res.2 h3
    exact ⟨s2, o, Ev.bind e1 (Ev.of_eq fun _ => e2), r2, p1.ext.trans x2, f2, p1.res.2.ext x2⟩

/-- Expressions with one more step. -/
theorem sim_expr (hI : Function.Injective I) (hw : World I W s0) {k : Nat} (hE : SimE I W s0 (Spec.Program.exec W k))
    (hC : SimC I W s0 (Spec.Program.exec W k)) (hL : SimL I W s0 (Spec.Program.exec W k)) {e : Spec.Node} {fs fs' : List Frame}
    {r : Except Sig V} (h : Spec.Program.expr W (Spec.Program.exec W k) e fs = some (r, fs')) (he : few e = true) {s : St}
    (hr : Rep I W s0 s fs) (hf : s.flow = none) :
    ∃ s' o, Ev (fun n => expr (exec arith n) (lower I W e) s) (s', o, false) ∧ Post I W s0 s r fs' s' o := by
  have qb := quiet_bump s
  have hb := hr.quiet qb
  unfold expr
  rw [tick_free hr.sandbox]
  simp only [Res.ok_bind]
  show ∃ s' o, Ev (fun n => _) (s', o, false) ∧ Post I W s0 s r fs' s' o
  cases e with
  | num t =>
    obtain ⟨v, h1, rfl, rfl⟩ := lift_some h
    obtain ⟨z, h2, rfl⟩ := Option.map_eq_some_iff.1 h1
    have q := qb.trans (quiet_alloc (bump s) { val := .num z, link := some numP })
    simp only [lower, numberOf_literal h2]
    exact ⟨(newNum (bump s) z).1, (newNum (bump s) z).2, Ev.pure _, hr.quiet q, q.ext, hf, holds_newNum _ _⟩
  | ref m n =>
    cases m with
    | zero =>
      obtain ⟨v, h1, rfl, rfl⟩ := lift_some h
      obtain ⟨o, h2, h3⟩ := hb.find hf h1
      refine ⟨bump s, o, Ev.of_eq fun _ => ?_, hb, qb.ext, hf, h3⟩
      simp only [lower, show Interp.find { s with evals := s.evals + 1 } (I n) = _ from h2, Nat.zero_ne_one, decide_false,
        Bool.false_eq_true, if_false]
    | succ m => cases h
  | block ps b =>
    obtain ⟨rfl, rfl⟩ := ret_some h
    have q := qb.trans (quiet_alloc (bump s) { val := .code (ps.map I) (lowerAll I W b), link := some codeP })
    simp only [lower]
    exact ⟨(newCode (bump s) (ps.map I) (lowerAll I W b)).1, (newCode (bump s) (ps.map I) (lowerAll I W b)).2, Ev.pure _,
      hr.quiet q, q.ext, hf, holds_newCode _ _ _⟩
  | nested e =>
    obtain ⟨s1, o, e1, p1⟩ := hE e _ _ _ h (by simpa only [few] using he) (bump s) hb hf
    simp only [lower]
    exact ⟨s1, o, e1, p1.before qb.ext⟩
  | assign x e =>
    cases x with
    | ref m n =>
      simp only [few, Bool.true_and] at he
      simp only [lower]
      have key : ∃ s' o, Ev (fun k => assignment (exec arith k) (modeOf m) (I n) (lower I W e) (bump s)) (s', o) ∧
          Post I W s0 (bump s) r fs' s' o := by
        match m, h with
        | 0, h =>
          refine sim_assign hE he Spec.Program.assign (fun hr hf hv hp => ?_) h hb hf
          obtain ⟨s', e1, r1, x1, f1⟩ := hr.assign hI hf hv hp
          exact ⟨s', by rw [modeOf_zero]; exact congrArg Res.ok e1, r1, x1, f1⟩
        | 2, h =>
          refine sim_assign hE he Spec.Program.declare (fun hr hf hv hp => ?_) h hb hf
          obtain ⟨s', e1, r1, x1, f1, _⟩ := hr.declare hI hf hv hp
          exact ⟨s', by rw [modeOf_two]; exact congrArg Res.ok e1, r1, x1, f1⟩
        | 1, h => cases h
        | m + 3, h => cases h
      obtain ⟨s', o, e1, p1⟩ := key
      exact ⟨s', o, Ev.bind e1 (.pure _), p1.before qb.ext⟩
    | _ => cases h
  | msg x ms =>
    simp only [few, Bool.and_eq_true] at he
    simp only [lower]
    have key : ∃ s' o, Ev (fun k => message (exec arith k) (lower I W x) (lowerMsgs I W ms) (bump s)) (s', o) ∧
        Post I W s0 (bump s) r fs' s' o := by
      unfold message
      rw [tick_free (s := bump s) hr.sandbox]
      simp only [Res.ok_bind]
      cases k with
      | zero => cases h
      | succ k =>
        have h : M.andThen (Spec.Program.exec W (k + 1) (.expr x)) (fun v => Spec.Program.chain W (Spec.Program.exec W (k + 1)) v ms) fs =
          some (r, fs') := h
        cases x with
        | ref m n =>
          cases m with
          | zero =>
            rcases andThen_some h with ⟨g, h1, rfl⟩ | ⟨v, fs1, h1, h2⟩
            · obtain ⟨v, h3, h4, rfl⟩ := lift_some h1
              cases h4
            · obtain ⟨v, h3, h4, rfl⟩ := lift_some h1
              cases h4
              obtain ⟨o, h5, h6⟩ := hb.find hf h3
              obtain ⟨s1, o1, e1, p1⟩ := sim_chain hw hE hC hL ms false _ _ _ _ h2 he.2 (bump s) o hb hf h6
              refine ⟨s1, o1, ?_, p1⟩
              have hfl : realFlow (bump s).flow = false := by rw [show (bump s).flow = none from hf]; rfl
              simp only [lower, h5, Nat.zero_ne_one, decide_false, Bool.false_eq_true, if_false, hfl]
              exact e1
          | succ m =>
            rcases andThen_some h with ⟨g, h1, rfl⟩ | ⟨v, fs1, h1, h2⟩
            · cases h1
            · cases h1
        | num t =>
          rcases andThen_some h with ⟨g, h1, rfl⟩ | ⟨v, fs1, h1, h2⟩
          · obtain ⟨v, h3, h4, rfl⟩ := lift_some h1
            cases h4
          · obtain ⟨v, h3, h4, rfl⟩ := lift_some h1
            cases h4
            obtain ⟨z, h5, rfl⟩ := Option.map_eq_some_iff.1 h3
            have q := quiet_alloc (bump s) { val := .num z, link := some numP }
            obtain ⟨s1, o1, e1, p1⟩ := sim_chain hw hE hC hL ms true _ _ _ _ h2 he.2 (newNum (bump s) z).1 (newNum (bump s) z).2
              (hb.quiet q) hf (holds_newNum _ _)
            simp only [lower, numberOf_literal h5]
            exact ⟨s1, o1, e1, p1.before q.ext⟩
        | block ps b =>
          rcases andThen_some h with ⟨g, h1, rfl⟩ | ⟨v, fs1, h1, h2⟩
          · cases (ret_some h1).1
          · obtain ⟨h3, rfl⟩ := ret_some h1
            cases h3
            have q := quiet_alloc (bump s) { val := .code (ps.map I) (lowerAll I W b), link := some codeP }
            obtain ⟨s1, o1, e1, p1⟩ := sim_chain hw hE hC hL ms true _ _ _ _ h2 he.2 (newCode (bump s) (ps.map I) (lowerAll I W b)).1
              (newCode (bump s) (ps.map I) (lowerAll I W b)).2 (hb.quiet q) hf (holds_newCode _ _ _)
            simp only [lower]
            exact ⟨s1, o1, e1, p1.before q.ext⟩
        | nested e =>
          simp only [lower]
          rcases andThen_some h with ⟨g, h1, rfl⟩ | ⟨v, fs1, h1, h2⟩
          · obtain ⟨s1, o1, e1, p1⟩ := hE _ _ _ _ h1 he.1.2 (bump s) hb hf
            obtain ⟨s2, o2, e2, p2⟩ := p1.chain he.2 true o1
            refine ⟨s2, o2, Ev.bind (f := fun n => exec arith n (.expr (.nested (lower I W e))) (bump s)) (a := (s1, o1, false)) ?_ e2, p2⟩
            exact e1.congr fun n => by simp only [lower]
          · obtain ⟨s1, o1, e1, p1⟩ := hE _ _ _ _ h1 he.1.2 (bump s) hb hf
            obtain ⟨s2, o2, e2, p2⟩ := sim_chain hw hE hC hL ms true _ _ _ _ h2 he.2 s1 o1 p1.rep p1.res.1 p1.res.2
            refine ⟨s2, o2, Ev.bind (f := fun n => exec arith n (.expr (.nested (lower I W e))) (bump s)) (a := (s1, o1, false)) ?_ e2,
              p2.before p1.ext⟩
            exact e1.congr fun n => by simp only [lower]
        | _ =>
          rcases andThen_some h with ⟨g, h1, rfl⟩ | ⟨v, fs1, h1, h2⟩
          · first | cases h1 | simp only [Spec.Program.receiver, Bool.false_eq_true, false_and] at he
          · first | cases h1 | simp only [Spec.Program.receiver, Bool.false_eq_true, false_and] at he
    obtain ⟨s', o, e1, p1⟩ := key
    exact ⟨s', o, Ev.bind e1 (.pure _), p1.before qb.ext⟩
  | _ => cases h

/-! ### Statements and blocks -/

/-- Statements. -/
theorem sim_stmts {ev : Spec.Program.Task → M V} (hE : SimE I W s0 ev) : ∀ (es : List Spec.Node) (fs fs' : List Frame)
    (r : Except Sig (Option V)), Spec.Program.stmts ev es fs = some (r, fs') → fewStmts es = true → ∀ s, Rep I W s0 s fs → s.flow = none →
    ∃ s' o, Ev (fun n => runList (exec arith n) (lowerAll I W es) s) (s', o) ∧ Rep I W s0 s' fs' ∧ Ext s s' ∧
      match r with
      | .ok none => s'.flow = none ∧ o = none
      | .ok (some v) => s'.flow = none ∧ ∃ x, o = some x ∧ Holds I W s' x v
      | .error g => s'.flow = some (flowOf g)
  | [], fs, fs', r, h, _, s, hr, hf => by
    obtain ⟨rfl, rfl⟩ := ret_some h
    exact ⟨s, none, by simp only [lowerAll, runList]; exact Ev.pure _, hr, .refl s, hf, rfl⟩
  | e :: es, fs, fs', r, h, hw, s, hr, hf => by
    simp only [lowerAll, runList]
    have key : (∃ x, e = .ret x ∧ few x = true ∧ fewStmts es = true) ∨ (few e = true ∧ fewStmts es = true ∧
        (ev (.expr e)).andThen (fun _ => Spec.Program.stmts ev es) fs = some (r, fs')) := by
      cases e <;> simp_all [fewStmts, Spec.Program.stmts]
    rcases key with ⟨x, rfl, hx, hes⟩ | ⟨hx, hes, h⟩
    · have q := quiet_bump s
      have key2 : ∀ {s1 : St} {o : Nat}, Ev (fun n => exec arith n (.expr (lower I W x)) (bump s)) (s1, o, false) →
          Ev (fun n => exec arith n (.expr (lower I W (.ret x))) s >>= fun a => if a.2.2 = true then Res.ok (a.1, some a.2.1)
            else runList (exec arith n) (lowerAll I W es) a.1) (s1, some o) := by
        intro s1 o h1
        refine Ev.bind (a := (s1, o, true)) ?_ (by simp only [if_true]; exact .pure _)
        refine Ev.succ (g := fun n => expr (exec arith n) (lower I W (.ret x)) s) ?_ fun _ => rfl
        simp only [lower, expr, tick_free hr.sandbox, Res.ok_bind]
        simp only [show tick { s with evals := s.evals + 1 } = _ from tick_free (s := bump s) hr.sandbox, Res.ok_bind]
        exact Ev.bind h1 (.pure _)
      rcases andThen_some h with ⟨g, h1, rfl⟩ | ⟨v, fs1, h1, h2⟩
      · obtain ⟨s1, o, e1, p1⟩ := hE x _ _ _ h1 hx (bump s) (hr.quiet q) hf
        exact ⟨s1, some o, key2 e1, p1.rep, q.ext.trans p1.ext, p1.res⟩
      · obtain ⟨rfl, rfl⟩ := ret_some h2
        obtain ⟨s1, o, e1, p1⟩ := hE x _ _ _ h1 hx (bump s) (hr.quiet q) hf
        exact ⟨s1, some o, key2 e1, p1.rep, q.ext.trans p1.ext, p1.res.1, o, rfl, p1.res.2⟩
    · rcases andThen_some h with ⟨g, h1, rfl⟩ | ⟨v, fs1, h1, h2⟩
      · obtain ⟨s1, o, e1, p1⟩ := hE e _ _ _ h1 hx s hr hf
        obtain ⟨s2, r2, e2, q2⟩ := silent_stmts (I := I) (W := W) (env := arith) es s1 hes p1.rep.sandbox (pending_of p1.res)
        refine ⟨s2, r2, Ev.bind e1 (by simp only [Bool.false_eq_true, if_false]; exact e2), p1.rep.quiet q2, p1.ext.trans q2.ext,
          q2.flow.trans p1.res⟩
      · obtain ⟨s1, o, e1, p1⟩ := hE e _ _ _ h1 hx s hr hf
        obtain ⟨s2, r2, e2, i2, x2, f2⟩ := sim_stmts hE es _ _ _ h2 hes s1 p1.rep p1.res.1
        exact ⟨s2, r2, Ev.bind e1 (by simp only [Bool.false_eq_true, if_false]; exact e2), i2, p1.ext.trans x2, f2⟩

/-- The parameters of a block. -/
theorem sim_params (hI : Function.Injective I) : ∀ (ps : List (List UInt8)) (as : List V) (os xs : List Nat) (f : Frame) (fs : List Frame) (s : St),
    ps.length ≤ as.length → HoldsAll I W s os as → Rep I W s0 s (f :: fs) → s.flow = none →
    ∃ s', bindParams s (ps.map I) (os ++ xs) = s' ∧ Rep I W s0 s' ((ps.zip as).foldl (fun f p => upd f p.1 p.2) f :: fs) ∧ Ext s s' ∧
      s'.flow = none
  | [], as, os, xs, f, fs, s, _, _, hr, hf => ⟨s, by cases os ++ xs <;> rfl, by simpa using hr, .refl s, hf⟩
  | p :: ps, [], _, _, _, _, _, hl, _, _, _ => by simp at hl
  | p :: ps, a :: as, os, xs, f, fs, s, hl, ho, hr, hf => by
    obtain ⟨o, os', rfl, h1, h2⟩ := holdsAll_cons ho
    obtain ⟨s1, e1, r1, x1, f1, _⟩ := hr.declare hI hf (k := p) h1 rfl
    obtain ⟨s2, e2, r2, x2, f2⟩ := sim_params hI ps as os' xs _ _ s1 (by simpa using hl) (h2.ext x1) r1 f1
    refine ⟨s2, ?_, by simpa only [List.zip_cons_cons, List.foldl_cons] using r2, x1.trans x2, f2⟩
    rw [← e2, List.map_cons, List.cons_append]
    simp only [bindParams, e1]

/-- The names the interpreter uses. -/
structure Names (I : List UInt8 → Name) (W : Words) : Prop where
  inj : Function.Injective I
  me : I W.me = nMe
  my : I W.my = nMy
  task : I W.task = nTask

/-- The variables at the start of a block. -/
theorem sim_entry (hN : Names I W) {ps : List (List UInt8)} {b : List Spec.Node} {as : List V} {me : Bool} {fs : List Frame} {s : St}
    {os xs : List Nat} {bo : Nat} (hl : ps.length ≤ as.length) (ho : HoldsAll I W s os as) (hb : Holds I W s bo (.code ps b))
    (hr : Rep I W s0 s ((fun _ => none) :: fs)) (hf : s.flow = none) :
    ∃ s', enter (ps.map I) (os ++ xs) (if me then some bo else none) bo s = s' ∧
      Rep I W s0 s' (Spec.Program.entry W ps b as me :: fs) ∧ Ext s s' ∧ s'.flow = none := by
  obtain ⟨s1, e1, r1, x1, f1⟩ := sim_params hN.inj ps as os xs _ _ s hl ho hr hf
  unfold enter
  rw [e1]
  cases me with
  | false =>
    obtain ⟨s2, e2, r2, x2, f2, _⟩ := r1.declare hN.inj f1 (k := W.task) (hb.ext x1) rfl
    rw [hN.task] at e2
    refine ⟨s2, ?_, r2, x1.trans x2, f2⟩
    simp only [Bool.false_eq_true, if_false, e2]
  | true =>
    obtain ⟨s2, e2, r2, x2, f2, _⟩ := r1.declare hN.inj f1 (k := W.me) (hb.ext x1) rfl
    obtain ⟨s3, e3, r3, x3, f3, _⟩ := r2.declare hN.inj f2 (k := W.my) (hb.ext (x1.trans x2)) rfl
    obtain ⟨s4, e4, r4, x4, f4, _⟩ := r3.declare hN.inj f3 (k := W.task) (hb.ext ((x1.trans x2).trans x3)) rfl
    rw [hN.me] at e2
    rw [hN.my] at e3
    rw [hN.task] at e4
    refine ⟨s4, ?_, r4, ((x1.trans x2).trans x3).trans x4, f4⟩
    simp only [if_true, e2, e3, e4]

/-- Blocks with one more step. -/
theorem sim_enter (hN : Names I W) {ev : Spec.Program.Task → M V} (hE : SimE I W s0 ev) {ps : List (List UInt8)} {b : List Spec.Node}
    {as : List V} {me : Bool} {fs fs' : List Frame} {r : Except Sig V} (h : Spec.Program.enter W ev ps b as me fs = some (r, fs'))
    {s : St} {bo : Nat} {os xs : List Nat} (hr : Rep I W s0 s fs) (hf : s.flow = none) (hb : Holds I W s bo (.code ps b))
    (ho : HoldsAll I W s os as) :
    ∃ s' o, Ev (fun n => blockRun (exec arith n) bo (os ++ xs) (if me then some bo else none) s) (s', o) ∧ Post I W s0 s r fs' s' o := by
  unfold Spec.Program.enter at h
  split at h
  case isFalse => cases h
  case isTrue hc =>
  obtain ⟨hl, hps, hb'⟩ := hc
  let s1 : St := { s with log := .block bo (os ++ xs) (if me then some bo else none) :: s.log }
  have q1 : Quiet s s1 := ⟨rfl, rfl, rfl, rfl, rfl, rfl, Nat.le_refl _, fun _ _ => rfl⟩
  obtain ⟨s2, e2, r2, x2, f2, _⟩ := (hr.quiet q1).open hl
  have hv2 := hb.ext (q1.ext.trans x2)
  obtain ⟨s3, e3, r3, x3, f3⟩ := sim_entry (xs := xs) (me := me) hN hps (ho.ext (q1.ext.trans x2)) hv2 r2 (f2.trans hf)
  have x13 := (q1.ext.trans x2).trans x3
  have fin : ∀ {r' : Except Sig (Option V)} {f f' : Frame} {fs1 : List Frame},
      Spec.Program.stmts ev b (Spec.Program.entry W ps b as me :: fs) = some (r', f :: f' :: fs1) →
      ∃ s' o, Ev (fun n => runList (exec arith n) (lowerAll I W b) s3) (s', o) ∧ Rep I W s0 (closeCtx s') (f' :: fs1) ∧
        Ext s (closeCtx s') ∧
        match r' with
        | .ok none => (closeCtx s').flow = none ∧ o = none
        | .ok (some v) => (closeCtx s').flow = none ∧ ∃ x, o = some x ∧ Holds I W (closeCtx s') x v
        | .error g => (closeCtx s').flow = some (flowOf g) := by
    intro r' f f' fs1 h1
    obtain ⟨s4, o, e4, r4, x4, f4⟩ := sim_stmts hE b _ _ _ h1 hb' s3 r3 f3
    obtain ⟨r5, x5, f5⟩ := r4.close
    refine ⟨s4, o, e4, r5, (x13.trans x4).trans x5, ?_⟩
    match r' with
    | .ok none => exact ⟨f5.trans f4.1, f4.2⟩
    | .ok (some v) =>
      obtain ⟨f4, x, h4, h5⟩ := f4
      exact ⟨f5.trans f4, x, h4, h5.ext x5⟩
    | .error g => exact f5.trans f4
  have body : ∀ {s' : St} {o : Option Nat}, Ev (fun n => runList (exec arith n) (lowerAll I W b) s3) (s', o) →
      ((closeCtx s').flow = none ∨ ∃ g, (closeCtx s').flow = some (flowOf g)) →
      Ev (fun n => blockRun (exec arith n) bo (os ++ xs) (if me then some bo else none) s) (closeCtx s', o.getD bo) := by
    intro s' o h1 h2
    have hmy : (if me then some bo else none : Option Nat).getD bo = bo := by cases me <;> rfl
    simp only [blockRun, hb.2]
    simp only [show openCtx { s with log := .block bo (os ++ xs) (if me then some bo else none) :: s.log } = _ from e2, Res.ok_bind, e3, hmy]
    refine Ev.bind h1 (Ev.of_eq fun n => ?_)
    rcases h2 with h2 | ⟨g, h2⟩
    · simp only [handle, h2]
    · cases g <;> simp only [handle, h2, flowOf]
  split at h
  · rename_i r' f f' fs1 h1
    obtain ⟨rfl, rfl⟩ := Prod.mk.inj (Option.some.inj h)
    obtain ⟨s', o, e1, r1, x1, f1⟩ := fin h1
    cases r' with
    | none =>
      obtain ⟨f1, rfl⟩ := f1
      exact ⟨_, _, body e1 (.inl f1), r1, x1, f1, hb.ext x1⟩
    | some v =>
      obtain ⟨f1, x, rfl, h2⟩ := f1
      exact ⟨_, _, body e1 (.inl f1), r1, x1, f1, h2⟩
  · rename_i g f f' fs1 h1
    obtain ⟨rfl, rfl⟩ := Prod.mk.inj (Option.some.inj h)
    obtain ⟨s', o, e1, r1, x1, f1⟩ := fin h1
    exact ⟨_, _, body e1 (.inr ⟨g, f1⟩), r1, x1, f1⟩
  · cases h

/-- Loops with one more step. -/
theorem sim_loop (hw : World I W s0) {ev : Spec.Program.Task → M V} (hC : SimC I W s0 ev) (hL : SimL I W s0 ev) {b c : List Spec.Node}
    {fs fs' : List Frame} {r : Except Sig V} (h : Spec.Program.loop ev b c fs = some (r, fs')) {s : St} {bo co : Nat} (xs : List Nat)
    (hr : Rep I W s0 s fs) (hf : s.flow = none) (hb : Holds I W s bo (.code [] b)) (hc : Holds I W s co (.code [] c)) :
    r = .ok (.code [] b) ∧ ∃ s', Ev (fun n => whileRound (exec arith n) bo co xs s) (s', bo, false) ∧ Rep I W s0 s' fs' ∧ Ext s s' ∧
      (s'.flow = none ∨ s'.flow = some .brk) := by
  unfold Spec.Program.loop at h
  simp only [whileRound, hf, Option.isSome_none, Bool.false_eq_true, if_false]
  have cond : ∀ {t : Bool} {fs1 : List Frame}, ev (.call [] c [] false) fs = some (.ok (.bool t), fs1) →
      ∃ s1 o, Ev (fun n => exec arith n (.block co xs none) s) (s1, o, false) ∧ Rep I W s0 s1 fs1 ∧ Ext s s1 ∧ s1.flow = none ∧
        ∀ ev, cast2bool ev o s1 = .ok (s1, t) := by
    intro t fs1 h1
    obtain ⟨s1, o, e1, p1⟩ := hC _ _ _ _ _ _ _ h1 s co [] xs hr hf hc trivial
    refine ⟨s1, o, e1, p1.rep, p1.ext, p1.res.1, fun ev => ?_⟩
    have ho : o = if t then trueO else falseO := p1.res.2
    simp only [cast2bool, ho, p1.rep.bools hw t]
  split at h
  · rename_i fs1 h1
    obtain ⟨rfl, rfl⟩ := Prod.mk.inj (Option.some.inj h)
    obtain ⟨s1, o, e1, r1, x1, f1, c1⟩ := cond h1
    refine ⟨rfl, s1, Ev.bind e1 ?_, r1, x1, .inl f1⟩
    simp only [c1, Res.ok_bind, true_or, if_true]
    exact .pure _
  · rename_i fs1 h1
    obtain ⟨s1, o, e1, r1, x1, f1, c1⟩ := cond h1
    split at h
    · cases h
    · rename_i fs2 h2
      obtain ⟨rfl, rfl⟩ := Prod.mk.inj (Option.some.inj h)
      obtain ⟨s2, o2, e2, p2⟩ := hC _ _ _ _ _ _ _ h2 s1 bo [] xs r1 f1 (hb.ext x1) trivial
      have f2 : s2.flow = some .brk := p2.res
      have hne : ¬ s2.flow = some .cont := by rw [f2]; exact fun h => nomatch h
      refine ⟨rfl, s2, Ev.bind e1 ?_, p2.rep, x1.trans p2.ext, .inr f2⟩
      simp only [c1, Res.ok_bind, f1, Option.isSome_none, Bool.false_eq_true, or_self, if_false, Bool.true_eq_false]
      refine Ev.bind e2 ?_
      simp only [eatCont, hne, if_false]
      refine Ev.succ (g := fun n => whileRound (exec arith n) bo co xs s2) (Ev.of_eq fun n => ?_) fun _ => rfl
      simp only [whileRound, f2, Option.isSome_some, if_true]
    · rename_i x fs2 hx h2
      obtain ⟨s2, o2, e2, p2⟩ := hC _ _ _ _ _ _ _ h2 s1 bo [] xs r1 f1 (hb.ext x1) trivial
      obtain ⟨k1, k2, k3⟩ := p2.eatCont hx
      have x2 := (x1.trans p2.ext).trans k2
      obtain ⟨i1, s3, e3, r3, x3, f3⟩ := hL _ _ _ _ _ h (eatCont s2) bo co xs k1 k3 (hb.ext x2) (hc.ext x2)
      refine ⟨i1, s3, Ev.bind e1 ?_, r3, x2.trans x3, f3⟩
      simp only [c1, Res.ok_bind, f1, Option.isSome_none, Bool.false_eq_true, or_self, if_false, Bool.true_eq_false]
      exact Ev.bind e2 e3
  · cases h

/-! ### Programs -/

/-- Everything the reference interpreter does is what the interpreter does. -/
theorem sim (hN : Names I W) (hw : World I W s0) : ∀ k, SimE I W s0 (Spec.Program.exec W k) ∧ SimC I W s0 (Spec.Program.exec W k) ∧
    SimL I W s0 (Spec.Program.exec W k)
  | 0 => ⟨fun _ _ _ _ h => (nomatch h), fun _ _ _ _ _ _ _ h => (nomatch h), fun _ _ _ _ _ h => (nomatch h)⟩
  | k + 1 => by
    obtain ⟨hE, hC, hL⟩ := sim hN hw k
    refine ⟨fun e fs r fs' h he s hr hf => ?_, fun ps b as me fs r fs' h s bo os xs hr hf hb ho => ?_,
      fun b c fs r fs' h s bo co xs hr hf hb hc => ?_⟩
    · obtain ⟨s', o, e1, p1⟩ := sim_expr hN.inj hw hE hC hL h he hr hf
      exact ⟨s', o, e1.succ fun _ => rfl, p1⟩
    · obtain ⟨s', o, e1, p1⟩ := sim_enter (xs := xs) hN hE h hr hf hb ho
      refine ⟨s', o, Ev.succ (g := fun n => plain (blockRun (exec arith n) bo (os ++ xs) (if me then some bo else none) s)) ?_ fun _ => rfl, p1⟩
      unfold plain
      exact Ev.bind e1 (.pure _)
    · obtain ⟨i1, s', e1, p1⟩ := sim_loop hw hC hL h xs hr hf hb hc
      exact ⟨i1, s', e1.succ fun _ => rfl, p1⟩

theorem World.rep (hw : World I W s0) : Rep I W s0 s0 [Spec.Program.globals W] where
  sandbox := hw.sandbox
  deser := hw.deser
  stack := hw.stack
  recursion := hw.recursion
  fresh := Nat.le_refl _
  low _ _ _ := rfl
  bottom := by rw [hw.ctxs]; rfl
  scopes := by
    rw [hw.ctxs]
    have := hw.size
    exact ⟨⟨show 3 < _ by omega, hw.world, .inl rfl⟩, hw.globals, by simp, trivial⟩

/-- A program that ends. -/
theorem sim_program (hN : Names I W) (hw : World I W s0) {es : List Spec.Node} {f : Frame} (hf : fewStmts es = true)
    (h : Spec.Program.Ends W es f) :
    ∃ s' o, Ev (fun n => program arith n (lowerAll I W es) s0) (s', o) ∧ s'.flow = none ∧ Rep I W s0 s' [f] := by
  obtain ⟨k, r, h⟩ := h
  obtain ⟨s', o, e1, r1, _, f1⟩ := sim_stmts (sim hN hw k).1 es _ _ _ h hf s0 hw.rep hw.flow
  refine ⟨s', o, e1, ?_, r1⟩
  cases r with
  | none => exact f1.1
  | some v => exact f1.1

end Verif.Model.Program
