import Verif.Lemmas.ObjectsRun
import Verif.Lemmas.ProgramMain

/-!
# Lemmas: programs with objects do what the reference interpreter does
-/

namespace Verif.Model.Objects
open Verif.Model.Interp
open Verif.Model.Program (Knows lower lowerAll lowerMsgs Ev Pending tick_free bump quiet_bump silent silent_args silentArgs silentMsgs silent_chain
  silent_stmts send_pending assign_pending modeOf modeOf_two modeOf_zero Names numberOf_literal)
open Verif.Spec.Objects (Words V Frame Ob State Sig M upd)
open Verif.Spec.Program (few fewMsgs fewArgs fewStmts)

variable {I : List UInt8 → Name} {W : Words} {D : Name → Option Text} {a : List Nat} {s0 : St}

/-! ### Variables -/

theorem realFlow_err {s : St} {t : Option (List UInt8)} (h : FlowIs I s (.err t)) : realFlow s.flow = true := by
  obtain ⟨e, h, _⟩ := h
  rw [h]; rfl

/-- A variable. -/
theorem sim_fetch {s : St} {st st' : State} {r : Except Sig V} {n : List UInt8} (hr : Rep I W s0 a s st) (hf : s.flow = none)
    (h : Spec.Objects.fetch n st = some (r, st')) :
    ∃ s' o, Interp.find s (I n) = (s', o) ∧ Post I W s0 a s r st' a s' o ∧ ∀ g, r = .error g → realFlow s'.flow = true := by
  unfold Spec.Objects.fetch at h
  split at h
  · rename_i v h1
    obtain ⟨rfl, rfl⟩ := ret_some h
    obtain ⟨o, h2, h3⟩ := hr.find hf h1
    exact ⟨s, o, h2, ⟨hr, .refl _ _, hf, h3⟩, fun g e => nomatch e⟩
  · rename_i h1
    obtain ⟨rfl, rfl⟩ := fail_some h
    exact ⟨_, _, hr.unknown hf h1, hr.fails _ _, fun _ _ => rfl⟩

/-- What `self` stands for. -/
theorem sim_me (hN : Names I W.toWords) {s : St} {st st' : State} {r : Except Sig V}
    {f : Nat → Option Nat → Frame → (List UInt8 → Option Nat) → M V} (hr : Rep I W s0 a s st) (hf : s.flow = none)
    (h : Spec.Objects.me W f st = some (r, st')) :
    (r = .error (.err none) ∧ st' = st ∧ Interp.find s nMe = (raise s eKnf, nilO)) ∨
    ∃ i p own ms o, st.store[i]? = some (.obj p own ms) ∧ a[i]? = some o ∧ f i p own ms st = some (r, st') ∧ Interp.find s nMe = (s, o) := by
  unfold Spec.Objects.me at h
  split at h
  · rename_i h1
    obtain ⟨rfl, rfl⟩ := fail_some h
    exact .inl ⟨rfl, rfl, by rw [← hN.me]; exact hr.unknown hf h1⟩
  · rename_i i h1
    split at h
    case h_2 => cases h
    case h_1 p own ms h2 =>
    obtain ⟨o, h3, h4⟩ := hr.find hf h1
    exact .inr ⟨i, p, own, ms, o, h2, h4, h, by rw [← hN.me]; exact h3⟩
  · cases h

/-- An own variable. -/
theorem sim_own (hN : Names I W.toWords) {s : St} {st st' : State} {r : Except Sig V} {n : List UInt8} (hr : Rep I W s0 a s st)
    (hf : s.flow = none) (h : Spec.Objects.ownVariable W n st = some (r, st')) :
    ∃ s' o, Interp.findMy s (I n) = (s', o) ∧ Post I W s0 a s r st' a s' o ∧ ∀ g, r = .error g → realFlow s'.flow = true := by
  rcases sim_me hN hr hf h with ⟨rfl, rfl, e⟩ | ⟨i, p, own, ms, o, h1, h2, h3, e⟩
  · refine ⟨raise s eKnf, nilO, ?_, hr.fails _ _, fun _ _ => rfl⟩
    simp only [findMy, e, raise, Option.isSome_some, if_true]
  · obtain ⟨_, _, _, hb, _⟩ := hr.store _ _ _ h1 h2
    have hb := hb n
    cases h4 : own n with
    | some v =>
      rw [h4] at hb
      simp only [h4] at h3
      obtain ⟨rfl, rfl⟩ := ret_some h3
      obtain ⟨x, h5, h6⟩ := hb
      refine ⟨s, x, ?_, ⟨hr, .refl _ _, hf, h6⟩, fun g e => nomatch e⟩
      simp only [findMy, e, hf, Option.isSome_none, Bool.false_eq_true, if_false, h5]
    | none =>
      rw [h4] at hb
      simp only [h4] at h3
      obtain ⟨rfl, rfl⟩ := fail_some h3
      refine ⟨raise s eKnf, nilO, ?_, hr.fails _ _, fun _ _ => rfl⟩
      simp only [findMy, e, hf, Option.isSome_none, Bool.false_eq_true, if_false, show getp (s.obj o).props (I n) = none from hb]

/-- Assignment to an own variable. -/
theorem sim_ownStore (hN : Names I W.toWords) {s : St} {st st' : State} {r : Except Sig V} {n : List UInt8} {v : V} {o : Nat}
    (hr : Rep I W s0 a s st) (hf : s.flow = none) (hv : Holds I a s.obj s.fresh o v) (h : Spec.Objects.ownStore W n v st = some (r, st')) :
    ∃ s' o', assignMy s (I n) o = (s', o') ∧ Post I W s0 a s r st' a s' o' := by
  rcases sim_me hN hr hf h with ⟨rfl, rfl, e⟩ | ⟨i, p, own, ms, x, h1, h2, h3, e⟩
  · refine ⟨raise s eKnf, nilO, ?_, hr.fails _ _⟩
    simp only [assignMy, e, raise, Option.isSome_some, if_true]
  · obtain ⟨rfl, rfl⟩ := ret_some h3
    obtain ⟨k1, k2, k3, k4, k5⟩ := hr.store _ _ _ h1 h2
    have hnp : plainVal (s.obj x).val = false := by rw [k1]; rfl
    obtain ⟨q1, q2⟩ := hr.put h2 (x := { s.obj x with props := setp (s.obj x).props (I n) o }) (ob := .obj p (upd own n v) ms) (by
      have hob : (s.put x { s.obj x with props := setp (s.obj x).props (I n) o }).obj x =
        { s.obj x with props := setp (s.obj x).props (I n) o } := if_pos rfl
      refine ⟨by rw [hob]; exact k1, by rw [hob]; exact k2, ?_, binds_setProp hN.inj hnp k4 hv, fun k => ?_⟩
      · rw [hob]; exact k3
      · rw [hob]; exact k5 k)
    refine ⟨setProp s x (I n) o, o, ?_, q1, q2, hf, hv.ext q2⟩
    simp only [assignMy, e, hf, Option.isSome_none, Bool.false_eq_true, if_false]

/-! ### Expressions -/

/-- Assignments. -/
theorem sim_assign {ev : Spec.Objects.Task → M V} (hE : SimE I W D s0 ev) {m : Nat} {n : List UInt8} {e : Spec.Node}
    {st st' : State} {r : Except Sig V} (he : few e = true) (put : V → M V)
    (hput : ∀ {a : List Nat} {s : St} {st st' : State} {r : Except Sig V} {o : Nat} {v : V}, Rep I W s0 a s st → s.flow = none →
      Holds I a s.obj s.fresh o v → put v st = some (r, st') →
      ∃ s' o', (match modeOf m with
        | .own => Res.ok (assignMy s (I n) o)
        | .loc => .ok (assignLocal s (I n) o)
        | .var => .ok (assignVar s (I n) o)) = .ok (s', o') ∧ Post I W s0 a s r st' a s' o')
    (h : (ev (.expr e)).andThen put st = some (r, st')) {s : St} (hr : Rep I W s0 a s st) (hf : s.flow = none) :
    ∃ a' s' o, Ev (fun k => assignment (exec (full I D) k) (modeOf m) (I n) (lower I W.toWords e) s) (s', o) ∧ Post I W s0 a s r st' a' s' o := by
  unfold assignment
  rw [tick_free hr.sandbox]
  simp only [Res.ok_bind]
  rcases andThen_some h with ⟨g, h1, rfl⟩ | ⟨v, st1, h1, h2⟩
  · obtain ⟨a1, s1, o, e1, p1⟩ := hE e _ _ _ h1 he a s hr hf
    exact ⟨a1, s1, nilO, Ev.bind e1 (Ev.of_eq fun _ => assign_pending (pending_of p1.res) _ _ _), p1.quiet (.refl _)⟩
  · obtain ⟨a1, s1, o, e1, p1⟩ := hE e _ _ _ h1 he a s hr hf
    obtain ⟨s2, o2, e2, p2⟩ := hput p1.rep p1.res.1 p1.res.2 h2
    exact ⟨a1, s2, o2, Ev.bind e1 (Ev.of_eq fun _ => e2), p2.before p1.ext⟩

/-- A block in the text. -/
theorem sim_literal {s : St} {st st' : State} {r : Except Sig V} {ps : List (List UInt8)} {b : List Spec.Node} (hr : Rep I W s0 a s st)
    (hf : s.flow = none) (h : Spec.Objects.add (.block ps b none false) st = some (r, st')) :
    ∃ a' v, r = .ok v ∧ Post I W s0 a s (.ok v) st' a' (newCode s (ps.map I) (lowerAll I W.toWords b)).1
      (newCode s (ps.map I) (lowerAll I W.toWords b)).2 := by
  obtain ⟨rfl, rfl⟩ := Prod.mk.inj (Option.some.inj h)
  obtain ⟨k1, k2, k3⟩ := hr.add (x := { val := .code (ps.map I) (lowerAll I W.toWords b), link := some codeP }) (ob := .block ps b none false)
    ⟨[], if_pos rfl, rfl⟩
  exact ⟨_, _, rfl, k1, k2, hf, k3⟩

/-- Expressions with one more step. -/
theorem sim_expr (hN : Names I W.toWords) (hD : ∀ t, D (I t) = some t) (hw : World I W s0) {k : Nat} (hE : SimE I W D s0 (Spec.Objects.exec W k))
    (hC : SimC I W D s0 (Spec.Objects.exec W k)) (hL : SimL I W D s0 (Spec.Objects.exec W k)) (hS : SimS I W D s0 (Spec.Objects.exec W k))
    {e : Spec.Node} {st st' : State}
    {r : Except Sig V} (h : Spec.Objects.expr W (Spec.Objects.exec W k) e st = some (r, st')) (he : few e = true) {s : St}
    (hr : Rep I W s0 a s st) (hf : s.flow = none) :
    ∃ a' s' o, Ev (fun n => expr (exec (full I D) n) (lower I W.toWords e) s) (s', o, false) ∧ Post I W s0 a s r st' a' s' o := by
  have qb := quiet_bump s
  have hb := hr.quiet qb
  have xb : Ext a s a (bump s) := quiet_ext qb
  unfold expr
  rw [tick_free hr.sandbox]
  simp only [Res.ok_bind]
  show ∃ a' s' o, Ev (fun n => _) (s', o, false) ∧ Post I W s0 a s r st' a' s' o
  cases e with
  | num t =>
    obtain ⟨v, h1, rfl, rfl⟩ := lift_some h
    obtain ⟨z, h2, rfl⟩ := Option.map_eq_some_iff.1 h1
    have q := qb.trans (Program.quiet_alloc (bump s) { val := .num z, link := some numP })
    simp only [lower, numberOf_literal h2]
    exact ⟨a, (newNum (bump s) z).1, (newNum (bump s) z).2, Ev.pure _, hr.quiet q, quiet_ext q, hf, holds_newNum _ _⟩
  | str t =>
    obtain ⟨rfl, rfl⟩ := ret_some h
    have q := qb.trans (Program.quiet_alloc (bump s) { val := .str (I t), link := some strP })
    simp only [lower]
    exact ⟨a, (newStr (bump s) (I t)).1, (newStr (bump s) (I t)).2, Ev.pure _, hr.quiet q, quiet_ext q, hf, holds_newStr _ _⟩
  | ref m n =>
    match m, h with
    | 0, h =>
      obtain ⟨s', o, h2, p, _⟩ := sim_fetch hb hf h
      refine ⟨a, s', o, Ev.of_eq fun _ => ?_, p.before xb⟩
      simp only [lower, show Interp.find { s with evals := s.evals + 1 } (I n) = _ from h2, Nat.zero_ne_one, decide_false,
        Bool.false_eq_true, if_false]
    | 1, h =>
      obtain ⟨s', o, h2, p, _⟩ := sim_own hN hb hf h
      refine ⟨a, s', o, Ev.of_eq fun _ => ?_, p.before xb⟩
      simp only [lower, show Interp.findMy { s with evals := s.evals + 1 } (I n) = _ from h2, decide_true, if_true]
    | m + 2, h => cases h
  | block ps b =>
    obtain ⟨a1, v, rfl, p⟩ := sim_literal hb hf h
    simp only [lower]
    exact ⟨a1, (newCode (bump s) (ps.map I) (lowerAll I W.toWords b)).1, (newCode (bump s) (ps.map I) (lowerAll I W.toWords b)).2, Ev.pure _,
      p.before xb⟩
  | nested e =>
    obtain ⟨a1, s1, o, e1, p1⟩ := hE e _ _ _ h (by simpa only [few] using he) a (bump s) hb hf
    simp only [lower]
    exact ⟨a1, s1, o, e1, p1.before xb⟩
  | assign x e =>
    cases x with
    | ref m n =>
      simp only [few, Bool.true_and] at he
      simp only [lower]
      have key : ∃ a' s' o, Ev (fun k => assignment (exec (full I D) k) (modeOf m) (I n) (lower I W.toWords e) (bump s)) (s', o) ∧
          Post I W s0 a (bump s) r st' a' s' o := by
        match m, h with
        | 0, h =>
          refine sim_assign hE he (Spec.Objects.store n) (fun {a s st st' r o v} hr hf hv hp => ?_) h hb hf
          unfold Spec.Objects.store at hp
          split at hp
          · rename_i fs h1
            obtain ⟨rfl, rfl⟩ := ret_some hp
            obtain ⟨s', e1, r1, x1, f1⟩ := hr.assign hN.inj hf hv h1
            exact ⟨s', o, by rw [modeOf_zero]; exact congrArg Res.ok e1, r1, x1, f1, hv.ext x1⟩
          · rename_i h1
            obtain ⟨rfl, rfl⟩ := fail_some hp
            exact ⟨_, _, by rw [modeOf_zero]; exact congrArg Res.ok (hr.unassigned hN.inj hf hv h1), hr.fails _ _⟩
        | 1, h =>
          refine sim_assign hE he (Spec.Objects.ownStore W n) (fun {a s st st' r o v} hr hf hv hp => ?_) h hb hf
          obtain ⟨s', o', e1, p1⟩ := sim_ownStore hN hr hf hv hp
          exact ⟨s', o', congrArg Res.ok e1, p1⟩
        | 2, h =>
          refine sim_assign hE he (Spec.Objects.make n) (fun {a s st st' r o v} hr hf hv hp => ?_) h hb hf
          unfold Spec.Objects.make at hp
          split at hp
          · rename_i fs h1
            obtain ⟨rfl, rfl⟩ := ret_some hp
            obtain ⟨s', e1, r1, x1, f1⟩ := hr.declare hN.inj hf hv h1
            exact ⟨s', o, by rw [modeOf_two]; exact congrArg Res.ok e1, r1, x1, f1, hv.ext x1⟩
          · cases hp
        | m + 3, h => cases h
      obtain ⟨a', s', o, e1, p1⟩ := key
      exact ⟨a', s', o, Ev.bind e1 (.pure _), p1.before xb⟩
    | _ => cases h
  | msg x ms =>
    simp only [few, Bool.and_eq_true] at he
    simp only [lower]
    have key : ∃ a' s' o, Ev (fun k => message (exec (full I D) k) (lower I W.toWords x) (lowerMsgs I W.toWords ms) (bump s)) (s', o) ∧
        Post I W s0 a (bump s) r st' a' s' o := by
      unfold message
      rw [tick_free (s := bump s) hr.sandbox]
      simp only [Res.ok_bind]
      cases k with
      | zero => cases h
      | succ k =>
        have h : M.andThen (Spec.Objects.exec W (k + 1) (.expr x)) (fun v => Spec.Objects.chain W (Spec.Objects.exec W (k + 1)) v ms) st =
          some (r, st') := h
        cases x with
        | ref m n =>
          have named : ∀ {r1 : Except Sig V} {st1 : State} {s1 : St} {o1 : Nat}, Post I W s0 a (bump s) r1 st1 a s1 o1 →
              (∀ g, r1 = .error g → realFlow s1.flow = true) →
              Spec.Objects.exec W (k + 1) (.expr (.ref m n)) st = some (r1, st1) →
              ∃ a' s' o, Ev (fun k => if realFlow s1.flow = true then Res.ok (s1, nilO) else
                chain (exec (full I D) k) false o1 (lowerMsgs I W.toWords ms) s1) (s', o) ∧ Post I W s0 a (bump s) r st' a' s' o := by
            intro r1 st1 s1 o1 p1 hg h0
            rcases andThen_some h with ⟨g, h1, rfl⟩ | ⟨v, st2, h1, h2⟩
            · rw [h0] at h1
              obtain ⟨rfl, rfl⟩ := Prod.mk.inj (Option.some.inj h1)
              refine ⟨a, s1, nilO, ?_, p1.quiet (.refl _)⟩
              simp only [hg _ rfl, if_true]
              exact .pure _
            · rw [h0] at h1
              obtain ⟨rfl, rfl⟩ := Prod.mk.inj (Option.some.inj h1)
              obtain ⟨a2, s2, o2, e2, p2⟩ := sim_chain hw hN.inj hD hE hC hL hS ms false _ _ _ _ h2 he.2 a s1 o1 p1.rep p1.res.1 p1.res.2
              refine ⟨a2, s2, o2, ?_, p2.before p1.ext⟩
              have hfl : realFlow s1.flow = false := by rw [p1.res.1]; rfl
              simp only [hfl, Bool.false_eq_true, if_false]
              exact e2
          have h1 : ∃ r1 st1, Spec.Objects.exec W (k + 1) (.expr (.ref m n)) st = some (r1, st1) := by
            rcases andThen_some h with ⟨g, h1, _⟩ | ⟨v, st2, h1, _⟩
            · exact ⟨_, _, h1⟩
            · exact ⟨_, _, h1⟩
          obtain ⟨r1, st1, h1⟩ := h1
          rcases m with _ | _ | m
          · obtain ⟨s1, o1, h2, p1, hg⟩ := sim_fetch hb hf (show Spec.Objects.fetch n st = _ from h1)
            simp only [lower, h2, Nat.zero_ne_one, decide_false, Bool.false_eq_true, if_false]
            exact named p1 hg h1
          · obtain ⟨s1, o1, h2, p1, hg⟩ := sim_own hN hb hf (show Spec.Objects.ownVariable W n st = _ from h1)
            simp only [lower, h2, Nat.zero_add, decide_true, if_true]
            exact named p1 hg h1
          · cases h1
        | num t =>
          rcases andThen_some h with ⟨g, h1, rfl⟩ | ⟨v, st1, h1, h2⟩
          · obtain ⟨v, h3, h4, rfl⟩ := lift_some h1
            cases h4
          · obtain ⟨v, h3, h4, rfl⟩ := lift_some h1
            cases h4
            obtain ⟨z, h5, rfl⟩ := Option.map_eq_some_iff.1 h3
            have q := Program.quiet_alloc (bump s) { val := .num z, link := some numP }
            obtain ⟨a1, s1, o1, e1, p1⟩ := sim_chain hw hN.inj hD hE hC hL hS ms true _ _ _ _ h2 he.2 a (newNum (bump s) z).1
              (newNum (bump s) z).2 (hb.quiet q) hf (holds_newNum _ _)
            simp only [lower, numberOf_literal h5]
            exact ⟨a1, s1, o1, e1, p1.before (quiet_ext q)⟩
        | str t =>
          rcases andThen_some h with ⟨g, h1, rfl⟩ | ⟨v, st1, h1, h2⟩
          · cases (ret_some h1).1
          · obtain ⟨h3, rfl⟩ := ret_some h1
            cases h3
            have q := Program.quiet_alloc (bump s) { val := .str (I t), link := some strP }
            obtain ⟨a1, s1, o1, e1, p1⟩ := sim_chain hw hN.inj hD hE hC hL hS ms true _ _ _ _ h2 he.2 a (newStr (bump s) (I t)).1
              (newStr (bump s) (I t)).2 (hb.quiet q) hf (holds_newStr _ _)
            simp only [lower]
            exact ⟨a1, s1, o1, e1, p1.before (quiet_ext q)⟩
        | block ps b =>
          rcases andThen_some h with ⟨g, h1, rfl⟩ | ⟨v, st1, h1, h2⟩
          · obtain ⟨_, v, h3, _⟩ := sim_literal hb hf h1
            cases h3
          · obtain ⟨a1, v1, h3, p⟩ := sim_literal hb hf h1
            cases h3
            obtain ⟨a2, s2, o2, e2, p2⟩ := sim_chain hw hN.inj hD hE hC hL hS ms true _ _ _ _ h2 he.2 a1
              (newCode (bump s) (ps.map I) (lowerAll I W.toWords b)).1 (newCode (bump s) (ps.map I) (lowerAll I W.toWords b)).2 p.rep p.res.1 p.res.2
            simp only [lower]
            exact ⟨a2, s2, o2, e2, p2.before p.ext⟩
        | nested e =>
          simp only [lower]
          rcases andThen_some h with ⟨g, h1, rfl⟩ | ⟨v, st1, h1, h2⟩
          · obtain ⟨a1, s1, o1, e1, p1⟩ := hE _ _ _ _ h1 he.1.2 a (bump s) hb hf
            obtain ⟨s2, o2, e2, p2⟩ := p1.chain (D := D) he.2 true o1
            refine ⟨a1, s2, o2, Ev.bind (f := fun n => exec (full I D) n (.expr (.nested (lower I W.toWords e))) (bump s)) (a := (s1, o1, false)) ?_ e2, p2⟩
            exact e1.congr fun n => by simp only [lower]
          · obtain ⟨a1, s1, o1, e1, p1⟩ := hE _ _ _ _ h1 he.1.2 a (bump s) hb hf
            obtain ⟨a2, s2, o2, e2, p2⟩ := sim_chain hw hN.inj hD hE hC hL hS ms true _ _ _ _ h2 he.2 a1 s1 o1 p1.rep p1.res.1 p1.res.2
            refine ⟨a2, s2, o2, Ev.bind (f := fun n => exec (full I D) n (.expr (.nested (lower I W.toWords e))) (bump s)) (a := (s1, o1, false)) ?_ e2,
              p2.before p1.ext⟩
            exact e1.congr fun n => by simp only [lower]
        | _ =>
          rcases andThen_some h with ⟨g, h1, rfl⟩ | ⟨v, fs1, h1, h2⟩
          · first | cases h1 | simp only [Spec.Program.receiver, Bool.false_eq_true, false_and] at he
          · first | cases h1 | simp only [Spec.Program.receiver, Bool.false_eq_true, false_and] at he
    obtain ⟨a', s', o, e1, p1⟩ := key
    exact ⟨a', s', o, Ev.bind e1 (.pure _), p1.before xb⟩
  | _ => cases h

/-! ### Statements and blocks -/

/-- The result of statements that ended in `s`. -/
def Ended (I : List UInt8 → Name) (a : List Nat) (s : St) (o : Option Nat) : Except Sig (Option V) → Prop
  | .ok none => s.flow = none ∧ o = none
  | .ok (some v) => s.flow = none ∧ ∃ x, o = some x ∧ Holds I a s.obj s.fresh x v
  | .error g => FlowIs I s g

/-- Statements. -/
theorem sim_stmts {ev : Spec.Objects.Task → M V} (hE : SimE I W D s0 ev) : ∀ (es : List Spec.Node) (st st' : State)
    (r : Except Sig (Option V)), Spec.Objects.stmts ev es st = some (r, st') → fewStmts es = true → ∀ a s, Rep I W s0 a s st → s.flow = none →
    ∃ a' s' o, Ev (fun n => runList (exec (full I D) n) (lowerAll I W.toWords es) s) (s', o) ∧ Rep I W s0 a' s' st' ∧ Ext a s a' s' ∧
      Ended I a' s' o r
  | [], st, st', r, h, _, a, s, hr, hf => by
    obtain ⟨rfl, rfl⟩ := ret_some h
    exact ⟨a, s, none, by simp only [lowerAll, runList]; exact Ev.pure _, hr, .refl a s, hf, rfl⟩
  | e :: es, st, st', r, h, hw, a, s, hr, hf => by
    simp only [lowerAll, runList]
    have key : (∃ x, e = .ret x ∧ few x = true ∧ fewStmts es = true) ∨ (few e = true ∧ fewStmts es = true ∧
        (ev (.expr e)).andThen (fun _ => Spec.Objects.stmts ev es) st = some (r, st')) := by
      cases e <;> simp_all [fewStmts, Spec.Objects.stmts]
    rcases key with ⟨x, rfl, hx, hes⟩ | ⟨hx, hes, h⟩
    · have q := quiet_bump s
      have xq : Ext a s a (bump s) := quiet_ext q
      have key2 : ∀ {s1 : St} {o : Nat}, Ev (fun n => exec (full I D) n (.expr (lower I W.toWords x)) (bump s)) (s1, o, false) →
          Ev (fun n => exec (full I D) n (.expr (lower I W.toWords (.ret x))) s >>= fun a => if a.2.2 = true then Res.ok (a.1, some a.2.1)
            else runList (exec (full I D) n) (lowerAll I W.toWords es) a.1) (s1, some o) := by
        intro s1 o h1
        refine Ev.bind (a := (s1, o, true)) ?_ (by simp only [if_true]; exact .pure _)
        refine Ev.succ (g := fun n => expr (exec (full I D) n) (lower I W.toWords (.ret x)) s) ?_ fun _ => rfl
        simp only [lower, expr, tick_free hr.sandbox, Res.ok_bind]
        simp only [show tick { s with evals := s.evals + 1 } = _ from tick_free (s := bump s) hr.sandbox, Res.ok_bind]
        exact Ev.bind h1 (.pure _)
      rcases andThen_some h with ⟨g, h1, rfl⟩ | ⟨v, st1, h1, h2⟩
      · obtain ⟨a1, s1, o, e1, p1⟩ := hE x _ _ _ h1 hx a (bump s) (hr.quiet q) hf
        exact ⟨a1, s1, some o, key2 e1, p1.rep, xq.trans p1.ext, p1.res⟩
      · obtain ⟨rfl, rfl⟩ := ret_some h2
        obtain ⟨a1, s1, o, e1, p1⟩ := hE x _ _ _ h1 hx a (bump s) (hr.quiet q) hf
        exact ⟨a1, s1, some o, key2 e1, p1.rep, xq.trans p1.ext, p1.res.1, o, rfl, p1.res.2⟩
    · rcases andThen_some h with ⟨g, h1, rfl⟩ | ⟨v, st1, h1, h2⟩
      · obtain ⟨a1, s1, o, e1, p1⟩ := hE e _ _ _ h1 hx a s hr hf
        obtain ⟨s2, r2, e2, q2⟩ := silent_stmts (I := I) (W := W.toWords) (env := full I D) es s1 hes p1.rep.sandbox (pending_of p1.res)
        exact ⟨a1, s2, r2, Ev.bind e1 (by simp only [Bool.false_eq_true, if_false]; exact e2), p1.rep.quiet q2, p1.ext.trans (quiet_ext q2),
          FlowIs.quiet p1.res q2⟩
      · obtain ⟨a1, s1, o, e1, p1⟩ := hE e _ _ _ h1 hx a s hr hf
        obtain ⟨a2, s2, r2, e2, i2, x2, f2⟩ := sim_stmts hE es _ _ _ h2 hes a1 s1 p1.rep p1.res.1
        exact ⟨a2, s2, r2, Ev.bind e1 (by simp only [Bool.false_eq_true, if_false]; exact e2), i2, p1.ext.trans x2, f2⟩

/-- The parameters of a block. -/
theorem sim_params (hI : Function.Injective I) : ∀ (ps : List (List UInt8)) (as : List V) (os xs : List Nat) (f : Frame) (fs : List Frame)
    (st : State) (s : St), ps.length ≤ as.length → HoldsAll I a s.obj s.fresh os as → Rep I W s0 a s { st with frames := f :: fs } → s.flow = none →
    ∃ s', bindParams s (ps.map I) (os ++ xs) = s' ∧
      Rep I W s0 a s' { st with frames := (ps.zip as).foldl (fun f p => upd f p.1 p.2) f :: fs } ∧ Ext a s a s' ∧ s'.flow = none
  | [], as, os, xs, f, fs, st, s, _, _, hr, hf => ⟨s, by cases os ++ xs <;> rfl, by simpa using hr, .refl _ s, hf⟩
  | p :: ps, [], _, _, _, _, _, _, hl, _, _, _ => by simp at hl
  | p :: ps, v :: as, os, xs, f, fs, st, s, hl, ho, hr, hf => by
    obtain ⟨o, os', rfl, h1, h2⟩ := holdsAll_cons ho
    obtain ⟨s1, e1, r1, x1, f1⟩ := hr.declare hI hf (k := p) h1 rfl
    obtain ⟨s2, e2, r2, x2, f2⟩ := sim_params hI ps as os' xs _ _ st s1 (by simpa using hl) (h2.ext x1) r1 f1
    refine ⟨s2, ?_, by simpa only [List.zip_cons_cons, List.foldl_cons] using r2, x1.trans x2, f2⟩
    rw [← e2, List.map_cons, List.cons_append]
    simp only [bindParams, e1]

/-- The variables at the start of a block. -/
theorem sim_entry (hN : Names I W.toWords) {ps : List (List UInt8)} {b bo : Nat} {as : List V} {me : Option V} {mo : Option Nat} {fs : List Frame}
    {st : State} {s : St} {os xs : List Nat} (hl : ps.length ≤ as.length) (ho : HoldsAll I a s.obj s.fresh os as) (hb : a[b]? = some bo)
    (hm : OptHolds I a s mo me) (hr : Rep I W s0 a s { st with frames := (fun _ => none) :: fs }) (hf : s.flow = none) :
    ∃ s', enter (ps.map I) (os ++ xs) mo bo s = s' ∧
      Rep I W s0 a s' { st with frames := Spec.Objects.entry W ps b as me :: fs } ∧ Ext a s a s' ∧ s'.flow = none := by
  obtain ⟨s1, e1, r1, x1, f1⟩ := sim_params hN.inj ps as os xs _ _ _ s hl ho hr hf
  unfold enter
  rw [e1]
  match me, mo, hm with
  | none, none, _ =>
    obtain ⟨s2, e2, r2, x2, f2⟩ := r1.declare hN.inj f1 (k := W.task) (v := .ref b) (o := bo) hb rfl
    rw [hN.task] at e2
    refine ⟨s2, ?_, r2, x1.trans x2, f2⟩
    simp only [e2]
  | some v, some m, hm =>
    have hm : Holds I a s.obj s.fresh m v := hm
    obtain ⟨s2, e2, r2, x2, f2⟩ := r1.declare hN.inj f1 (k := W.me) (hm.ext x1) rfl
    obtain ⟨s3, e3, r3, x3, f3⟩ := r2.declare hN.inj f2 (k := W.my) (hm.ext (x1.trans x2)) rfl
    obtain ⟨s4, e4, r4, x4, f4⟩ := r3.declare hN.inj f3 (k := W.task) (v := .ref b) (o := bo) hb rfl
    rw [hN.me] at e2
    rw [hN.my] at e3
    rw [hN.task] at e4
    refine ⟨s4, ?_, r4, ((x1.trans x2).trans x3).trans x4, f4⟩
    simp only [e2, e3, e4]

/-- Blocks with one more step. -/
theorem sim_enter (hN : Names I W.toWords) {ev : Spec.Objects.Task → M V} (hE : SimE I W D s0 ev) (hC : SimC I W D s0 ev) {b : Nat}
    {as : List V} {me : Option V} {st st' : State} {r : Except Sig V} (h : Spec.Objects.enter W ev b as me st = some (r, st'))
    {s : St} {bo : Nat} {os xs : List Nat} {mo : Option Nat} (hr : Rep I W s0 a s st) (hf : s.flow = none) (hb : a[b]? = some bo)
    (ho : HoldsAll I a s.obj s.fresh os as) (hm : OptHolds I a s mo me) :
    ∃ a' s' o, Ev (fun n => blockRun (exec (full I D) n) bo (os ++ xs) mo s) (s', o) ∧ Post I W s0 a s r st' a' s' o := by
  unfold Spec.Objects.enter at h
  split at h
  case h_2 => cases h
  case h_1 ps c hd bound hst =>
  split at h
  case isFalse => cases h
  case isTrue hc =>
  obtain ⟨hl, hps, hb'⟩ := hc
  obtain ⟨l, hlike, _⟩ := hr.store _ _ _ hst hb
  let s1 : St := { s with log := .block bo (os ++ xs) mo :: s.log }
  have q1 : Program.Quiet s s1 := ⟨rfl, rfl, rfl, rfl, rfl, rfl, Nat.le_refl _, fun _ _ => rfl⟩
  have xq1 : Ext a s a s1 := quiet_ext q1
  obtain ⟨s2, e2, r2, x2, f2⟩ := (hr.quiet q1).open hl
  have x12 := xq1.trans x2
  have hm2 : OptHolds I a s2 mo me := by
    match mo, me, hm with
    | none, none, _ => trivial
    | some o, some v, hm => exact Holds.ext hm x12
  obtain ⟨s3, e3, r3, x3, f3⟩ := sim_entry (xs := xs) hN hps (ho.ext x12) hb hm2 r2 (f2.trans hf)
  have x13 := x12.trans x3
  split at h
  case h_1 => cases h
  case h_2 r' st1 h1 =>
  split at h
  case h_2 => cases h
  case h_1 f0 f f' hfs =>
  obtain ⟨a4, s4, o, e4, r4, x4, f4⟩ := sim_stmts hE c _ _ _ h1 hb' a s3 r3 f3
  obtain ⟨r5, x5, f5, g5, k5⟩ := r4.close hfs
  have x15 := (x13.trans x4).trans x5
  have hb5 := x15.at hb
  have body : ∀ {a' : List Nat} {s' : St} {o' : Nat} {r : Except Sig V} {st' : State},
      Ev (fun n => handle (exec (full I D) n) bo (o.getD (mo.getD bo)) (closeCtx s4)) (s', o') → Post I W s0 a4 (closeCtx s4) r st' a' s' o' →
      ∃ a' s' o, Ev (fun n => blockRun (exec (full I D) n) bo (os ++ xs) mo s) (s', o) ∧ Post I W s0 a s r st' a' s' o := by
    intro a' s' o' r st' h1 h2
    refine ⟨a', s', o', ?_, h2.before x15⟩
    simp only [blockRun, show (s.obj bo).val = .code (ps.map I) (lowerAll I W.toWords c) by rw [hlike]]
    simp only [show openCtx { s with log := .block bo (os ++ xs) mo :: s.log } = _ from e2, Res.ok_bind, e3]
    exact Ev.bind e4 h1
  dsimp only at h
  split at h
  · rename_i v
    obtain ⟨rfl, rfl⟩ := Prod.mk.inj (Option.some.inj h)
    have hfl : (closeCtx s4).flow = none := by
      rw [f5]
      cases v with
      | none => exact f4.1
      | some v => exact f4.1
    refine body (a' := a4) (s' := closeCtx s4) (o' := o.getD (mo.getD bo)) (Ev.of_eq fun n => by simp only [handle, hfl]) ⟨r5, .refl _ _, hfl, ?_⟩
    cases v with
    | some v =>
      obtain ⟨_, x, rfl, h2⟩ := f4
      exact h2.ext x5
    | none =>
      obtain ⟨_, rfl⟩ := f4
      match me, mo, hm with
      | none, none, _ => exact hb5
      | some v, some m, hm => exact Holds.ext hm x15
  · rename_i t
    have hfl : FlowIs I (closeCtx s4) (.err t) := FlowIs.same f4 f5 g5 k5
    obtain ⟨e, hfe, he1, he2⟩ := hfl
    obtain ⟨ob, hst5, hlk5⟩ := r5.object hb5
    unfold Spec.Objects.rescue at h
    split at h
    · rename_i ps5 c5 hd5 bd5 hst6
      rw [show ob = .block ps5 c5 (some hd5) bd5 from Option.some.inj (hst5.symm.trans hst6)] at hlk5
      obtain ⟨l5, hl5, ho, hho, rfl⟩ := hlk5
      have hgp : getp ((closeCtx s4).obj bo).props nCatch = some ho := by rw [hl5]; simp only [getp, if_true]
      have hstr : ∃ k, (closeCtx s4).obj e = { val := .str k, link := some strP } := by
        cases t with
        | none => exact he2
        | some t => exact ⟨_, he2⟩
      obtain ⟨k, hk⟩ := hstr
      have hcast : ∀ ev, cast2string ev (flowObj (.err e)) (closeCtx s4) = .ok (closeCtx s4, e) := by
        intro ev
        simp only [cast2string, show flowObj (.err e) = e from rfl, hk]
      have hr6 : Rep I W s0 a4 { closeCtx s4 with flow := none } _ := r5.calm (.flow _ none)
      have hheld : HoldsAll I a4 (closeCtx s4).obj (closeCtx s4).fresh [e] [Spec.Objects.told t] := by
        cases t with
        | none => exact ⟨trivial, trivial⟩
        | some t => exact ⟨⟨he1, he2⟩, trivial⟩
      have run : ∀ {x : Except Sig V} {st2 : State} {o' : Nat} {s' : St} {a' : List Nat},
          Ev (fun n => exec (full I D) n (.block ho [e] none) { closeCtx s4 with flow := none }) (s', o', false) →
          Ev (fun n => handle (exec (full I D) n) bo (o.getD (mo.getD bo)) (closeCtx s4)) (s', bo) := by
        intro x st2 o' s' a' h1
        simp only [handle, hfe, hgp, hcast, Res.ok_bind]
        exact Ev.bind h1 (.pure _)
      rcases andThen_some h with ⟨g, h2, rfl⟩ | ⟨v, st2, h2, h3⟩
      · obtain ⟨a6, s6, o6, e6, p6⟩ := hC _ _ _ _ _ _ h2 a4 { closeCtx s4 with flow := none } ho [e] [] none hr6 rfl hho hheld trivial
        exact body (run (x := .error g) (st2 := st') (a' := a6) e6) ⟨p6.rep, (Calm.flow _ none).ext.trans p6.ext, p6.res⟩
      · obtain ⟨rfl, rfl⟩ := ret_some h3
        obtain ⟨a6, s6, o6, e6, p6⟩ := hC _ _ _ _ _ _ h2 a4 { closeCtx s4 with flow := none } ho [e] [] none hr6 rfl hho hheld trivial
        have x6 : Ext a4 (closeCtx s4) a6 s6 := (Calm.flow _ none).ext.trans p6.ext
        exact body (run (x := .ok v) (st2 := st') (a' := a6) e6) ⟨p6.rep, x6, p6.res.1, x6.at hb5⟩
    · rename_i ps5 c5 bd5 hst6
      obtain ⟨rfl, rfl⟩ := Prod.mk.inj (Option.some.inj h)
      rw [show ob = .block ps5 c5 none bd5 from Option.some.inj (hst5.symm.trans hst6)] at hlk5
      obtain ⟨l5, hl5, rfl⟩ := hlk5
      have hgp : getp ((closeCtx s4).obj bo).props nCatch = none := by rw [hl5]; rfl
      exact body (a' := a4) (s' := closeCtx s4) (o' := o.getD (mo.getD bo)) (Ev.of_eq fun n => by simp only [handle, hfe, hgp])
        ⟨r5, .refl _ _, e, hfe, he1, he2⟩
    · cases h
  · rename_i g hg
    obtain ⟨rfl, rfl⟩ := Prod.mk.inj (Option.some.inj h)
    have hfl : FlowIs I (closeCtx s4) g := FlowIs.same f4 f5 g5 k5
    refine body (a' := a4) (s' := closeCtx s4) (o' := o.getD (mo.getD bo)) (Ev.of_eq fun n => ?_) ⟨r5, .refl _ _, hfl⟩
    cases g with
    | brk => simp only [handle, show (closeCtx s4).flow = _ from hfl]
    | cont => simp only [handle, show (closeCtx s4).flow = _ from hfl]
    | err t => exact (hg t rfl).elim

/-- An error is an error of the interpreter. -/
theorem FlowIs.weaken {s : St} {t : Option (List UInt8)} (h : FlowIs I s (.err t)) : FlowIs I s (.err none) := by
  obtain ⟨e, h1, h2, h3⟩ := h
  refine ⟨e, h1, h2, ?_⟩
  cases t with
  | none => exact h3
  | some t => exact ⟨_, h3⟩

/-- Loops with one more step. -/
theorem sim_loop (hw : World I W s0) {ev : Spec.Objects.Task → M V} (hC : SimC I W D s0 ev) (hL : SimL I W D s0 ev) {b c : Nat}
    {st st' : State} {r : Except Sig V} (h : Spec.Objects.loop ev b c st = some (r, st')) {s : St} {bo co : Nat} (xs : List Nat)
    (hr : Rep I W s0 a s st) (hf : s.flow = none) (hb : a[b]? = some bo) (hc : a[c]? = some co) :
    ∃ a' s', Ev (fun n => whileRound (exec (full I D) n) bo co xs s) (s', bo, false) ∧ Rep I W s0 a' s' st' ∧ Ext a s a' s' ∧ Looped I s' b r := by
  have := hw.size
  unfold Spec.Objects.loop at h
  simp only [whileRound, hf, Option.isSome_none, Bool.false_eq_true, if_false]
  have cond : ∀ {t : Bool} {st1 : State}, ev (.call c [] none) st = some (.ok (.bool t), st1) →
      ∃ a1 s1 o, Ev (fun n => exec (full I D) n (.block co xs none) s) (s1, o, false) ∧ Rep I W s0 a1 s1 st1 ∧ Ext a s a1 s1 ∧ s1.flow = none ∧
        ∀ ev, cast2bool ev o s1 = .ok (s1, t) := by
    intro t st1 h1
    obtain ⟨a1, s1, o, e1, p1⟩ := hC _ _ _ _ _ _ h1 a s co [] xs none hr hf hc trivial trivial
    refine ⟨a1, s1, o, e1, p1.rep, p1.ext, p1.res.1, fun ev => ?_⟩
    have ho : o = if t then trueO else falseO := p1.res.2
    simp only [cast2bool, ho, p1.rep.bools hw t]
  split at h
  · rename_i st1 h1
    obtain ⟨rfl, rfl⟩ := Prod.mk.inj (Option.some.inj h)
    obtain ⟨a1, s1, o, e1, r1, x1, f1, c1⟩ := cond h1
    refine ⟨a1, s1, Ev.bind e1 ?_, r1, x1, rfl, .inl f1⟩
    simp only [c1, Res.ok_bind, true_or, if_true]
    exact .pure _
  · rename_i st1 h1
    obtain ⟨a1, s1, o, e1, r1, x1, f1, c1⟩ := cond h1
    have hb1 := x1.at hb
    have hc1 := x1.at hc
    have go : ∀ {a2 : List Nat} {s2 s3 : St} {o2 : Nat},
        Ev (fun n => exec (full I D) n (.block bo ([] ++ xs) none) s1) (s2, o2, false) →
        Ev (fun n => exec (full I D) n (.loopWhile bo co xs) (eatCont s2)) (s3, bo, false) →
        Ev (fun n => exec (full I D) n (.block co xs none) s >>= fun a => cast2bool (exec (full I D) n) a.2.1 a.1 >>= fun b =>
          if b.2 = false ∨ b.1.flow.isSome = true then Res.ok (b.1, bo, false)
          else exec (full I D) n (.block bo xs none) b.1 >>= fun a => exec (full I D) n (.loopWhile bo co xs) (eatCont a.1)) (s3, bo, false) := by
      intro a2 s2 s3 o2 h2 h3
      refine Ev.bind e1 ?_
      simp only [c1, Res.ok_bind, f1, Option.isSome_none, Bool.false_eq_true, or_self, if_false, Bool.true_eq_false]
      exact Ev.bind h2 h3
    have stop : ∀ {s2 : St}, s2.flow.isSome = true → Ev (fun n => exec (full I D) n (.loopWhile bo co xs) s2) (s2, bo, false) := fun h =>
      Ev.succ (g := fun n => whileRound (exec (full I D) n) bo co xs _) (Ev.of_eq fun n => by simp only [whileRound, h, if_true]) fun _ => rfl
    split at h
    · cases h
    · rename_i st2 h2
      obtain ⟨rfl, rfl⟩ := Prod.mk.inj (Option.some.inj h)
      obtain ⟨a2, s2, o2, e2, p2⟩ := hC _ _ _ _ _ _ h2 a1 s1 bo [] xs none r1 f1 hb1 trivial trivial
      have f2 : s2.flow = some .brk := p2.res
      have hne : eatCont s2 = s2 := by
        unfold Interp.eatCont
        rw [f2]; exact if_neg fun h => nomatch h
      exact ⟨a2, s2, go (a2 := a2) e2 (by rw [hne]; exact stop (by rw [f2]; rfl)), p2.rep, x1.trans p2.ext, rfl, .inr f2⟩
    · rename_i t st2 h2
      obtain ⟨rfl, rfl⟩ := Prod.mk.inj (Option.some.inj h)
      obtain ⟨a2, s2, o2, e2, p2⟩ := hC _ _ _ _ _ _ h2 a1 s1 bo [] xs none r1 f1 hb1 trivial trivial
      obtain ⟨k1, _, k3⟩ := eatCont_err (I := I) p2.res
      exact ⟨a2, s2, go (a2 := a2) e2 (by rw [k1]; exact stop k3), p2.rep, x1.trans p2.ext, t, rfl, p2.res⟩
    · rename_i x st2 hx he h2
      obtain ⟨a2, s2, o2, e2, p2⟩ := hC _ _ _ _ _ _ h2 a1 s1 bo [] xs none r1 f1 hb1 trivial trivial
      obtain ⟨k1, k2, k3⟩ := p2.eatCont hx he
      have x2 := p2.ext.trans k2
      obtain ⟨a3, s3, e3, r3, x3, f3⟩ := hL _ _ _ _ _ h a2 (eatCont s2) bo co xs k1 k3 (x2.at hb1) (x2.at hc1)
      exact ⟨a3, s3, go (a2 := a2) e2 e3, r3, (x1.trans x2).trans x3, f3⟩
  · rename_i t st1 h1
    obtain ⟨rfl, rfl⟩ := Prod.mk.inj (Option.some.inj h)
    obtain ⟨a1, s1, o, e1, p1⟩ := hC _ _ _ _ _ _ h1 a s co [] xs none hr hf hc trivial trivial
    have fl := (eatCont_err (I := I) p1.res).2.2
    have hnil : (s1.obj nilO).val = .nil := by
      rw [p1.rep.low nilO (show 0 < _ by omega) (by decide)]; exact hw.nothing
    have cast : ∃ s2 t, Ev (fun n => cast2bool (exec (full I D) n) o s1) (s2, t) ∧ Rep I W s0 a1 s2 st1 ∧ Ext a1 s1 a1 s2 ∧ FlowIs I s2 (.err none) := by
      by_cases hbv : ∃ x, (s1.obj o).val = .bool x
      · obtain ⟨x, hbv⟩ := hbv
        exact ⟨s1, x, Ev.of_eq fun n => by simp only [cast2bool, hbv], p1.rep, .refl _ _, FlowIs.weaken p1.res⟩
      · refine ⟨raise s1 eRbool, false, ?_, p1.rep.calm (.raise _ _), (Calm.raise _ _).ext, FlowIs.raise _ _⟩
        unfold cast2bool
        split
        · rename_i x hx
          exact absurd ⟨x, hx⟩ hbv
        · refine Ev.bind (send_pending (pending_of (show FlowIs I s1 (.err t) from p1.res)) o nToBool [nilO]) (Ev.of_eq fun n => ?_)
          simp only [hnil]
    obtain ⟨s2, t2, e2, r2, x2, f2⟩ := cast
    refine ⟨a1, s2, Ev.bind e1 (Ev.bind e2 ?_), r2, p1.ext.trans x2, none, rfl, f2⟩
    simp only [(eatCont_err f2).2.2, or_true, if_true]
    exact .pure _
  · cases h

/-- A loop over a sequence with one more step. -/
theorem sim_each {ev : Spec.Objects.Task → M V} (hC : SimC I W D s0 ev) (hS : SimS I W D s0 ev) {q b i : Nat}
    {st st' : State} {r : Except Sig V} (h : Spec.Objects.each ev q b i st = some (r, st')) {s : St} {qo bo : Nat}
    (hr : Rep I W s0 a s st) (hf : s.flow = none) (hq : a[q]? = some qo) (hb : a[b]? = some bo) :
    ∃ a' s', Ev (fun n => eachRound (exec (full I D) n) qo bo i s) (s', qo, false) ∧ Rep I W s0 a' s' st' ∧ Ext a s a' s' ∧ Looped I s' q r := by
  unfold Spec.Objects.each at h
  split at h
  case h_2 => cases h
  case h_1 l hst =>
  obtain ⟨lo, hl1, hl2⟩ := hr.store _ _ _ hst hq
  have hv : (s.obj qo).val = .arr lo := by rw [hl1]
  split at h
  · rename_i hn
    obtain ⟨rfl, rfl⟩ := Prod.mk.inj (Option.some.inj h)
    have hn' : lo[i]? = none := by rw [List.getElem?_eq_none_iff, hl2.length, ← List.getElem?_eq_none_iff]; exact hn
    exact ⟨a, s, Ev.of_eq fun n => by simp only [eachRound, hv, hn'], hr, .refl _ _, rfl, .inl hf⟩
  · rename_i v hi
    obtain ⟨x, hx1, hx2⟩ := hl2.at i v hi
    have qn : Program.Quiet s (newNum s (i + 1 : Nat)).1 := Program.quiet_alloc _ _
    have xn : Ext a s a (newNum s (i + 1 : Nat)).1 := quiet_ext qn
    have round : ∀ {y : Except Sig V} {st1 : State}, ev (.call b [.num (i + 1 : Nat), v, .ref q] none) st = some (y, st1) →
        ∃ a1 s1 o, Ev (fun n => exec (full I D) n (.block bo [(newNum s (i + 1 : Nat)).2, x, qo] none) (newNum s (i + 1 : Nat)).1) (s1, o, false) ∧
          Post I W s0 a s y st1 a1 s1 o := by
      intro y st1 h1
      obtain ⟨a1, s1, o, e1, p1⟩ := hC _ _ _ _ _ _ h1 a (newNum s (i + 1 : Nat)).1 bo [(newNum s (i + 1 : Nat)).2, x, qo] [] none (hr.quiet qn) hf
        hb ⟨holds_newNum _ _, hx2.ext xn, hq, trivial⟩ trivial
      exact ⟨a1, s1, o, e1, p1.before xn⟩
    simp only [eachRound, hv, hx1]
    split at h
    · cases h
    · rename_i st1 h1
      obtain ⟨rfl, rfl⟩ := Prod.mk.inj (Option.some.inj h)
      obtain ⟨a1, s1, o, e1, p1⟩ := round h1
      have hfl : s1.flow = some .brk := p1.res
      refine ⟨a1, s1, ?_, p1.rep, p1.ext, rfl, .inr hfl⟩
      refine Ev.bind e1 (Ev.of_eq fun n => ?_)
      have h2 : ¬ s1.flow = some .cont := by rw [hfl]; exact fun h => nomatch h
      simp only [Interp.eatCont, h2, if_false]
      rw [hfl]; rfl
    · rename_i t st1 h1
      obtain ⟨rfl, rfl⟩ := Prod.mk.inj (Option.some.inj h)
      obtain ⟨a1, s1, o, e1, p1⟩ := round h1
      refine ⟨a1, s1, ?_, p1.rep, p1.ext, t, rfl, p1.res⟩
      refine Ev.bind e1 (Ev.of_eq fun n => ?_)
      obtain ⟨k1, _, k3⟩ := eatCont_err (I := I) p1.res
      simp only [k1, k3, if_true]
    · rename_i y st1 hy he h1
      obtain ⟨a1, s1, o, e1, p1⟩ := round h1
      obtain ⟨k1, k2, k3⟩ := p1.eatCont hy he
      have x1 := p1.ext.trans k2
      obtain ⟨a2, s2, e2, r2, x2, f2⟩ := hS _ _ _ _ _ _ h a1 (Interp.eatCont s1) qo bo k1 k3 (x1.at hq) (x1.at hb)
      refine ⟨a2, s2, ?_, r2, x1.trans x2, f2⟩
      refine Ev.bind e1 ?_
      simp only [k3, Option.isSome_none, Bool.false_eq_true, if_false]
      exact e2

/-! ### Programs -/

/-- Everything the reference interpreter does is what the interpreter does. -/
theorem sim (hN : Names I W.toWords) (hD : ∀ t, D (I t) = some t) (hw : World I W s0) : ∀ k, SimE I W D s0 (Spec.Objects.exec W k) ∧
    SimC I W D s0 (Spec.Objects.exec W k) ∧ SimL I W D s0 (Spec.Objects.exec W k) ∧ SimS I W D s0 (Spec.Objects.exec W k)
  | 0 => ⟨fun _ _ _ _ h => (nomatch h), fun _ _ _ _ _ _ h => (nomatch h), fun _ _ _ _ _ h => (nomatch h), fun _ _ _ _ _ _ h => (nomatch h)⟩
  | k + 1 => by
    obtain ⟨hE, hC, hL, hS⟩ := sim hN hD hw k
    refine ⟨fun e st r st' h he a s hr hf => ?_, fun b as me st r st' h a s bo os xs mo hr hf hb ho hm => ?_,
      fun b c st r st' h a s bo co xs hr hf hb hc => ?_, fun q b i st r st' h a s qo bo hr hf hq hb => ?_⟩
    · obtain ⟨a', s', o, e1, p1⟩ := sim_expr hN hD hw hE hC hL hS h he hr hf
      exact ⟨a', s', o, e1.succ fun _ => rfl, p1⟩
    · obtain ⟨a', s', o, e1, p1⟩ := sim_enter (xs := xs) hN hE hC h hr hf hb ho hm
      refine ⟨a', s', o, Ev.succ (g := fun n => plain (blockRun (exec (full I D) n) bo (os ++ xs) mo s)) ?_ fun _ => rfl, p1⟩
      unfold plain
      exact Ev.bind e1 (.pure _)
    · obtain ⟨a', s', e1, p1⟩ := sim_loop hw hC hL h xs hr hf hb hc
      exact ⟨a', s', e1.succ fun _ => rfl, p1⟩
    · obtain ⟨a', s', e1, p1⟩ := sim_each hC hS h hr hf hq hb
      exact ⟨a', s', e1.succ fun _ => rfl, p1⟩

theorem World.rep (hw : World I W s0) : Rep I W s0 [] s0 (Spec.Objects.start W) where
  sandbox := hw.sandbox
  deser := hw.deser
  stack := by rw [hw.stack]; rfl
  recursion := by rw [hw.recursion]; rfl
  fresh := Nat.le_refl _
  low _ _ _ := rfl
  bottom := by rw [hw.ctxs]; rfl
  nodup := List.nodup_nil
  high := by simp
  apart := by simp
  length := rfl
  store := by simp
  scopes := by
    rw [hw.ctxs]
    have := hw.size
    exact ⟨⟨show 3 < _ by omega, hw.world, .inl rfl⟩, hw.globals, by simp, trivial⟩

/-- A program that ends. -/
theorem sim_program (hN : Names I W.toWords) (hD : ∀ t, D (I t) = some t) (hw : World I W s0) {es : List Spec.Node} {r : Except Sig Unit} {f : Frame}
    {l : List Ob} (hf : fewStmts es = true) (h : Spec.Objects.Ends W es r f l) :
    ∃ a s' o st, Ev (fun n => program (full I D) n (lowerAll I W.toWords es) s0) (s', o) ∧ Rep I W s0 a s' st ∧ st.frames = [f] ∧ st.store = l ∧
      match r with
      | .ok _ => s'.flow = none
      | .error g => FlowIs I s' g := by
  obtain ⟨k, x, st, h, rfl, h2, h3⟩ := h
  obtain ⟨a, s', o, e1, r1, _, f1⟩ := sim_stmts (sim hN hD hw k).1 es _ _ _ h hf [] s0 hw.rep hw.flow
  refine ⟨a, s', o, st, e1, r1, h2, h3, ?_⟩
  match x with
  | .ok none => exact f1.1
  | .ok (some v) => exact f1.1
  | .error g => exact f1

end Verif.Model.Objects
