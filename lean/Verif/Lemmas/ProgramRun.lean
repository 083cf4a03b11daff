import Verif.Lemmas.ProgramSim

/-!
# Lemmas: messages, blocks and loops do what the reference interpreter does
-/

namespace Verif.Model.Program
open Verif.Model.Interp
open Verif.Spec.Program (Words V Frame Sig M few fewMsgs fewArgs fewStmts)

variable {I : List UInt8 → Name} {W : Words} {s0 : St}

/-- Expressions are simulated. -/
def SimE (I : List UInt8 → Name) (W : Words) (s0 : St) (ev : Spec.Program.Task → M V) : Prop :=
  ∀ e fs r fs', ev (.expr e) fs = some (r, fs') → few e = true → ∀ s, Rep I W s0 s fs → s.flow = none →
    ∃ s' o, Ev (fun n => exec arith n (.expr (lower I W e)) s) (s', o, false) ∧ Post I W s0 s r fs' s' o

/-- Blocks are simulated. -/
def SimC (I : List UInt8 → Name) (W : Words) (s0 : St) (ev : Spec.Program.Task → M V) : Prop :=
  ∀ ps b as me fs r fs', ev (.call ps b as me) fs = some (r, fs') → ∀ s bo os xs, Rep I W s0 s fs → s.flow = none →
    Holds I W s bo (.code ps b) → HoldsAll I W s os as →
    ∃ s' o, Ev (fun n => exec arith n (.block bo (os ++ xs) (if me then some bo else none)) s) (s', o, false) ∧
      Post I W s0 s r fs' s' o

/-- Loops are simulated. -/
def SimL (I : List UInt8 → Name) (W : Words) (s0 : St) (ev : Spec.Program.Task → M V) : Prop :=
  ∀ b c fs r fs', ev (.loop b c) fs = some (r, fs') → ∀ s bo co xs, Rep I W s0 s fs → s.flow = none →
    Holds I W s bo (.code [] b) → Holds I W s co (.code [] c) →
    r = .ok (.code [] b) ∧ ∃ s', Ev (fun n => exec arith n (.loopWhile bo co xs) s) (s', bo, false) ∧ Rep I W s0 s' fs' ∧ Ext s s' ∧
      (s'.flow = none ∨ s'.flow = some .brk)

/-! ### The reference interpreter -/

theorem andThen_some {α β : Type} {m : M α} {f : α → M β} {fs : List Frame} {r : Except Sig β} {fs' : List Frame}
    (h : m.andThen f fs = some (r, fs')) :
    (∃ g, m fs = some (.error g, fs') ∧ r = .error g) ∨ ∃ a fs1, m fs = some (.ok a, fs1) ∧ f a fs1 = some (r, fs') := by
  unfold M.andThen at h
  split at h
  · cases h
  · rename_i g fs1 e
    obtain ⟨rfl, rfl⟩ := Prod.mk.inj (Option.some.inj h)
    exact .inl ⟨g, e, rfl⟩
  · rename_i a fs1 e
    exact .inr ⟨a, fs1, e, h⟩

theorem lift_some {α : Type} {a : Option α} {fs : List Frame} {r : Except Sig α} {fs' : List Frame}
    (h : M.lift a fs = some (r, fs')) : ∃ x, a = some x ∧ r = .ok x ∧ fs' = fs := by
  unfold M.lift at h
  split at h
  · cases h
  · rename_i x
    obtain ⟨rfl, rfl⟩ := Prod.mk.inj (Option.some.inj h)
    exact ⟨x, rfl, rfl, rfl⟩

theorem ret_some {α : Type} {a : α} {fs : List Frame} {r : Except Sig α} {fs' : List Frame}
    (h : M.ret a fs = some (r, fs')) : r = .ok a ∧ fs' = fs := by
  obtain ⟨rfl, rfl⟩ := Prod.mk.inj (Option.some.inj h)
  exact ⟨rfl, rfl⟩

/-! ### Arguments -/

theorem sim_args {ev : Spec.Program.Task → M V} (hE : SimE I W s0 ev) : ∀ (es : List Spec.Node) (keys : Nat) (fs : List Frame)
    (r : Except Sig (List V)) (fs' : List Frame), Spec.Program.args ev es fs = some (r, fs') → fewArgs es = true →
    keys + es.length < 40 → ∀ s, Rep I W s0 s fs → s.flow = none →
    ∃ s' os, Ev (fun n => evalArgs (exec arith n) keys (lowerAll I W es) s) (s', os) ∧ Rep I W s0 s' fs' ∧ Ext s s' ∧
      match r with
      | .ok vs => s'.flow = none ∧ HoldsAll I W s' os vs
      | .error g => s'.flow = some (flowOf g)
  | [], keys, fs, r, fs', h, _, _, s, hr, hf => by
    obtain ⟨rfl, rfl⟩ := ret_some h
    exact ⟨s, [], Ev.pure _, hr, .refl s, hf, trivial⟩
  | e :: es, keys, fs, r, fs', h, hw, hk, s, hr, hf => by
    simp only [fewArgs, Bool.and_eq_true] at hw
    simp only [List.length_cons] at hk
    have hk' : ¬ keys + 1 ≥ 40 := by omega
    simp only [lowerAll, evalArgs]
    rcases andThen_some h with ⟨g, h1, rfl⟩ | ⟨v, fs1, h1, h2⟩
    · obtain ⟨s1, o, e1, p1⟩ := hE e _ _ _ h1 hw.1 s hr hf
      obtain ⟨hl, hs⟩ := silentArgs (I := I) (W := W) (env := arith) es (Nat.le_refl _) hw.2
      obtain ⟨s2, os, e2, q2⟩ := silent_args (lowerAll I W es) (keys + 1) s1 hs (by omega) p1.rep.sandbox (pending_of p1.res)
      refine ⟨s2, o :: os, Ev.bind e1 ?_, p1.rep.quiet q2, p1.ext.trans q2.ext, q2.flow.trans p1.res⟩
      simp only [hk', if_false]
      exact Ev.bind e2 (.pure _)
    · obtain ⟨s1, o, e1, p1⟩ := hE e _ _ _ h1 hw.1 s hr hf
      rcases andThen_some h2 with ⟨g, h3, rfl⟩ | ⟨vs, fs2, h3, h4⟩
      · obtain ⟨s2, os, e2, r2, x2, f2⟩ := sim_args hE es (keys + 1) fs1 _ fs' h3 hw.2 (by omega) s1 p1.rep p1.res.1
        refine ⟨s2, o :: os, Ev.bind e1 ?_, r2, p1.ext.trans x2, f2⟩
        simp only [hk', if_false]
        exact Ev.bind e2 (.pure _)
      · obtain ⟨rfl, rfl⟩ := ret_some h4
        obtain ⟨s2, os, e2, r2, x2, f2⟩ := sim_args hE es (keys + 1) fs1 _ fs' h3 hw.2 (by omega) s1 p1.rep p1.res.1
        refine ⟨s2, o :: os, Ev.bind e1 ?_, r2, p1.ext.trans x2, f2.1, p1.res.2.ext x2, f2.2⟩
        simp only [hk', if_false]
        exact Ev.bind e2 (.pure _)

/-! ### Messages to numbers, Booleans and blocks -/

variable (hw : World I W s0)
include hw

theorem Rep.bools {s : St} {fs : List Frame} (h : Rep I W s0 s fs) (b : Bool) :
    s.obj (if b then trueO else falseO) = { val := .bool b, link := some boolP } := by
  have := hw.size
  cases b
  · rw [← hw.no]; exact h.low falseO (by show 2 < _; omega) (by decide)
  · rw [← hw.yes]; exact h.low trueO (by show 1 < _; omega) (by decide)

theorem Rep.numKnows {s : St} {fs : List Frame} (h : Rep I W s0 s fs) {p : Text × Native} (hp : p ∈ numOps W) :
    Knows s numP (I p.1) p.2 :=
  have := hw.size
  h.knows (show 7 < _ by omega) (by decide) (hw.numbers p hp)

theorem Rep.boolKnows {s : St} {fs : List Frame} (h : Rep I W s0 s fs) {p : Text × Native} (hp : p ∈ boolOps W) :
    Knows s boolP (I p.1) p.2 :=
  have := hw.size
  h.knows (show 12 < _ by omega) (by decide) (hw.booleans p hp)

theorem Rep.codeKnows {s : St} {fs : List Frame} (h : Rep I W s0 s fs) {p : Text × Native} (hp : p ∈ codeOps W) :
    Knows s codeP (I p.1) p.2 :=
  have := hw.size
  h.knows (show 5 < _ by omega) (by decide) (hw.blocks p hp)

omit hw in
theorem holds_logged {s : St} {o : Nat} {v : V} (h : Holds I W s o v) (hr : s.recursion = none) (g : Native) (r : Nat) (as : List Nat) :
    Holds I W (logged s g r as) o v := h.ext (quiet_logged hr g r as).ext

/-- The answer of a message to a number. -/
theorem sim_number {a : Int} {sel : List UInt8} {vs : List V} {v : V} (h : Spec.Program.number W a sel vs = some v)
    {s : St} {fs : List Frame} {r : Nat} {os : List Nat} (hr : Rep I W s0 s fs) (hf : s.flow = none)
    (ha : Holds I W s r (.num a)) (ho : HoldsAll I W s os vs) :
    ∃ s' o, Ev (fun n => exec arith n (.send r (I sel) (os ++ [nilO])) s) (s', o, false) ∧ Post I W s0 s (.ok v) fs s' o := by
  obtain ⟨k, hk, hp⟩ := prim_number (I := I) h
  have ql := quiet_logged hr.recursion (.prim (.other k)) r (os ++ [nilO])
  obtain ⟨po, h1, h2, h3, h4⟩ := hp (logged s (.prim (.other k)) r (os ++ [nilO])) r os [nilO] (ha.ext ql.ext) (ho.ext ql.ext)
  obtain ⟨s', o, e1, q1, f1, v1⟩ := native_prim (s := logged s (.prim (.other k)) r (os ++ [nilO])) hf ⟨po, h1, h2, h3, h4⟩ (exec arith 0)
  refine ⟨s', o, ?_, hr.quiet (ql.trans q1), (ql.trans q1).ext, f1, v1⟩
  refine send_native hr hf (p := numP) (by rw [ha.2]) (by rw [ha.2]) (hr.numKnows hw hk) (Ev.of_eq fun n => ?_) ?_
  · rw [← e1]; rfl
  · rw [(ha.ext (ql.trans q1).ext).2]

/-- The answer of a message to a Boolean. -/
theorem sim_boolean {a : Bool} {sel : List UInt8} {vs : List V} {v : V} (h : Spec.Program.boolean W a sel vs = some v)
    {s : St} {fs : List Frame} {r : Nat} {os : List Nat} (hr : Rep I W s0 s fs) (hf : s.flow = none)
    (ha : Holds I W s r (.bool a)) (ho : HoldsAll I W s os vs) :
    ∃ s' o, Ev (fun n => exec arith n (.send r (I sel) (os ++ [nilO])) s) (s', o, false) ∧ Post I W s0 s (.ok v) fs s' o := by
  obtain ⟨k, hk, hp⟩ := prim_boolean (I := I) h
  have ql := quiet_logged hr.recursion (.prim (.other k)) r (os ++ [nilO])
  have har : s.obj r = { val := .bool a, link := some boolP } := by
    rw [show r = if a then trueO else falseO from ha]; exact hr.bools hw a
  obtain ⟨po, h1, h2, h3, h4⟩ := hp (logged s (.prim (.other k)) r (os ++ [nilO])) r os [nilO] (by show (s.obj r).val = _; rw [har])
    (fun b => by show (s.obj _).val = _; rw [hr.bools hw b]) (ho.ext ql.ext)
  obtain ⟨s', o, e1, q1, f1, v1⟩ := native_prim (s := logged s (.prim (.other k)) r (os ++ [nilO])) hf ⟨po, h1, h2, h3, h4⟩ (exec arith 0)
  have hq := hr.quiet (ql.trans q1)
  refine ⟨s', o, ?_, hq, (ql.trans q1).ext, f1, v1⟩
  refine send_native hr hf (p := boolP) (by rw [har]) (by rw [har]) (hr.boolKnows hw hk) (Ev.of_eq fun n => ?_) ?_
  · rw [← e1]; rfl
  · rw [show r = if a then trueO else falseO from ha, hq.bools hw a]

omit hw in
theorem isCode_holds {s : St} {o : Nat} {ps : List (List UInt8)} {b : List Spec.Node} (h : Holds I W s o (.code ps b)) :
    isCode s o = true := by
  simp only [isCode, h.2]

/-- A branch of a condition. -/
theorem sim_branch {ev : Spec.Program.Task → M V} (hC : SimC I W s0 ev) {a : Bool} {ps : List (List UInt8)} {b : List Spec.Node}
    {fs fs' : List Frame} {r : Except Sig V} {sel : List UInt8} {g : Native} (hm : (sel, g) ∈ boolOps W)
    {s : St} {ro bo : Nat} (hr : Rep I W s0 s fs) (hf : s.flow = none) (ha : Holds I W s ro (.bool a)) (hb : Holds I W s bo (.code ps b))
    (hit : Bool) (hg : ∀ (ev : Eval) (args : List Nat) (s : St), (s.obj ro).val = .bool a → native arith ev g ro args s = branch ev hit ro args s)
    (h : (if hit then Spec.Program.branch ev ps b (.bool a) else M.ret (.bool a)) fs = some (r, fs')) :
    ∃ s' o, Ev (fun n => exec arith n (.send ro (I sel) ([bo] ++ [nilO])) s) (s', o, false) ∧ Post I W s0 s r fs' s' o := by
  have ql := quiet_logged hr.recursion g ro ([bo] ++ [nilO])
  have hro : ro = if a then trueO else falseO := ha
  have har : s.obj ro = { val := .bool a, link := some boolP } := by
    rw [hro]; exact hr.bools hw a
  have hrl := hr.quiet ql
  have key : ∃ s', Ev (fun n => native arith (exec arith n) g ro ([bo] ++ [nilO]) (logged s g ro ([bo] ++ [nilO]))) (s', ro) ∧
      Post I W s0 s r fs' s' ro := by
    simp only [hg _ _ (logged s g ro ([bo] ++ [nilO])) (by show (s.obj ro).val = _; rw [har])]
    cases hit with
    | false =>
      simp only [Bool.false_eq_true, if_false] at h
      obtain ⟨rfl, rfl⟩ := ret_some h
      have hfl : ¬ (logged s g ro ([bo] ++ [nilO])).flow = some .brk := by
        show ¬ s.flow = _
        rw [hf]; exact fun h => nomatch h
      refine ⟨logged s g ro ([bo] ++ [nilO]), Ev.of_eq fun n => ?_, hrl, ql.ext, hf, ha⟩
      simp only [branch, Bool.false_eq_true, if_false, eatBrk, hfl]
    | true =>
      simp only [if_true] at h
      simp only [branch, if_true, List.singleton_append, arg, List.getElem?_cons_zero, Res.ok_bind,
        isCode_holds (show Holds I W (logged s g ro (bo :: [nilO])) bo (.code ps b) from hb.ext ql.ext)]
      rcases andThen_some h with ⟨g', h1, rfl⟩ | ⟨v, fs1, h1, h2⟩
      · obtain ⟨s1, o, e1, p1⟩ := hC _ _ _ _ _ _ _ h1 (logged s g ro (bo :: [nilO])) bo [ro] [] hrl hf (hb.ext ql.ext)
          ⟨ha, trivial⟩
        exact ⟨s1, Ev.bind e1 (.pure _), p1.rep, ql.ext.trans p1.ext, p1.res⟩
      · obtain ⟨rfl, rfl⟩ := ret_some h2
        obtain ⟨s1, o, e1, p1⟩ := hC _ _ _ _ _ _ _ h1 (logged s g ro (bo :: [nilO])) bo [ro] [] hrl hf (hb.ext ql.ext)
          ⟨ha, trivial⟩
        exact ⟨s1, Ev.bind e1 (.pure _), p1.rep, ql.ext.trans p1.ext, p1.res.1, ha⟩
  obtain ⟨s', e1, p1⟩ := key
  refine ⟨s', ro, ?_, p1⟩
  refine send_native hr hf (p := boolP) (by rw [har]) (by rw [har]) (hr.boolKnows hw hm) e1 ?_
  rw [hro, p1.rep.bools hw a]

/-- `break` and `continue`. -/
theorem sim_leave {a : Bool} {sel : List UInt8} {g : Native} (sg : Sig) (hm : (sel, g) ∈ boolOps W)
    {s : St} {fs : List Frame} {ro : Nat} (hr : Rep I W s0 s fs) (hf : s.flow = none) (ha : Holds I W s ro (.bool a))
    (hg : ∀ (ev : Eval) (args : List Nat) (s : St), (s.obj ro).val = .bool a → native arith ev g ro args s =
      .ok (if a then { s with flow := some (flowOf sg) } else s, ro)) :
    ∃ s' o, Ev (fun n => exec arith n (.send ro (I sel) ([] ++ [nilO])) s) (s', o, false) ∧
      Post I W s0 s (if a then .error sg else .ok (.bool a)) fs s' o := by
  have ql := quiet_logged hr.recursion g ro ([] ++ [nilO])
  have hro : ro = if a then trueO else falseO := ha
  have har : s.obj ro = { val := .bool a, link := some boolP } := by
    rw [hro]; exact hr.bools hw a
  have hrl := hr.quiet ql
  have key : ∃ s', Ev (fun n => native arith (exec arith n) g ro ([] ++ [nilO]) (logged s g ro ([] ++ [nilO]))) (s', ro) ∧
      Post I W s0 s (if a then .error sg else .ok (.bool a)) fs s' ro := by
    simp only [hg _ _ (logged s g ro ([] ++ [nilO])) (by show (s.obj ro).val = _; rw [har])]
    cases a with
    | false => exact ⟨_, Ev.pure _, hrl, ql.ext, hf, ha⟩
    | true =>
      refine ⟨_, Ev.pure _, ⟨hrl.1, hrl.2, hrl.3, hrl.4, hrl.5, hrl.6, hrl.7, ?_⟩, ql.ext, rfl⟩
      exact hrl.scopes.of_eq ⟨Nat.le_refl _, fun _ _ _ => rfl⟩ fun _ _ => rfl
  obtain ⟨s', e1, p1⟩ := key
  refine ⟨s', ro, ?_, p1⟩
  refine send_native hr hf (p := boolP) (by rw [har]) (by rw [har]) (hr.boolKnows hw hm) e1 ?_
  rw [hro, p1.rep.bools hw a]

/-- `start` and `apply`. -/
theorem sim_call {ev : Spec.Program.Task → M V} (hC : SimC I W s0 ev) {ps : List (List UInt8)} {b : List Spec.Node}
    {fs fs' : List Frame} {r : Except Sig V} {sel : List UInt8} {as : List V} (hm : (sel, Native.run) ∈ codeOps W)
    {s : St} {bo : Nat} {os : List Nat} (hr : Rep I W s0 s fs) (hf : s.flow = none) (hb : Holds I W s bo (.code ps b))
    (ho : HoldsAll I W s os as) (h : Spec.Program.call ev ps b as fs = some (r, fs')) :
    ∃ s' o, Ev (fun n => exec arith n (.send bo (I sel) (os ++ [nilO])) s) (s', o, false) ∧ Post I W s0 s r fs' s' o := by
  have ql := quiet_logged hr.recursion .run bo (os ++ [nilO])
  unfold Spec.Program.call at h
  split at h
  · rename_i v fs1 h1
    obtain ⟨rfl, rfl⟩ := Prod.mk.inj (Option.some.inj h)
    obtain ⟨s1, o, e1, p1⟩ := hC _ _ _ _ _ _ _ h1 (logged s .run bo (os ++ [nilO])) bo os [nilO] (hr.quiet ql) hf (hb.ext ql.ext)
      (ho.ext ql.ext)
    refine ⟨s1, o, ?_, p1.rep, ql.ext.trans p1.ext, p1.res⟩
    refine send_native hr hf (p := codeP) (by rw [hb.2]) (by rw [hb.2]) (hr.codeKnows hw hm) ?_ ?_
    · simp only [native]
      refine Ev.bind e1 (Ev.of_eq fun n => ?_)
      have : ¬ s1.flow = some .cont := by rw [p1.res.1]; exact fun h => nomatch h
      have h2 : ¬ s1.flow = some .brk := by rw [p1.res.1]; exact fun h => nomatch h
      simp only [eatCont, this, if_false, eatBrk, h2]
    · rw [(hb.ext (ql.ext.trans p1.ext)).2]
  · cases h

omit hw in
/-- A round that ended, early or not, without a Break. -/
theorem Post.eatCont {s s1 : St} {x : Except Sig V} {fs : List Frame} {o : Nat} (p : Post I W s0 s x fs s1 o)
    (hx : x = .error .brk → False) :
    Rep I W s0 (Interp.eatCont s1) fs ∧ Ext s1 (Interp.eatCont s1) ∧ (Interp.eatCont s1).flow = none := by
  unfold Interp.eatCont
  cases x with
  | ok v =>
    have h2 : ¬ s1.flow = some .cont := by rw [p.res.1]; exact fun h => nomatch h
    rw [if_neg h2]
    exact ⟨p.rep, .refl _, p.res.1⟩
  | error g =>
    cases g with
    | brk => exact absurd rfl hx
    | cont =>
      rw [if_pos (show s1.flow = some .cont from p.res)]
      have hp := p.rep
      exact ⟨⟨hp.1, hp.2, hp.3, hp.4, hp.5, hp.6, hp.7, hp.scopes.of_eq ⟨Nat.le_refl _, fun _ _ _ => rfl⟩ fun _ _ => rfl⟩,
        ⟨Nat.le_refl _, fun _ _ _ => rfl⟩, rfl⟩

omit hw in
/-- The rounds of `times:`. -/
theorem sim_rounds {ev : Spec.Program.Task → M V} (hC : SimC I W s0 ev) {ps : List (List UInt8)} {b : List Spec.Node} {bo : Nat} :
    ∀ (left done : Nat) (fs fs' : List Frame) (r : Except Sig Unit), Spec.Program.rounds ev ps b left done fs = some (r, fs') →
    ∀ s, Rep I W s0 s fs → s.flow = none → Holds I W s bo (.code ps b) →
    r = .ok () ∧ ∃ s', Ev (fun n => timesLoop (exec arith n) bo left done s) s' ∧ Rep I W s0 s' fs' ∧ Ext s s' ∧
      (s'.flow = none ∨ s'.flow = some .brk)
  | 0, _, fs, fs', r, h, s, hr, hf, _ => by
    obtain ⟨rfl, rfl⟩ := ret_some h
    exact ⟨rfl, s, Ev.pure _, hr, .refl s, .inl hf⟩
  | left + 1, done, fs, fs', r, h, s, hr, hf, hb => by
    have qn : Quiet s (newNum s (done + 1 : Nat)).1 := quiet_alloc _ _
    simp only [Spec.Program.rounds] at h
    split at h
    · cases h
    · rename_i fs1 h1
      obtain ⟨rfl, rfl⟩ := Prod.mk.inj (Option.some.inj h)
      obtain ⟨s1, o, e1, p1⟩ := hC _ _ _ _ _ _ _ h1 (newNum s (done + 1 : Nat)).1 bo [(newNum s (done + 1 : Nat)).2] [] (hr.quiet qn) hf
        (hb.ext qn.ext) ⟨holds_newNum _ _, trivial⟩
      have hfl : s1.flow = some .brk := p1.res
      refine ⟨rfl, s1, ?_, p1.rep, qn.ext.trans p1.ext, .inr hfl⟩
      simp only [timesLoop]
      refine Ev.bind e1 (Ev.of_eq fun n => ?_)
      have h2 : ¬ s1.flow = some .cont := by rw [hfl]; exact fun h => nomatch h
      simp only [eatCont, h2, if_false]
      rw [hfl]; rfl
    · rename_i x fs1 hx h1
      obtain ⟨s1, o, e1, p1⟩ := hC _ _ _ _ _ _ _ h1 (newNum s (done + 1 : Nat)).1 bo [(newNum s (done + 1 : Nat)).2] [] (hr.quiet qn) hf
        (hb.ext qn.ext) ⟨holds_newNum _ _, trivial⟩
      have key := p1.eatCont hx
      obtain ⟨k1, k2, k3⟩ := key
      have x1 := (qn.ext.trans p1.ext).trans k2
      obtain ⟨i1, s2, e2, r2, x2, f2⟩ := sim_rounds hC left (done + 1) fs1 fs' r h (eatCont s1) k1 k3 (hb.ext x1)
      refine ⟨i1, s2, ?_, r2, x1.trans x2, f2⟩
      simp only [timesLoop]
      refine Ev.bind e1 ?_
      simp only [k3, Option.isSome_none, Bool.false_eq_true, if_false]
      exact e2

omit hw in
theorem Rep.eatBrk {s : St} {fs : List Frame} (h : Rep I W s0 s fs) (hf : s.flow = none ∨ s.flow = some .brk) :
    Rep I W s0 (Interp.eatBrk s) fs ∧ Ext s (Interp.eatBrk s) ∧ (Interp.eatBrk s).flow = none := by
  unfold Interp.eatBrk
  rcases hf with hf | hf
  · rw [if_neg (by rw [hf]; exact fun h => nomatch h)]
    exact ⟨h, .refl s, hf⟩
  · rw [if_pos hf]
    exact ⟨⟨h.1, h.2, h.3, h.4, h.5, h.6, h.7, h.scopes.of_eq ⟨Nat.le_refl _, fun _ _ _ => rfl⟩ fun _ _ => rfl⟩,
      ⟨Nat.le_refl _, fun _ _ _ => rfl⟩, rfl⟩

/-- A message to a block. -/
theorem sim_block {ev : Spec.Program.Task → M V} (hC : SimC I W s0 ev) (hL : SimL I W s0 ev) {ps : List (List UInt8)} {b : List Spec.Node}
    {fs fs' : List Frame} {r : Except Sig V} {sel : List UInt8} {as : List V}
    {s : St} {bo : Nat} {os : List Nat} (hr : Rep I W s0 s fs) (hf : s.flow = none) (hb : Holds I W s bo (.code ps b))
    (ho : HoldsAll I W s os as) (h : Spec.Program.block W ev ps b sel as fs = some (r, fs')) :
    ∃ s' o, Ev (fun n => exec arith n (.send bo (I sel) (os ++ [nilO])) s) (s', o, false) ∧ Post I W s0 s r fs' s' o := by
  unfold Spec.Program.block at h
  split at h
  · split at h
    · rename_i hs; exact sim_call hw hC (by simp [codeOps, hs]) hr hf hb ho h
    · cases h
  · rename_i n
    split at h
    · rename_i hs; exact sim_call hw hC (by simp [codeOps, hs]) hr hf hb ho h
    split at h
    · rename_i hs
      have hm : (sel, Native.times) ∈ codeOps W := by rcases hs.1 with hs | hs <;> simp [codeOps, hs]
      obtain ⟨no, rfl, hn⟩ := holdsAll_one ho
      have ql := quiet_logged hr.recursion .times bo ([no] ++ [nilO])
      have hI : InInt n := ⟨hs.2.1, by omega⟩
      have key : ∃ fs1, Spec.Program.rounds ev ps b n.toNat 0 fs = some (.ok (), fs1) ∧ r = .ok (.code ps b) ∧ fs' = fs1 := by
        rcases andThen_some h with ⟨g, h1, rfl⟩ | ⟨v, fs1, h1, h2⟩
        · obtain ⟨h, -⟩ := sim_rounds hC n.toNat 0 _ _ _ h1 s hr hf hb
          cases h
        · obtain ⟨rfl, rfl⟩ := ret_some h2
          exact ⟨fs', h1, rfl, rfl⟩
      obtain ⟨fs1, h1, rfl, rfl⟩ := key
      obtain ⟨-, s1, e1, r1, x1, f1⟩ := sim_rounds hC n.toNat 0 _ _ _ h1 (logged s .times bo ([no] ++ [nilO])) (hr.quiet ql) hf (hb.ext ql.ext)
      obtain ⟨r2, x2, f2⟩ := r1.eatBrk f1
      have x3 := (ql.ext.trans x1).trans x2
      refine ⟨Interp.eatBrk s1, bo, ?_, r2, x3, f2, hb.ext x3⟩
      refine send_native hr hf (p := codeP) (by rw [hb.2]) (by rw [hb.2]) (hr.codeKnows hw hm) ?_ (by rw [(hb.ext x3).2])
      have hv : ((logged s .times bo ([no] ++ [nilO])).obj no).val = .num n := by rw [(hn.ext ql.ext).2]
      simp only [native, arg, List.singleton_append, List.getElem?_cons_zero, Res.ok_bind, cast2number]
      simp only [List.singleton_append] at hv
      simp only [hv, Res.ok_bind, hI, if_true]
      exact Ev.bind e1 (.pure _)
    · cases h
  · rename_i qs c
    split at h
    · rename_i hs; exact sim_call hw hC (by simp [codeOps, hs]) hr hf hb ho h
    split at h
    · rename_i hs
      obtain ⟨rfl, rfl, rfl⟩ := hs
      obtain ⟨co, rfl, hc⟩ := holdsAll_one ho
      have ql := quiet_logged hr.recursion .whileTrue bo ([co] ++ [nilO])
      obtain ⟨rfl, s1, e1, r1, x1, f1⟩ := hL _ _ _ _ _ h (logged s .whileTrue bo ([co] ++ [nilO])) bo co ([co] ++ [nilO]) (hr.quiet ql) hf
        (hb.ext ql.ext) (hc.ext ql.ext)
      obtain ⟨r2, x2, f2⟩ := r1.eatBrk f1
      have x3 := (ql.ext.trans x1).trans x2
      refine ⟨Interp.eatBrk s1, bo, ?_, r2, x3, f2, hb.ext x3⟩
      refine send_native hr hf (p := codeP) (by rw [hb.2]) (by rw [hb.2]) (hr.codeKnows hw (p := (W.whileTrue, .whileTrue)) (by simp [codeOps])) ?_
        (by rw [(hb.ext x3).2])
      simp only [native, arg, List.singleton_append, List.getElem?_cons_zero, Res.ok_bind,
        isCode_holds (show Holds I W (logged s .whileTrue bo (co :: [nilO])) co (.code [] c) from hc.ext ql.ext), if_true]
      exact Ev.bind e1 (.pure _)
    · cases h
  · split at h
    · rename_i hs; exact sim_call hw hC (by simp [codeOps, hs]) hr hf hb ho h
    · cases h
  · split at h
    · rename_i hs; exact sim_call hw hC (by simp [codeOps, hs]) hr hf hb ho h
    · cases h
  · cases h

/-- A message. -/
theorem sim_send {ev : Spec.Program.Task → M V} (hC : SimC I W s0 ev) (hL : SimL I W s0 ev) {v : V}
    {fs fs' : List Frame} {r : Except Sig V} {sel : List UInt8} {as : List V}
    {s : St} {ro : Nat} {os : List Nat} (hr : Rep I W s0 s fs) (hf : s.flow = none) (hv : Holds I W s ro v)
    (ho : HoldsAll I W s os as) (h : Spec.Program.send W ev v sel as fs = some (r, fs')) :
    ∃ s' o, Ev (fun n => exec arith n (.send ro (I sel) (os ++ [nilO])) s) (s', o, false) ∧ Post I W s0 s r fs' s' o := by
  cases v with
  | num a =>
    obtain ⟨x, h1, rfl, rfl⟩ := lift_some h
    exact sim_number hw h1 hr hf hv ho
  | bool a =>
    simp only [Spec.Program.send] at h
    split at h
    · rename_i ps b
      obtain ⟨bo, rfl, hb⟩ := holdsAll_one ho
      split at h
      · rename_i hs
        refine sim_branch hw hC (g := .ifTrue) (by simp [boolOps, hs]) hr hf hv hb a (fun ev args s hs => ?_) h
        simp only [native, boolOf, hs, Res.ok_bind]
      split at h
      · rename_i hs
        refine sim_branch hw hC (g := .ifFalse) (by rcases hs with hs | hs <;> simp [boolOps, hs]) hr hf hv hb (!a) (fun ev args s hs => ?_)
          (by rw [← h]; cases a <;> rfl)
        simp only [native, boolOf, hs, Res.ok_bind]
      · cases h
    · obtain rfl := holdsAll_nil ho
      split at h
      · rename_i hs
        obtain ⟨rfl, rfl⟩ := Prod.mk.inj (Option.some.inj h)
        refine sim_leave hw .brk (g := .brk) (by simp [boolOps, hs]) hr hf hv (fun ev args s hs => ?_)
        simp only [native, boolOf, hs, Res.ok_bind, flowOf]
      split at h
      · rename_i hs
        obtain ⟨rfl, rfl⟩ := Prod.mk.inj (Option.some.inj h)
        refine sim_leave hw .cont (g := .cont) (by simp [boolOps, hs]) hr hf hv (fun ev args s hs => ?_)
        simp only [native, boolOf, hs, Res.ok_bind, flowOf]
      · obtain ⟨x, h1, rfl, rfl⟩ := lift_some h
        exact sim_boolean hw h1 hr hf hv ho
    · obtain ⟨x, h1, rfl, rfl⟩ := lift_some h
      exact sim_boolean hw h1 hr hf hv ho
  | code ps b => exact sim_block hw hC hL hr hf hv ho h
  | other => cases h

omit hw in
/-- The rest of the messages when a Break or Continue is pending. -/
theorem Post.chain {s s' : St} {g : Sig} {fs : List Frame} {o : Nat} (h : Post I W s0 s (.error g) fs s' o) {ms : List Spec.Node}
    (hm : fewMsgs ms = true) (lit : Bool) (v : Nat) :
    ∃ s'' o', Ev (fun n => chain (exec arith n) lit v (lowerMsgs I W ms) s') (s'', o') ∧ Post I W s0 s (.error g) fs s'' o' := by
  obtain ⟨s2, o2, e2, q2⟩ := silent_chain (env := arith) _ lit v s' (silentMsgs (I := I) (W := W) ms hm) h.rep.sandbox (pending_of h.res)
  exact ⟨s2, o2, e2, h.quiet q2⟩

/-- Messages one after the other. -/
theorem sim_chain {ev : Spec.Program.Task → M V} (hE : SimE I W s0 ev) (hC : SimC I W s0 ev) (hL : SimL I W s0 ev) :
    ∀ (ms : List Spec.Node) (lit : Bool) (v : V) (fs fs' : List Frame) (r : Except Sig V), Spec.Program.chain W ev v ms fs = some (r, fs') →
    fewMsgs ms = true → ∀ s ro, Rep I W s0 s fs → s.flow = none → Holds I W s ro v →
    ∃ s' o, Ev (fun n => chain (exec arith n) lit ro (lowerMsgs I W ms) s) (s', o) ∧ Post I W s0 s r fs' s' o := by
  intro ms
  induction ms with
  | nil =>
    intro lit v fs fs' r h _ s ro hr hf hv
    obtain ⟨rfl, rfl⟩ := ret_some h
    exact ⟨s, ro, Ev.pure _, hr, .refl s, hf, hv⟩
  | cons m ms ih =>
    intro lit v fs fs' r h hw' s ro hr hf hv
    have step : ∀ (as : List Spec.Node) (sel : List UInt8), as.length ≤ 38 → fewArgs as = true → fewMsgs ms = true →
        (Spec.Program.args ev as).andThen (fun as => (Spec.Program.send W ev v sel as).andThen fun v => Spec.Program.chain W ev v ms) fs
          = some (r, fs') →
        ∃ s' o, Ev (fun n => chain (exec arith n) lit ro ((I sel, lowerAll I W as) :: lowerMsgs I W ms) s) (s', o) ∧
          Post I W s0 s r fs' s' o := by
      intro as sel hl ha hms h
      simp only [chain, tick_free hr.sandbox, Res.ok_bind]
      rcases andThen_some h with ⟨g, h1, rfl⟩ | ⟨vs, fs1, h1, h2⟩
      · obtain ⟨s1, os, e1, r1, x1, f1⟩ := sim_args hE as (if lit then 1 else 0) _ _ _ h1 ha (by split <;> omega) s hr hf
        have p1 : Post I W s0 s (.error g) fs' s1 nilO := ⟨r1, x1, f1⟩
        obtain ⟨s2, o2, e2, p2⟩ := p1.chain hms true nilO
        exact ⟨s2, o2, Ev.bind e1 (Ev.bind (send_pending (pending_of f1) ro (I sel) _) e2), p2⟩
      · obtain ⟨s1, os, e1, r1, x1, f1, o1⟩ := sim_args hE as (if lit then 1 else 0) _ _ _ h1 ha (by split <;> omega) s hr hf
        rcases andThen_some h2 with ⟨g, h3, rfl⟩ | ⟨w, fs2, h3, h4⟩
        · obtain ⟨s2, o2, e2, p2⟩ := sim_send hw hC hL r1 f1 (hv.ext x1) o1 h3
          obtain ⟨s3, o3, e3, p3⟩ := p2.chain hms true o2
          exact ⟨s3, o3, Ev.bind e1 (Ev.bind e2 e3), p3.before x1⟩
        · obtain ⟨s2, o2, e2, p2⟩ := sim_send hw hC hL r1 f1 (hv.ext x1) o1 h3
          obtain ⟨s3, o3, e3, p3⟩ := ih true w _ _ _ h4 hms s2 o2 p2.rep p2.res.1 p2.res.2
          exact ⟨s3, o3, Ev.bind e1 (Ev.bind e2 e3), (p3.before p2.ext).before x1⟩
    cases m with
    | una n =>
      simp only [fewMsgs] at hw'
      exact step [] n (by simp) rfl hw' h
    | bin o a =>
      simp only [fewMsgs, Bool.and_eq_true] at hw'
      exact step [a] o (by simp) (by simp only [fewArgs, hw'.1, Bool.and_true]) hw'.2 h
    | kw ps as =>
      simp only [fewMsgs, Bool.and_eq_true, decide_eq_true_eq] at hw'
      exact step as _ hw'.1.1 hw'.1.2 hw'.2 h
    | _ => cases h

end Verif.Model.Program
