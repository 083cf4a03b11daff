import Verif.Lemmas.ObjectsSim

/-!
# Lemmas: messages, blocks and loops do what the reference interpreter with objects does
-/

namespace Verif.Model.Objects
open Verif.Model.Interp
open Verif.Model.Program (Knows lower lowerAll lowerMsgs Ev Pending tick_free bump quiet_bump silent silent_args silentArgs silentMsgs silent_chain
  silent_stmts send_pending assign_pending)
open Verif.Spec.Objects (Words V Frame Ob State Sig M upd)
open Verif.Spec.Program (few fewMsgs fewArgs fewStmts)

variable {I : List UInt8 → Name} {W : Words} {D : Name → Option Text} {a : List Nat} {s0 : St}

/-- A value that may be there. -/
def OptHolds (I : List UInt8 → Name) (a : List Nat) (s : St) : Option Nat → Option V → Prop
  | none, none => True
  | some o, some v => Holds I a s.obj s.fresh o v
  | _, _ => False

/-- The result of a loop before a Break is forgotten. -/
def Looped (I : List UInt8 → Name) (s : St) (b : Nat) : Except Sig V → Prop
  | .ok v => v = .ref b ∧ (s.flow = none ∨ s.flow = some .brk)
  | .error g => ∃ t, g = .err t ∧ FlowIs I s (.err t)

/-- Expressions are simulated. -/
def SimE (I : List UInt8 → Name) (W : Words) (D : Name → Option Text) (s0 : St) (ev : Spec.Objects.Task → M V) : Prop :=
  ∀ e st r st', ev (.expr e) st = some (r, st') → few e = true → ∀ a s, Rep I W s0 a s st → s.flow = none →
    ∃ a' s' o, Ev (fun n => exec (full I D) n (.expr (lower I W.toWords e)) s) (s', o, false) ∧ Post I W s0 a s r st' a' s' o

/-- Blocks are simulated. -/
def SimC (I : List UInt8 → Name) (W : Words) (D : Name → Option Text) (s0 : St) (ev : Spec.Objects.Task → M V) : Prop :=
  ∀ b as me st r st', ev (.call b as me) st = some (r, st') → ∀ a s bo os xs mo, Rep I W s0 a s st → s.flow = none →
    a[b]? = some bo → HoldsAll I a s.obj s.fresh os as → OptHolds I a s mo me →
    ∃ a' s' o, Ev (fun n => exec (full I D) n (.block bo (os ++ xs) mo) s) (s', o, false) ∧ Post I W s0 a s r st' a' s' o

/-- Loops are simulated. -/
def SimL (I : List UInt8 → Name) (W : Words) (D : Name → Option Text) (s0 : St) (ev : Spec.Objects.Task → M V) : Prop :=
  ∀ b c st r st', ev (.loop b c) st = some (r, st') → ∀ a s bo co xs, Rep I W s0 a s st → s.flow = none →
    a[b]? = some bo → a[c]? = some co →
    ∃ a' s', Ev (fun n => exec (full I D) n (.loopWhile bo co xs) s) (s', bo, false) ∧ Rep I W s0 a' s' st' ∧ Ext a s a' s' ∧ Looped I s' b r

/-- Loops over sequences are simulated. -/
def SimS (I : List UInt8 → Name) (W : Words) (D : Name → Option Text) (s0 : St) (ev : Spec.Objects.Task → M V) : Prop :=
  ∀ q b i st r st', ev (.each q b i) st = some (r, st') → ∀ a s qo bo, Rep I W s0 a s st → s.flow = none →
    a[q]? = some qo → a[b]? = some bo →
    ∃ a' s', Ev (fun n => exec (full I D) n (.loopEach qo bo i) s) (s', qo, false) ∧ Rep I W s0 a' s' st' ∧ Ext a s a' s' ∧ Looped I s' q r

/-- A message is simulated. -/
def Sends (I : List UInt8 → Name) (W : Words) (D : Name → Option Text) (s0 : St) (a : List Nat) (s : St) (ro : Nat) (m : Name) (args : List Nat)
    (r : Except Sig V) (st' : State) : Prop :=
  ∃ a' s' o, Ev (fun n => exec (full I D) n (.send ro m args) s) (s', o, false) ∧ Post I W s0 a s r st' a' s' o

/-! ### The reference interpreter -/

theorem andThen_some {α β : Type} {m : M α} {f : α → M β} {st : State} {r : Except Sig β} {st' : State}
    (h : m.andThen f st = some (r, st')) :
    (∃ g, m st = some (.error g, st') ∧ r = .error g) ∨ ∃ a st1, m st = some (.ok a, st1) ∧ f a st1 = some (r, st') := by
  unfold M.andThen at h
  split at h
  · cases h
  · rename_i g fs1 e
    obtain ⟨rfl, rfl⟩ := Prod.mk.inj (Option.some.inj h)
    exact .inl ⟨g, e, rfl⟩
  · rename_i a fs1 e
    exact .inr ⟨a, fs1, e, h⟩

theorem lift_some {α : Type} {a : Option α} {st : State} {r : Except Sig α} {st' : State}
    (h : M.lift a st = some (r, st')) : ∃ x, a = some x ∧ r = .ok x ∧ st' = st := by
  unfold M.lift at h
  split at h
  · cases h
  · rename_i x
    obtain ⟨rfl, rfl⟩ := Prod.mk.inj (Option.some.inj h)
    exact ⟨x, rfl, rfl, rfl⟩

theorem ret_some {α : Type} {a : α} {st : State} {r : Except Sig α} {st' : State}
    (h : M.ret a st = some (r, st')) : r = .ok a ∧ st' = st := by
  obtain ⟨rfl, rfl⟩ := Prod.mk.inj (Option.some.inj h)
  exact ⟨rfl, rfl⟩

theorem fail_some {α : Type} {st : State} {r : Except Sig α} {st' : State}
    (h : M.fail st = some (r, st')) : r = .error (.err none) ∧ st' = st := by
  obtain ⟨rfl, rfl⟩ := Prod.mk.inj (Option.some.inj h)
  exact ⟨rfl, rfl⟩

theorem isBlock_some {st : State} {b : Nat} (h : Spec.Objects.isBlock st b = true) :
    ∃ ps c hd bound, st.store[b]? = some (.block ps c hd bound) := by
  unfold Spec.Objects.isBlock at h
  split at h
  · rename_i e; exact ⟨_, _, _, _, e⟩
  · cases h

/-! ### Arguments -/

theorem sim_args {ev : Spec.Objects.Task → M V} (hE : SimE I W D s0 ev) : ∀ (es : List Spec.Node) (keys : Nat) (st : State)
    (r : Except Sig (List V)) (st' : State), Spec.Objects.args ev es st = some (r, st') → fewArgs es = true →
    keys + es.length < 40 → ∀ a s, Rep I W s0 a s st → s.flow = none →
    ∃ a' s' os, Ev (fun n => evalArgs (exec (full I D) n) keys (lowerAll I W.toWords es) s) (s', os) ∧ Rep I W s0 a' s' st' ∧ Ext a s a' s' ∧
      match r with
      | .ok vs => s'.flow = none ∧ HoldsAll I a' s'.obj s'.fresh os vs
      | .error g => FlowIs I s' g
  | [], keys, st, r, st', h, _, _, a, s, hr, hf => by
    obtain ⟨rfl, rfl⟩ := ret_some h
    exact ⟨a, s, [], Ev.pure _, hr, .refl a s, hf, trivial⟩
  | e :: es, keys, st, r, st', h, hw, hk, a, s, hr, hf => by
    simp only [fewArgs, Bool.and_eq_true] at hw
    simp only [List.length_cons] at hk
    have hk' : ¬ keys + 1 ≥ 40 := by omega
    simp only [lowerAll, evalArgs]
    rcases andThen_some h with ⟨g, h1, rfl⟩ | ⟨v, st1, h1, h2⟩
    · obtain ⟨a1, s1, o, e1, p1⟩ := hE e _ _ _ h1 hw.1 a s hr hf
      obtain ⟨hl, hs⟩ := silentArgs (I := I) (W := W.toWords) (env := full I D) es (Nat.le_refl _) hw.2
      obtain ⟨s2, os, e2, q2⟩ := silent_args (lowerAll I W.toWords es) (keys + 1) s1 hs (by omega) p1.rep.sandbox (pending_of p1.res)
      refine ⟨a1, s2, o :: os, Ev.bind e1 ?_, p1.rep.quiet q2, p1.ext.trans (quiet_ext q2), FlowIs.quiet p1.res q2⟩
      simp only [hk', if_false]
      exact Ev.bind e2 (.pure _)
    · obtain ⟨a1, s1, o, e1, p1⟩ := hE e _ _ _ h1 hw.1 a s hr hf
      rcases andThen_some h2 with ⟨g, h3, rfl⟩ | ⟨vs, st2, h3, h4⟩
      · obtain ⟨a2, s2, os, e2, r2, x2, f2⟩ := sim_args hE es (keys + 1) st1 _ st' h3 hw.2 (by omega) a1 s1 p1.rep p1.res.1
        refine ⟨a2, s2, o :: os, Ev.bind e1 ?_, r2, p1.ext.trans x2, f2⟩
        simp only [hk', if_false]
        exact Ev.bind e2 (.pure _)
      · obtain ⟨rfl, rfl⟩ := ret_some h4
        obtain ⟨a2, s2, os, e2, r2, x2, f2⟩ := sim_args hE es (keys + 1) st1 _ st' h3 hw.2 (by omega) a1 s1 p1.rep p1.res.1
        refine ⟨a2, s2, o :: os, Ev.bind e1 ?_, r2, p1.ext.trans x2, f2.1, p1.res.2.ext x2, f2.2⟩
        simp only [hk', if_false]
        exact Ev.bind e2 (.pure _)

/-! ### Sending -/

/-- A built-in operation of the prototype of the receiver. -/
theorem send_post {s : St} {st st' : State} {r : Except Sig V} (h : Rep I W s0 a s st) (hf : s.flow = none) {ro p : Nat} {m : Name} {g : Native}
    {args : List Nat} (hm : (s.obj ro).meths = []) (hl : (s.obj ro).link = some p) (hp : p < s0.fresh) (hw : p ≠ worldO) (hk : Knows s0 p m g)
    (hn : ∃ a' s' o, Ev (fun n => native (full I D) (exec (full I D) n) g ro args (logged s g ro args)) (s', o) ∧
      Post I W s0 a (logged s g ro args) r st' a' s' o)
    (hc : ∀ a' s', Rep I W s0 a' s' st' → Ext a s a' s' → (s'.obj ro).chain = false) : Sends I W D s0 a s ro m args r st' := by
  obtain ⟨a', s', o, e1, p1⟩ := hn
  have p2 := p1.before (quiet_ext (quiet_logged s g ro args))
  exact ⟨a', s', o, send_native h hf hm hl hp hw hk e1 (hc a' s' p2.rep p2.ext), p2⟩

/-- A built-in operation of the receiver. -/
theorem send_own {s : St} {st st' : State} {r : Except Sig V} (h : Rep I W s0 a s st) (hf : s.flow = none) {ro : Nat} {m : Name} {g : Native}
    {args : List Nat} (hp : ro < s0.fresh) (hw : ro ≠ worldO) (hk : Knows s0 ro m g)
    (hn : ∃ a' s' o, Ev (fun n => native (full I D) (exec (full I D) n) g ro args (logged s g ro args)) (s', o) ∧
      Post I W s0 a (logged s g ro args) r st' a' s' o)
    (hc : (s0.obj ro).chain = false) : Sends I W D s0 a s ro m args r st' := by
  obtain ⟨a', s', o, e1, p1⟩ := hn
  have p2 := p1.before (quiet_ext (quiet_logged s g ro args))
  obtain ⟨f, k1, k2, k3⟩ := h.knows hp hw hk
  refine ⟨a', s', o, ?_, p2⟩
  refine send_found hf (f := f) (rec := s.recursion) (N := 1) (fun n hn => ?_) (e1.congr fun n => call_native h.deser k3 _)
    (by rw [p2.rep.low ro hp hw]; exact hc)
  obtain ⟨n, rfl⟩ : ∃ k, n = k + 1 := ⟨n - 1, by omega⟩
  simp only [search, k1, k2, Bool.false_eq_true, if_false]

/-! ### Messages to numbers, texts and Booleans -/

section
variable (hw : World I W s0)
include hw

theorem Rep.bools {s : St} {st : State} (h : Rep I W s0 a s st) (b : Bool) :
    s.obj (if b then trueO else falseO) = { val := .bool b, link := some boolP } := by
  have := hw.size
  cases b
  · rw [← hw.no]; exact h.low falseO (by show 2 < _; omega) (by decide)
  · rw [← hw.yes]; exact h.low trueO (by show 1 < _; omega) (by decide)

/-- The answer of a message to a number. -/
theorem sim_number {x : Int} {sel : List UInt8} {vs : List V} {v : Except Sig V} (h : Spec.Objects.number W x sel vs = some v)
    {s : St} {st : State} {r : Nat} {os : List Nat} (hr : Rep I W s0 a s st) (hf : s.flow = none)
    (ha : Holds I a s.obj s.fresh r (.num x)) (ho : HoldsAll I a s.obj s.fresh os vs) :
    Sends I W D s0 a s r (I sel) (os ++ [nilO]) v st := by
  have := hw.size
  obtain ⟨k, hk, hp⟩ := prim_number (I := I) (D := D) h
  exact send_prim hr hf (p := numP) (by rw [ha.2]) (by rw [ha.2]) (show 7 < _ by omega) (by decide) (hw.numbers _ hk) ha.1 (by rw [ha.2])
    (hp a (logged s _ _ _) r os [nilO] ha ho)

/-- The answer of a message to a text. -/
theorem sim_letters (hD : ∀ t, D (I t) = some t) {t : List UInt8} {sel : List UInt8} {vs : List V} {v : V} (h : Spec.Objects.letters W t sel vs = some v)
    {s : St} {st : State} {r : Nat} {os : List Nat} (hr : Rep I W s0 a s st) (hf : s.flow = none)
    (ha : Holds I a s.obj s.fresh r (.text t)) (ho : HoldsAll I a s.obj s.fresh os vs) :
    Sends I W D s0 a s r (I sel) (os ++ [nilO]) (.ok v) st := by
  have := hw.size
  obtain ⟨k, hk, hp⟩ := prim_letters (I := I) (D := D) hD h
  exact send_prim hr hf (p := strP) (by rw [ha.2]) (by rw [ha.2]) (show 6 < _ by omega) (by decide) (hw.texts _ hk) ha.1 (by rw [ha.2])
    (hp a (logged s _ _ _) r os [nilO] ha ho)

/-- The answer of a message to a Boolean. -/
theorem sim_boolean {x : Bool} {sel : List UInt8} {vs : List V} {v : V} (h : Spec.Objects.boolean W x sel vs = some v)
    {s : St} {st : State} {r : Nat} {os : List Nat} (hr : Rep I W s0 a s st) (hf : s.flow = none)
    (ha : Holds I a s.obj s.fresh r (.bool x)) (ho : HoldsAll I a s.obj s.fresh os vs) :
    Sends I W D s0 a s r (I sel) (os ++ [nilO]) (.ok v) st := by
  have := hw.size
  have := hr.fresh
  obtain ⟨k, hk, hp⟩ := prim_boolean (I := I) (D := D) h
  have hro : r = if x then trueO else falseO := ha
  have har : s.obj r = { val := .bool x, link := some boolP } := by rw [hro]; exact hr.bools hw x
  have hlt : r < s.fresh := by
    rw [hro]; cases x
    · show 2 < _; omega
    · show 1 < _; omega
  exact send_prim hr hf (p := boolP) (by rw [har]) (by rw [har]) (show 12 < _ by omega) (by decide) (hw.booleans _ hk) hlt (by rw [har])
    (hp a (logged s _ _ _) r os [nilO] (by show (s.obj r).val = _; rw [har]) (fun b => by show (s.obj _).val = _; rw [hr.bools hw b]) ho)

omit hw in
theorem isCode_like {s : St} {o : Nat} {ps : List (List UInt8)} {b : List Spec.Node} {hd : Option Nat} {bound : Bool}
    (h : Like I W a s.obj s.fresh o (.block ps b hd bound)) : isCode s o = true := by
  obtain ⟨l, h, _⟩ := h
  simp only [isCode, h]

omit hw in
theorem Rep.isCode {s : St} {st : State} (h : Rep I W s0 a s st) {b bo : Nat} (hb : a[b]? = some bo) (hc : Spec.Objects.isBlock st b = true) :
    isCode s bo = true := by
  obtain ⟨ps, c, hd, bound, e⟩ := isBlock_some hc
  exact isCode_like (h.store _ _ _ e hb)

/-- A branch of a condition. -/
theorem sim_branch {ev : Spec.Objects.Task → M V} (hC : SimC I W D s0 ev) {x : Bool} {b : Nat}
    {st st' : State} {r : Except Sig V} {sel : List UInt8} {g : Native} (hm : (sel, g) ∈ Program.boolOps W.toWords)
    {s : St} {ro bo : Nat} (hr : Rep I W s0 a s st) (hf : s.flow = none) (ha : Holds I a s.obj s.fresh ro (.bool x)) (hb : a[b]? = some bo)
    (hit : Bool) (hg : ∀ (ev : Eval) (args : List Nat) (s : St), (s.obj ro).val = .bool x → native (full I D) ev g ro args s = branch ev hit ro args s)
    (h : (if hit then Spec.Objects.branch ev b (.bool x) else M.ret (.bool x)) st = some (r, st')) :
    Sends I W D s0 a s ro (I sel) ([bo] ++ [nilO]) r st' := by
  have := hw.size
  have ql := quiet_logged s g ro ([bo] ++ [nilO])
  have hro : ro = if x then trueO else falseO := ha
  have har : s.obj ro = { val := .bool x, link := some boolP } := by rw [hro]; exact hr.bools hw x
  have hrl := hr.quiet ql
  refine send_post hr hf (p := boolP) (by rw [har]) (by rw [har]) (show 12 < _ by omega) (by decide) (hw.booleans _ hm) ?_
    (fun a' s' hr' _ => by rw [hro, hr'.bools hw x])
  simp only [hg _ _ (logged s g ro ([bo] ++ [nilO])) (by show (s.obj ro).val = _; rw [har])]
  cases hit with
  | false =>
    simp only [Bool.false_eq_true, if_false] at h
    obtain ⟨rfl, rfl⟩ := ret_some h
    have hfl : ¬ (logged s g ro ([bo] ++ [nilO])).flow = some .brk := by
      show ¬ s.flow = _
      rw [hf]; exact fun h => nomatch h
    refine ⟨a, logged s g ro ([bo] ++ [nilO]), ro, Ev.of_eq fun n => ?_, hrl, .refl _ _, hf, ha⟩
    simp only [branch, Bool.false_eq_true, if_false, eatBrk, hfl]
  | true =>
    simp only [if_true, Spec.Objects.branch] at h
    by_cases hc : Spec.Objects.isBlock st b = true
    case neg => rw [if_neg hc] at h; cases h
    rw [if_pos hc] at h
    simp only [branch, if_true, List.singleton_append, arg, List.getElem?_cons_zero, Res.ok_bind,
      show isCode (logged s g ro (bo :: [nilO])) bo = true from hrl.isCode hb hc]
    rcases andThen_some h with ⟨g', h1, rfl⟩ | ⟨v, fs1, h1, h2⟩
    · obtain ⟨a1, s1, o, e1, p1⟩ := hC _ _ _ _ _ _ h1 a (logged s g ro (bo :: [nilO])) bo [ro] [] none hrl hf hb ⟨ha, trivial⟩ trivial
      exact ⟨a1, s1, ro, Ev.bind e1 (.pure _), p1.rep, p1.ext, p1.res⟩
    · obtain ⟨rfl, rfl⟩ := ret_some h2
      obtain ⟨a1, s1, o, e1, p1⟩ := hC _ _ _ _ _ _ h1 a (logged s g ro (bo :: [nilO])) bo [ro] [] none hrl hf hb ⟨ha, trivial⟩ trivial
      exact ⟨a1, s1, ro, Ev.bind e1 (.pure _), p1.rep, p1.ext, p1.res.1, ha⟩

/-- `break` and `continue`. -/
theorem sim_leave {x : Bool} {sel : List UInt8} {g : Native} (sg : Sig) (fl : Interp.Flow) (hm : (sel, g) ∈ Program.boolOps W.toWords)
    {s : St} {st : State} {ro : Nat} (hr : Rep I W s0 a s st) (hf : s.flow = none) (ha : Holds I a s.obj s.fresh ro (.bool x))
    (hfl : ∀ s : St, s.flow = some fl → FlowIs I s sg)
    (hg : ∀ (ev : Eval) (args : List Nat) (s : St), (s.obj ro).val = .bool x → native (full I D) ev g ro args s =
      .ok (if x then { s with flow := some fl } else s, ro)) :
    Sends I W D s0 a s ro (I sel) ([] ++ [nilO]) (if x then .error sg else .ok (.bool x)) st := by
  have := hw.size
  have hro : ro = if x then trueO else falseO := ha
  have har : s.obj ro = { val := .bool x, link := some boolP } := by rw [hro]; exact hr.bools hw x
  have hrl := hr.quiet (quiet_logged s g ro ([] ++ [nilO]))
  refine send_post hr hf (p := boolP) (by rw [har]) (by rw [har]) (show 12 < _ by omega) (by decide) (hw.booleans _ hm) ?_
    (fun a' s' hr' _ => by rw [hro, hr'.bools hw x])
  simp only [hg _ _ (logged s g ro ([] ++ [nilO])) (by show (s.obj ro).val = _; rw [har])]
  cases x with
  | false => exact ⟨a, _, _, Ev.pure _, hrl, .refl _ _, hf, ha⟩
  | true => exact ⟨a, _, _, Ev.pure _, hrl.calm (.flow _ _), (Calm.flow _ _).ext, hfl _ rfl⟩

end

/-! ### Loops -/

/-- A round that ended, early or not, without a Break or an error. -/
theorem Post.eatCont {s s1 : St} {a1 : List Nat} {x : Except Sig V} {st : State} {o : Nat} (p : Post I W s0 a s x st a1 s1 o)
    (hx : x = .error .brk → False) (he : ∀ t, x = .error (.err t) → False) :
    Rep I W s0 a1 (Interp.eatCont s1) st ∧ Ext a1 s1 a1 (Interp.eatCont s1) ∧ (Interp.eatCont s1).flow = none := by
  unfold Interp.eatCont
  cases x with
  | ok v =>
    have h2 : ¬ s1.flow = some .cont := by rw [p.res.1]; exact fun h => nomatch h
    rw [if_neg h2]
    exact ⟨p.rep, .refl _ _, p.res.1⟩
  | error g =>
    cases g with
    | brk => exact absurd rfl hx
    | err t => exact absurd rfl (he t)
    | cont =>
      rw [if_pos (show s1.flow = some .cont from p.res)]
      exact ⟨p.rep.calm (.flow _ _), (Calm.flow _ _).ext, rfl⟩

/-- An error is not forgotten. -/
theorem eatCont_err {s : St} {t : Option (List UInt8)} (h : FlowIs I s (.err t)) : Interp.eatCont s = s ∧ Interp.eatBrk s = s ∧ s.flow.isSome = true := by
  obtain ⟨e, h, _⟩ := h
  unfold Interp.eatCont Interp.eatBrk
  rw [h]
  exact ⟨if_neg (fun h => nomatch h), if_neg (fun h => nomatch h), rfl⟩

/-- The end of a loop. -/
theorem Looped.done {s s' : St} {a' : List Nat} {st : State} {r : Except Sig V} {b bo : Nat} (h : Rep I W s0 a' s' st) (l : Looped I s' b r)
    (x : Ext a s a' s') (hb : a'[b]? = some bo) : Post I W s0 a s r st a' (eatBrk s') bo := by
  cases r with
  | ok v =>
    obtain ⟨rfl, hf⟩ := l
    unfold eatBrk
    rcases hf with hf | hf
    · rw [if_neg (by rw [hf]; exact fun h => nomatch h)]
      exact ⟨h, x, hf, hb⟩
    · rw [if_pos hf]
      exact ⟨h.calm (.flow _ _), x.trans (Calm.flow _ _).ext, rfl, hb⟩
  | error g =>
    obtain ⟨t, rfl, l⟩ := l
    rw [(eatCont_err l).2.1]
    exact ⟨h, x, l⟩

theorem holds_newNum (s : St) (z : Int) : Holds I a (newNum s z).1.obj (newNum s z).1.fresh (newNum s z).2 (.num z) :=
  ⟨Nat.lt_succ_self _, if_pos rfl⟩

theorem holds_newStr (s : St) (t : List UInt8) : Holds I a (newStr s (I t)).1.obj (newStr s (I t)).1.fresh (newStr s (I t)).2 (.text t) :=
  ⟨Nat.lt_succ_self _, if_pos rfl⟩

/-- The rounds of `times:`. -/
theorem sim_rounds {ev : Spec.Objects.Task → M V} (hC : SimC I W D s0 ev) {b bo : Nat} :
    ∀ (left done : Nat) (st st' : State) (r : Except Sig Unit), Spec.Objects.rounds ev b left done st = some (r, st') →
    ∀ a s, Rep I W s0 a s st → s.flow = none → a[b]? = some bo →
    ∃ a' s', Ev (fun n => timesLoop (exec (full I D) n) bo left done s) s' ∧ Rep I W s0 a' s' st' ∧ Ext a s a' s' ∧
      Looped I s' b (r.map fun _ => .ref b)
  | 0, _, st, st', r, h, a, s, hr, hf, _ => by
    obtain ⟨rfl, rfl⟩ := ret_some h
    exact ⟨a, s, Ev.pure _, hr, .refl a s, rfl, .inl hf⟩
  | left + 1, done, st, st', r, h, a, s, hr, hf, hb => by
    have qn : Program.Quiet s (newNum s (done + 1 : Nat)).1 := Program.quiet_alloc _ _
    simp only [Spec.Objects.rounds] at h
    have round : ∀ {x : Except Sig V} {st1 : State}, ev (.call b [.num (done + 1 : Nat)] none) st = some (x, st1) →
        ∃ a1 s1 o, Ev (fun n => exec (full I D) n (.block bo [(newNum s (done + 1 : Nat)).2] none) (newNum s (done + 1 : Nat)).1) (s1, o, false) ∧
          Post I W s0 a s x st1 a1 s1 o := by
      intro x st1 h1
      obtain ⟨a1, s1, o, e1, p1⟩ := hC _ _ _ _ _ _ h1 a (newNum s (done + 1 : Nat)).1 bo [(newNum s (done + 1 : Nat)).2] [] none (hr.quiet qn) hf
        hb ⟨holds_newNum _ _, trivial⟩ trivial
      exact ⟨a1, s1, o, e1, p1.before (quiet_ext qn)⟩
    split at h
    · cases h
    · rename_i st1 h1
      obtain ⟨rfl, rfl⟩ := Prod.mk.inj (Option.some.inj h)
      obtain ⟨a1, s1, o, e1, p1⟩ := round h1
      have hfl : s1.flow = some .brk := p1.res
      refine ⟨a1, s1, ?_, p1.rep, p1.ext, rfl, .inr hfl⟩
      simp only [timesLoop]
      refine Ev.bind e1 (Ev.of_eq fun n => ?_)
      have h2 : ¬ s1.flow = some .cont := by rw [hfl]; exact fun h => nomatch h
      simp only [Interp.eatCont, h2, if_false]
      rw [hfl]; rfl
    · rename_i t st1 h1
      obtain ⟨rfl, rfl⟩ := Prod.mk.inj (Option.some.inj h)
      obtain ⟨a1, s1, o, e1, p1⟩ := round h1
      refine ⟨a1, s1, ?_, p1.rep, p1.ext, t, rfl, p1.res⟩
      simp only [timesLoop]
      refine Ev.bind e1 (Ev.of_eq fun n => ?_)
      obtain ⟨k1, _, k3⟩ := eatCont_err (I := I) p1.res
      simp only [k1, k3, if_true]
    · rename_i x st1 hx he h1
      obtain ⟨a1, s1, o, e1, p1⟩ := round h1
      obtain ⟨k1, k2, k3⟩ := p1.eatCont hx he
      have x1 := p1.ext.trans k2
      obtain ⟨a2, s2, e2, r2, x2, f2⟩ := sim_rounds hC left (done + 1) st1 st' r h a1 (Interp.eatCont s1) k1 k3 (x1.at hb)
      refine ⟨a2, s2, ?_, r2, x1.trans x2, f2⟩
      simp only [timesLoop]
      refine Ev.bind e1 ?_
      simp only [k3, Option.isSome_none, Bool.false_eq_true, if_false]
      exact e2

/-! ### Messages to blocks -/

section
variable (hw : World I W s0)
include hw

/-- A message to a block that is a built-in operation. -/
theorem send_block {s : St} {st st' : State} {r : Except Sig V} (hr : Rep I W s0 a s st) (hf : s.flow = none) {b bo : Nat} (hb : a[b]? = some bo)
    (hc : Spec.Objects.isBlock st b = true) {sel : List UInt8} {g : Native} (hm : (sel, g) ∈ codeOps W) {args : List Nat}
    (hn : ∃ a' s' o, Ev (fun n => native (full I D) (exec (full I D) n) g bo args (logged s g bo args)) (s', o) ∧
      Post I W s0 a (logged s g bo args) r st' a' s' o) : Sends I W D s0 a s bo (I sel) args r st' := by
  have := hw.size
  obtain ⟨ps, c, hd, bound, e⟩ := isBlock_some hc
  obtain ⟨l, hl, _⟩ := hr.store _ _ _ e hb
  exact send_post hr hf (p := codeP) (by rw [hl]) (by rw [hl]) (show 5 < _ by omega) (by decide) (hw.blocks _ hm) hn
    fun a' s' hr' x => hr'.chainOff (x.at hb)

/-- `start` and `apply`. -/
theorem sim_call {ev : Spec.Objects.Task → M V} (hC : SimC I W D s0 ev) {b bo : Nat} {st st' : State} {r : Except Sig V} {sel : List UInt8}
    {as : List V} (hm : (sel, Native.run) ∈ codeOps W) {s : St} {os : List Nat} (hr : Rep I W s0 a s st) (hf : s.flow = none)
    (hb : a[b]? = some bo) (hc : Spec.Objects.isBlock st b = true) (ho : HoldsAll I a s.obj s.fresh os as)
    (h : Spec.Objects.call ev b as st = some (r, st')) : Sends I W D s0 a s bo (I sel) (os ++ [nilO]) r st' := by
  have ql := quiet_logged s .run bo (os ++ [nilO])
  refine send_block hw hr hf hb hc hm ?_
  unfold Spec.Objects.call at h
  simp only [native]
  split at h
  · rename_i v st1 h1
    obtain ⟨rfl, rfl⟩ := Prod.mk.inj (Option.some.inj h)
    obtain ⟨a1, s1, o, e1, p1⟩ := hC _ _ _ _ _ _ h1 a (logged s .run bo (os ++ [nilO])) bo os [nilO] (some bo) (hr.quiet ql) hf hb ho hb
    refine ⟨a1, s1, o, Ev.bind e1 (Ev.of_eq fun n => ?_), p1⟩
    have : ¬ s1.flow = some .cont := by rw [p1.res.1]; exact fun h => nomatch h
    have h2 : ¬ s1.flow = some .brk := by rw [p1.res.1]; exact fun h => nomatch h
    simp only [Interp.eatCont, this, if_false, eatBrk, h2]
  · rename_i t st1 h1
    obtain ⟨rfl, rfl⟩ := Prod.mk.inj (Option.some.inj h)
    obtain ⟨a1, s1, o, e1, p1⟩ := hC _ _ _ _ _ _ h1 a (logged s .run bo (os ++ [nilO])) bo os [nilO] (some bo) (hr.quiet ql) hf hb ho hb
    refine ⟨a1, s1, o, Ev.bind e1 (Ev.of_eq fun n => ?_), p1⟩
    obtain ⟨k1, k2, _⟩ := eatCont_err (I := I) p1.res
    simp only [k1, k2]
  · cases h

/-- A message to a block. -/
theorem sim_block {ev : Spec.Objects.Task → M V} (hC : SimC I W D s0 ev) (hL : SimL I W D s0 ev) {b bo : Nat}
    {st st' : State} {r : Except Sig V} {sel : List UInt8} {as : List V}
    {s : St} {os : List Nat} (hr : Rep I W s0 a s st) (hf : s.flow = none) (hb : a[b]? = some bo) (hc : Spec.Objects.isBlock st b = true)
    (ho : HoldsAll I a s.obj s.fresh os as) (h : Spec.Objects.block W ev b sel as st = some (r, st')) :
    Sends I W D s0 a s bo (I sel) (os ++ [nilO]) r st' := by
  unfold Spec.Objects.block at h
  by_cases hs : sel = W.start ∧ as.length = 0 ∨ sel = W.apply ∧ as.length = 1 ∨ sel = W.applyAnd ∧ as.length = 2
  · rw [if_pos hs] at h
    exact sim_call hw hC (by rcases hs with ⟨hs, _⟩ | ⟨hs, _⟩ | ⟨hs, _⟩ <;> simp [codeOps, Program.codeOps, hs]) hr hf hb hc ho h
  rw [if_neg hs] at h
  split at h
  · rename_i n
    by_cases hs : (sel = W.times ∨ sel = W.star) ∧ -2147483648 ≤ n ∧ n ≤ 2147483647
    case neg => rw [if_neg hs] at h; cases h
    rw [if_pos hs] at h
    have hm : (sel, Native.times) ∈ codeOps W := by rcases hs.1 with hs | hs <;> simp [codeOps, Program.codeOps, hs]
    obtain ⟨no, rfl, hn⟩ := holdsAll_one ho
    have ql := quiet_logged s .times bo ([no] ++ [nilO])
    have hI : InInt n := ⟨hs.2.1, by omega⟩
    have key : ∃ r1, Spec.Objects.rounds ev b n.toNat 0 st = some (r1, st') ∧ r = r1.map fun _ => .ref b := by
      rcases andThen_some h with ⟨g, h1, rfl⟩ | ⟨v, st1, h1, h2⟩
      · exact ⟨_, h1, rfl⟩
      · obtain ⟨rfl, rfl⟩ := ret_some h2
        exact ⟨_, h1, rfl⟩
    obtain ⟨r1, h1, rfl⟩ := key
    obtain ⟨a1, s1, e1, p1, x1, l1⟩ := sim_rounds hC n.toNat 0 _ _ _ h1 a (logged s .times bo ([no] ++ [nilO])) (hr.quiet ql) hf hb
    refine send_block hw hr hf hb hc hm ⟨a1, eatBrk s1, bo, ?_, l1.done p1 x1 (x1.at hb)⟩
    have hv : ((logged s .times bo ([no] ++ [nilO])).obj no).val = .num n := by show (s.obj no).val = _; rw [hn.2]
    simp only [native, arg, List.singleton_append, List.getElem?_cons_zero, Res.ok_bind, cast2number]
    simp only [List.singleton_append] at hv
    simp only [hv, Res.ok_bind, hI, if_true]
    exact Ev.bind e1 (.pure _)
  · rename_i c
    obtain ⟨co, rfl, hco⟩ := holdsAll_one ho
    have hco : a[c]? = some co := hco
    split at h
    · rename_i hs
      dsimp only at h
      split at h
      case isFalse => cases h
      case isTrue hcc =>
      have ql := quiet_logged s .whileTrue bo ([co] ++ [nilO])
      obtain ⟨a1, s1, e1, r1, x1, f1⟩ := hL _ _ _ _ _ h a (logged s .whileTrue bo ([co] ++ [nilO])) bo co ([co] ++ [nilO]) (hr.quiet ql) hf
        hb hco
      refine send_block hw hr hf hb hc (g := .whileTrue) (by simp [codeOps, Program.codeOps, hs]) ⟨a1, eatBrk s1, bo, ?_, f1.done r1 x1 (x1.at hb)⟩
      simp only [native, arg, List.singleton_append, List.getElem?_cons_zero, Res.ok_bind,
        show isCode (logged s .whileTrue bo (co :: [nilO])) co = true from (hr.quiet ql).isCode hco hcc, if_true]
      exact Ev.bind e1 (.pure _)
    split at h
    · rename_i hs
      have ql := quiet_logged s .catch_ bo ([co] ++ [nilO])
      unfold Spec.Objects.catching at h
      split at h
      case h_2 => cases h
      case h_1 ps body hd bound hst =>
      split at h
      case isFalse => cases h
      case isTrue hcc =>
      obtain ⟨rfl, rfl⟩ := Prod.mk.inj (Option.some.inj h)
      obtain ⟨l, h1, h2⟩ := hr.store _ _ _ hst hb
      refine send_block hw hr hf hb hc (g := .catch_) (by simp [codeOps, hs])
        ⟨a, setProp (logged s .catch_ bo ([co] ++ [nilO])) bo nCatch co, bo, Ev.of_eq fun n => ?_, ?_⟩
      · simp only [native, arg, List.singleton_append, List.getElem?_cons_zero, Res.ok_bind]
      · have hx : Like I W a ((logged s .catch_ bo ([co] ++ [nilO])).put bo { s.obj bo with props := setp (s.obj bo).props nCatch co }).obj
            (logged s .catch_ bo ([co] ++ [nilO])).fresh bo (.block ps body (some c) bound) := by
          refine ⟨[(nCatch, co)], ?_, co, hco, rfl⟩
          show (if bo = bo then _ else _) = _
          rw [if_pos rfl, h1]
          have : setp l nCatch co = [(nCatch, co)] := by
            cases hd with
            | none => rw [show l = [] from h2]; rfl
            | some x =>
              obtain ⟨d, _, rfl⟩ := h2
              rfl
          simp only [this]
        obtain ⟨k1, k2⟩ := (hr.quiet ql).put hb hx
        exact ⟨k1, k2, hf, hb⟩
    · cases h
  · rename_i t
    split at h
    · rename_i hs
      obtain ⟨rfl, rfl⟩ := Prod.mk.inj (Option.some.inj h)
      obtain ⟨to, rfl, hto⟩ := holdsAll_one ho
      have ql := quiet_logged s .error bo ([to] ++ [nilO])
      refine send_block hw hr hf hb hc (g := .error) (by simp [codeOps, hs])
        ⟨a, { logged s .error bo ([to] ++ [nilO]) with flow := some (.err to) }, bo, Ev.of_eq fun n => ?_,
          (hr.quiet ql).calm (.flow _ _), (Calm.flow _ _).ext, to, rfl, hto.1, hto.2⟩
      simp only [native, arg, List.singleton_append, List.getElem?_cons_zero, Res.ok_bind]
    · cases h
  · cases h

end

/-! ### Messages to objects -/

/-- What the search for a method finds. -/
def Found (a : List Nat) (s : St) (ro o : Nat) (m : Name) : Option (Nat × Option Nat) → Prop
  | some (f, again) => ∃ fo rec N, a[f]? = some fo ∧ rec.map some = again.map (a[·]?) ∧
      ∀ k, N ≤ k → search s.obj s.stack s.recursion ro m k o = some (some fo, rec)
  | none => ∃ N, ∀ k, search s.obj s.stack s.recursion ro m (k + N) o = search s.obj s.stack s.recursion ro m k objectP

/-- The search goes on with the next object. -/
theorem Found.up {s : St} {ro o c : Nat} {m : Name} {x : Option (Nat × Option Nat)}
    (hs : ∀ k, search s.obj s.stack s.recursion ro m (k + 1) o = search s.obj s.stack s.recursion ro m k c) (h : Found a s ro c m x) :
    Found a s ro o m x := by
  match x, h with
  | none, ⟨N, ih⟩ =>
    refine ⟨N + 1, fun k => ?_⟩
    rw [← Nat.add_assoc, hs (k + N)]
    exact ih k
  | some (f, again), ⟨fo, rec, N, i1, i2, i3⟩ =>
    refine ⟨fo, rec, N + 1, i1, i2, fun k hk => ?_⟩
    obtain ⟨k, rfl⟩ : ∃ j, k = j + 1 := ⟨k - 1, by omega⟩
    rw [hs k]
    exact i3 k (by omega)

/-- The search for a method. -/
theorem search_method {s : St} {st : State} (h : Rep I W s0 a s st) {r ro : Nat} (hr : a[r]? = some ro) {sel : List UInt8} :
    ∀ (n i o : Nat) (x : Option (Nat × Option Nat)), Spec.Objects.method st r sel n i = some x → a[i]? = some o → Found a s ro o (I sel) x
  | 0, _, _, _, e, _ => by cases e
  | n + 1, i, o, x, e, ho => by
    simp only [Spec.Objects.method] at e
    split at e
    case h_2 => cases e
    case h_1 p own ms hi =>
    obtain ⟨_, _, hl, _, hm⟩ := h.store _ _ _ hi ho
    have hm := hm sel
    have up : ∀ (_ : ∀ m, search s.obj s.stack s.recursion ro (I sel) (m + 1) o = match (s.obj o).link with
          | some p => search s.obj s.stack s.recursion ro (I sel) m p
          | none => some (none, s.recursion)) (e' : Option (Option (Nat × Option Nat))), e' = some x →
        (∀ q, p = some q → e' = Spec.Objects.method st r sel n q) → (p = none → e' = some none) → Found a s ro o (I sel) x := by
      intro hs e' hx h1 h2
      cases p with
      | none =>
        obtain rfl := Option.some.inj ((h2 rfl).symm.trans hx)
        exact ⟨1, fun k => by rw [hs k, show (s.obj o).link = _ from hl]⟩
      | some q =>
        obtain ⟨c, h3, h4⟩ := hl
        exact Found.up (fun k => by rw [hs k, h4]) (search_method h hr n q c x ((h1 q rfl).symm.trans hx) h3)
    cases hms : ms sel with
    | none =>
      rw [hms] at hm e
      exact up (fun m => by simp only [search, show getp (s.obj o).meths (I sel) = none from hm] <;> rfl) _ e (fun q h => by subst h; rfl)
        (fun h => by subst h; rfl)
    | some f =>
      rw [hms] at hm e
      obtain ⟨fo, h1, h2⟩ := hm
      by_cases hrun : f ∈ st.running
      · have hin : s.stack.contains fo = true := by simpa using (h.running h1).2 hrun
        by_cases hag : st.again = some r
        · simp only [hrun, if_true, hag] at e
          obtain rfl := Option.some.inj e
          refine ⟨fo, none, 1, h1, rfl, fun m hm => ?_⟩
          obtain ⟨m, rfl⟩ : ∃ k, m = k + 1 := ⟨m - 1, by omega⟩
          simp only [search, h2, hin, (h.again hr).2 hag, if_true]
        · simp only [hrun, if_true, hag, if_false] at e
          have hne : ¬ s.recursion = some ro := fun h3 => hag ((h.again hr).1 h3)
          exact up (fun m => by simp only [search, h2, hin, hne, if_true, if_false] <;> rfl) _ e (fun q h => by subst h; rfl)
            (fun h => by subst h; rfl)
      · have hin : s.stack.contains fo = false := by
          rw [Bool.eq_false_iff]
          intro hc
          exact hrun ((h.running h1).1 (by simpa using hc))
        simp only [hrun, if_false] at e
        obtain rfl := Option.some.inj e
        refine ⟨fo, s.recursion, 1, h1, h.recursion, fun m hm => ?_⟩
        obtain ⟨m, rfl⟩ : ∃ k, m = k + 1 := ⟨m - 1, by omega⟩
        simp only [search, h2, hin, Bool.false_eq_true, if_false]

/-- A method runs. -/
theorem sim_run {ev : Spec.Objects.Task → M V} (hC : SimC I W D s0 ev) {s : St} {st st' : State} {r : Except Sig V} (hr : Rep I W s0 a s st)
    (hf : s.flow = none) {i ro f fo : Nat} {rec again : Option Nat} {sel : List UInt8} {N : Nat} {as : List V} {os : List Nat}
    (hi : a[i]? = some ro) (hfo : a[f]? = some fo) (hrec : rec.map some = again.map (a[·]?))
    (hs : ∀ m, N ≤ m → search s.obj s.stack s.recursion ro (I sel) m ro = some (some fo, rec)) (ho : HoldsAll I a s.obj s.fresh os as)
    (h : Spec.Objects.run ev i f again as st = some (r, st')) : Sends I W D s0 a s ro (I sel) (os ++ [nilO]) r st' := by
  unfold Spec.Objects.run at h
  split at h
  case h_2 => cases h
  case h_1 ps c hd hst =>
  split at h
  case isFalse => cases h
  case isTrue hlen =>
  split at h
  case h_2 => cases h
  case h_1 r1 st1 h1 =>
  obtain ⟨rfl, rfl⟩ := Prod.mk.inj (Option.some.inj h)
  obtain ⟨l, hl, _⟩ := hr.store _ _ _ hst hfo
  have hp := hr.push hfo hrec
  obtain ⟨a1, s1, o, e1, p1⟩ := hC _ _ _ _ _ _ h1 a { s with recursion := rec, stack := fo :: s.stack } fo os [nilO] (some ro) hp hf hfo ho hi
  have hq := p1.rep.pop
  have x1 : Ext a s a1 { s1 with stack := s1.stack.tail } := ⟨p1.ext.pre, p1.ext.fresh, p1.ext.obj⟩
  refine ⟨a1, { s1 with stack := s1.stack.tail }, o, send_found hf hs ?_ (hq.chainOff (x1.at hi)), hq, x1, ?_⟩
  · have hn : ¬ s.stack.length ≥ 301 := by rw [hr.stackLength]; omega
    simp only [call, hl, if_true, hn, if_false]
    exact Ev.bind e1 (.pure _)
  · have := p1.res
    cases r1 with
    | ok v => exact this
    | error g => exact FlowIs.same this rfl rfl rfl

section
variable (hw : World I W s0)
include hw

/-- A built-in operation of objects. -/
theorem send_object {s : St} {st st' : State} {r : Except Sig V} (hr : Rep I W s0 a s st) (hf : s.flow = none) {i ro N : Nat} (hi : a[i]? = some ro)
    {sel : List UInt8} {g : Native} (hm : (sel, g) ∈ objOps W) {args : List Nat}
    (hs : ∀ m, search s.obj s.stack s.recursion ro (I sel) (m + N) ro = search s.obj s.stack s.recursion ro (I sel) m objectP)
    (hn : ∃ a' s' o, Ev (fun n => native (full I D) (exec (full I D) n) g ro args (logged s g ro args)) (s', o) ∧
      Post I W s0 a (logged s g ro args) r st' a' s' o) : Sends I W D s0 a s ro (I sel) args r st' := by
  have := hw.size
  obtain ⟨a', s', o, e1, p1⟩ := hn
  have p2 := p1.before (quiet_ext (quiet_logged s g ro args))
  obtain ⟨f, k1, k2, k3⟩ := hr.knows (show objectP < _ by show 4 < _; omega) (by decide) (hw.objects _ hm)
  refine ⟨a', s', o, ?_, p2⟩
  refine send_found hf (f := f) (rec := s.recursion) (N := N + 1) (fun n hn => ?_) (e1.congr fun n => call_native hr.deser k3 _)
    (p2.rep.chainOff (p2.ext.at hi))
  obtain ⟨n, rfl⟩ : ∃ k, n = k + 1 + N := ⟨n - N - 1, by omega⟩
  rw [hs (n + 1)]
  simp only [search, show getp (s.obj objectP).meths (I sel) = some f from k1, k2, Bool.false_eq_true, if_false]

/-- What any object can do. -/
theorem sim_plainObject (hI : Function.Injective I) {s : St} {st st' : State} {r : Except Sig V} (hr : Rep I W s0 a s st) (hf : s.flow = none)
    {i ro N : Nat} (hi : a[i]? = some ro) {sel : List UInt8} {as : List V} {os : List Nat}
    (hs : ∀ m, search s.obj s.stack s.recursion ro (I sel) (m + N) ro = search s.obj s.stack s.recursion ro (I sel) m objectP)
    (ho : HoldsAll I a s.obj s.fresh os as) (h : Spec.Objects.plainObject W i sel as st = some (r, st')) :
    Sends I W D s0 a s ro (I sel) (os ++ [nilO]) r st' := by
  unfold Spec.Objects.plainObject at h
  split at h
  · obtain rfl := holdsAll_nil ho
    split at h
    · rename_i hsel
      obtain ⟨rfl, rfl⟩ := Prod.mk.inj (Option.some.inj h)
      refine send_object hw hr hf hi (g := .make) (by simp [objOps, hsel]) hs ?_
      have hrl := hr.quiet (quiet_logged s .make ro ([] ++ [nilO]))
      have hlt : (logged s .make ro ([] ++ [nilO])).fresh = s.fresh := rfl
      obtain ⟨k1, k2, k3⟩ := hrl.add (x := { val := .obj, link := some ro }) (ob := .obj (some i) (fun _ => none) fun _ => none) (by
        have hob : (alloc (logged s .make ro ([] ++ [nilO])) { val := .obj, link := some ro }).1.obj (logged s .make ro ([] ++ [nilO])).fresh =
          { val := .obj, link := some ro } := if_pos rfl
        refine ⟨by rw [hob], by rw [hob], ⟨ro, ?_, by rw [hob]⟩, fun k => ?_, fun k => ?_⟩
        · rw [List.getElem?_append_left (List.getElem?_eq_some_iff.1 hi).1]; exact hi
        · show getp (Obj.props _) _ = none
          rw [hob]; rfl
        · show getp (Obj.meths _) _ = none
          rw [hob]; rfl)
      exact ⟨_, _, _, Ev.of_eq fun n => rfl, k1, k2, hf, k3⟩
    split at h
    · rename_i hsel
      obtain ⟨rfl, rfl⟩ := Prod.mk.inj (Option.some.inj h)
      refine send_object hw hr hf hi (g := .recursive) (by simp [objOps, hsel]) hs ?_
      have hrl := hr.quiet (quiet_logged s .recursive ro ([] ++ [nilO]))
      refine ⟨a, { logged s .recursive ro ([] ++ [nilO]) with recursion := some ro }, ro, Ev.of_eq fun n => rfl, ?_, ?_, hf, hi⟩
      · exact ⟨hrl.1, hrl.2, hrl.3, by simp [hi], hrl.5, hrl.6, hrl.7, hrl.8, hrl.9, hrl.10, hrl.11, hrl.12, hrl.13⟩
      · exact ⟨List.prefix_refl _, Nat.le_refl _, fun _ _ _ => rfl⟩
    · cases h
  · rename_i k b
    obtain ⟨ko, os', rfl, hk, ho⟩ := holdsAll_cons ho
    obtain ⟨bo, rfl, hb⟩ := holdsAll_one ho
    have hb : a[b]? = some bo := hb
    split at h
    case isFalse => cases h
    case isTrue hsel =>
    unfold Spec.Objects.learn at h
    split at h
    case h_2 => cases h
    case h_1 ps c hd bound p own ms hst1 hst2 =>
    obtain ⟨rfl, rfl⟩ := Prod.mk.inj (Option.some.inj h)
    refine send_object hw hr hf hi (g := .onDo) (by simp [objOps, hsel]) hs ?_
    have hrl := hr.quiet (quiet_logged s .onDo ro ([ko, bo] ++ [nilO]))
    generalize hsl : logged s .onDo ro ([ko, bo] ++ [nilO]) = sl at hrl
    have hobj : sl.obj = s.obj := by rw [← hsl]; rfl
    have hfl : sl.flow = none := by rw [← hsl]; exact hf
    have hbi : b ≠ i := by rintro rfl; rw [hst1] at hst2; cases hst2
    have hboro : bo ≠ ro := by rintro rfl; exact hbi (at_inj hr.nodup hb hi)
    obtain ⟨l, hl1, hl2⟩ := hrl.store _ _ _ hst1 hb
    obtain ⟨k1, k2⟩ := hrl.put hb (x := { sl.obj bo with selfbind := true }) (ob := .block ps c hd true) (by
      refine ⟨l, ?_, hl2⟩
      show (if bo = bo then _ else _) = _
      rw [if_pos rfl, hl1])
    have hst2' : (st.store.set b (.block ps c hd true))[i]? = some (.obj p own ms) := by
      rw [List.getElem?_set_ne hbi]; exact hst2
    generalize hsm : sl.put bo { sl.obj bo with selfbind := true } = sm at k1 k2
    obtain ⟨h1, h2, h3, h4, h5⟩ := k1.store _ _ _ hst2' hi
    obtain ⟨k3, k4⟩ := k1.put hi (x := { sm.obj ro with meths := (I k, bo) :: (sm.obj ro).meths }) (ob := .obj p own (upd ms k b)) (by
      have hob : (sm.put ro { sm.obj ro with meths := (I k, bo) :: (sm.obj ro).meths }).obj ro =
        { sm.obj ro with meths := (I k, bo) :: (sm.obj ro).meths } := if_pos rfl
      have e : Ext a sm a (sm.put ro { sm.obj ro with meths := (I k, bo) :: (sm.obj ro).meths }) :=
        ⟨List.prefix_refl _, Nat.le_refl _, fun j _ hv => if_neg fun hj => by subst hj; rw [h1] at hv; cases hv⟩
      refine ⟨by rw [hob]; exact h1, by rw [hob]; exact h2, ?_, h4.ext e (by rw [hob]), fun k' => ?_⟩
      · rw [hob]; exact h3
      · rw [hob]
        unfold upd
        by_cases hk' : k' = k
        · subst hk'
          rw [if_pos rfl]
          exact ⟨bo, hb, by simp only [getp, if_true]⟩
        · rw [if_neg hk']
          have hne : ¬ I k = I k' := fun h => hk' (hI h).symm
          have h5 := h5 k'
          simp only [getp, hne, if_false]
          exact h5)
    refine ⟨a, _, ro, Ev.of_eq fun n => ?_, k3, k2.trans k4, ?_, hi⟩
    · have hkv : (sl.obj ko).val = .str (I k) := by rw [hobj, hk.2]
      have hcode : isCode sm bo = true := by
        have : sm.obj bo = { sl.obj bo with selfbind := true } := by rw [← hsm]; exact if_pos rfl
        simp only [isCode, this, hl1]
      simp only [native, arg, List.cons_append, List.nil_append, List.getElem?_cons_zero, List.getElem?_cons_succ, Res.ok_bind, hkv]
      simp only [hsm, hcode, if_true]
    · show sm.flow = none
      rw [← hsm]; exact hfl
  · cases h

/-- A message to an object. -/
theorem sim_object (hI : Function.Injective I) {ev : Spec.Objects.Task → M V} (hC : SimC I W D s0 ev) {s : St} {st st' : State} {r : Except Sig V}
    (hr : Rep I W s0 a s st) (hf : s.flow = none) {i ro : Nat} (hi : a[i]? = some ro) {sel : List UInt8} {as : List V} {os : List Nat}
    (ho : HoldsAll I a s.obj s.fresh os as) (h : Spec.Objects.object W ev i sel as st = some (r, st')) :
    Sends I W D s0 a s ro (I sel) (os ++ [nilO]) r st' := by
  unfold Spec.Objects.object at h
  split at h
  · cases h
  · rename_i f again h1
    obtain ⟨fo, rec, N, i1, i2, i3⟩ := search_method hr hi _ _ _ _ h1 hi
    exact sim_run hC hr hf hi i1 i2 i3 ho h
  · rename_i h1
    obtain ⟨N, i1⟩ := search_method hr hi _ _ _ _ h1 hi
    exact sim_plainObject hw hI hr hf hi i1 ho h

/-! ### Messages to sequences -/

/-- A built-in operation of sequences. -/
theorem send_seq {s : St} {st st' : State} {r : Except Sig V} (hr : Rep I W s0 a s st) (hf : s.flow = none) {q qo : Nat} (hq : a[q]? = some qo)
    {l : List V} (hst : st.store[q]? = some (.seq l)) {sel : List UInt8} {g : Native} (hm : (sel, g) ∈ arrOps W) {args : List Nat}
    (hn : ∃ a' s' o, Ev (fun n => native (full I D) (exec (full I D) n) g qo args (logged s g qo args)) (s', o) ∧
      Post I W s0 a (logged s g qo args) r st' a' s' o) : Sends I W D s0 a s qo (I sel) args r st' := by
  have := hw.size
  obtain ⟨l, hl, _⟩ := hr.store _ _ _ hst hq
  exact send_post hr hf (p := arrP) (by rw [hl]) (by rw [hl]) (show 8 < _ by omega) (by decide) (hw.sequences _ hm) hn
    fun a' s' hr' x => hr'.chainOff (x.at hq)

/-- A message to a sequence. -/
theorem sim_sequence {ev : Spec.Objects.Task → M V} (hS : SimS I W D s0 ev) {q qo : Nat} {l : List V}
    {st st' : State} {r : Except Sig V} {sel : List UInt8} {as : List V}
    {s : St} {os : List Nat} (hr : Rep I W s0 a s st) (hf : s.flow = none) (hq : a[q]? = some qo) (hst : st.store[q]? = some (.seq l))
    (ho : HoldsAll I a s.obj s.fresh os as) (h : Spec.Objects.sequence W ev q l sel as st = some (r, st')) :
    Sends I W D s0 a s qo (I sel) (os ++ [nilO]) r st' := by
  have := hw.size
  obtain ⟨lo, hl1, hl2⟩ := hr.store _ _ _ hst hq
  have hlt : qo < s.fresh := (hr.high _ (at_mem hq)).2
  unfold Spec.Objects.sequence at h
  by_cases hs : (sel = W.append ∨ sel = W.semicolon) ∧ as.length = 1
  · rw [if_pos hs] at h
    obtain ⟨rfl, rfl⟩ := Prod.mk.inj (Option.some.inj h)
    obtain ⟨v, rfl⟩ : ∃ v, as = [v] := by
      match as, hs.2 with
      | [v], _ => exact ⟨v, rfl⟩
    obtain ⟨o, rfl, hho⟩ := holdsAll_one ho
    refine send_seq hw hr hf hq hst (g := .push) (by rcases hs.1 with hs | hs <;> simp [arrOps, hs]) ?_
    have hrl := hr.quiet (quiet_logged s .push qo ([o] ++ [nilO]))
    obtain ⟨k1, k2⟩ := hrl.put hq (x := { s.obj qo with val := .arr (lo ++ [o]) }) (ob := .seq (l ++ [v])) (by
      have e : Ext a s a ((logged s .push qo ([o] ++ [nilO])).put qo { s.obj qo with val := .arr (lo ++ [o]) }) :=
        ⟨List.prefix_refl _, Nat.le_refl _, fun j _ hv => if_neg fun hj => by subst hj; rw [hl1] at hv; cases hv⟩
      refine ⟨lo ++ [o], ?_, ?_⟩
      · show (if qo = qo then _ else _) = _
        rw [if_pos rfl, hl1]
      · exact HoldsAll.append (ho.ext e) (hl2.ext e))
    refine ⟨a, _, qo, Ev.of_eq fun n => ?_, k1, k2, hf, hq⟩
    have hv : ((logged s .push qo ([o] ++ [nilO])).obj qo).val = .arr lo := by show (s.obj qo).val = _; rw [hl1]
    simp only [native, arg, List.singleton_append, List.getElem?_cons_zero, Res.ok_bind]
    simp only [List.singleton_append] at hv
    simp only [hv]
    rfl
  rw [if_neg hs] at h
  split at h
  · obtain rfl := holdsAll_nil ho
    split at h
    case isFalse => cases h
    case isTrue hs =>
    obtain ⟨rfl, rfl⟩ := Prod.mk.inj (Option.some.inj h)
    have hlen := hl2.length
    refine send_prim hr hf (p := arrP) (k := 19) (by rw [hl1]) (by rw [hl1]) (show 8 < _ by omega) (by decide)
      (hw.sequences (sel, _) (by simp [arrOps, hs.1])) hlt (by rw [hl1]) ?_
    rw [← hlen]
    exact prim_count (s := logged s _ _ _) (by rw [hlen]; exact hs.2) (by show (s.obj qo).val = _; rw [hl1])
  · rename_i n
    obtain ⟨o, rfl, hho⟩ := holdsAll_one ho
    split at h
    case isFalse => cases h
    case isTrue hs =>
    obtain ⟨rfl, rfl⟩ := Prod.mk.inj (Option.some.inj h)
    refine send_prim hr hf (p := arrP) (k := 20) (by rw [hl1]) (by rw [hl1]) (show 8 < _ by omega) (by decide)
      (hw.sequences (sel, _) (by simp [arrOps, hs.1])) hlt (by rw [hl1]) ?_
    exact prim_position (s := logged s _ _ _) hs.2.1 hs.2.2 (by show (s.obj qo).val = _; rw [hl1]) hl2 hho
  · rename_i b
    obtain ⟨bo, rfl, hb⟩ := holdsAll_one ho
    have hb : a[b]? = some bo := hb
    split at h
    case isFalse => cases h
    case isTrue hs =>
    have hrl := hr.quiet (quiet_logged s .each qo ([bo] ++ [nilO]))
    obtain ⟨a1, s1, e1, r1, x1, f1⟩ := hS _ _ _ _ _ _ h a (logged s .each qo ([bo] ++ [nilO])) qo bo hrl hf hq hb
    refine send_seq hw hr hf hq hst (g := .each) (by simp [arrOps, hs.1]) ⟨a1, eatBrk s1, qo, ?_, f1.done r1 x1 (x1.at hq)⟩
    simp only [native, arg, List.singleton_append, List.getElem?_cons_zero, Res.ok_bind,
      show isCode (logged s .each qo (bo :: [nilO])) bo = true from hrl.isCode hb hs.2, if_true]
    exact Ev.bind e1 (.pure _)
  · cases h

/-! ### Messages -/

/-- A message. -/
theorem sim_send (hI : Function.Injective I) (hD : ∀ t, D (I t) = some t) {ev : Spec.Objects.Task → M V} (hC : SimC I W D s0 ev)
    (hL : SimL I W D s0 ev) (hS : SimS I W D s0 ev) {v : V}
    {st st' : State} {r : Except Sig V} {sel : List UInt8} {as : List V}
    {s : St} {ro : Nat} {os : List Nat} (hr : Rep I W s0 a s st) (hf : s.flow = none) (hv : Holds I a s.obj s.fresh ro v)
    (ho : HoldsAll I a s.obj s.fresh os as) (h : Spec.Objects.send W ev v sel as st = some (r, st')) :
    Sends I W D s0 a s ro (I sel) (os ++ [nilO]) r st' := by
  have := hw.size
  cases v with
  | num x =>
    simp only [Spec.Objects.send] at h
    split at h
    · cases h
    · rename_i r1 h1
      obtain ⟨rfl, rfl⟩ := Prod.mk.inj (Option.some.inj h)
      exact sim_number hw h1 hr hf hv ho
  | bool x =>
    simp only [Spec.Objects.send] at h
    split at h
    · rename_i b
      obtain ⟨bo, rfl, hb⟩ := holdsAll_one ho
      split at h
      · rename_i hs
        refine sim_branch hw hC (g := .ifTrue) (by simp [Program.boolOps, hs]) hr hf hv hb x (fun ev args s hs => ?_)
          (by rw [← h]; cases x <;> rfl)
        simp only [native, boolOf, hs, Res.ok_bind]
      split at h
      · rename_i hs
        refine sim_branch hw hC (g := .ifFalse) (by rcases hs with hs | hs <;> simp [Program.boolOps, hs]) hr hf hv hb (!x) (fun ev args s hs => ?_)
          (by rw [← h]; cases x <;> rfl)
        simp only [native, boolOf, hs, Res.ok_bind]
      · cases h
    · obtain rfl := holdsAll_nil ho
      split at h
      · rename_i hs
        obtain ⟨rfl, rfl⟩ := Prod.mk.inj (Option.some.inj h)
        refine sim_leave hw .brk .brk (g := .brk) (by simp [Program.boolOps, hs]) hr hf hv (fun _ h => h) (fun ev args s hs => ?_)
        simp only [native, boolOf, hs, Res.ok_bind]
      split at h
      · rename_i hs
        obtain ⟨rfl, rfl⟩ := Prod.mk.inj (Option.some.inj h)
        refine sim_leave hw .cont .cont (g := .cont) (by simp [Program.boolOps, hs]) hr hf hv (fun _ h => h) (fun ev args s hs => ?_)
        simp only [native, boolOf, hs, Res.ok_bind]
      · obtain ⟨x, h1, rfl, rfl⟩ := lift_some h
        exact sim_boolean hw h1 hr hf hv ho
    · obtain ⟨x, h1, rfl, rfl⟩ := lift_some h
      exact sim_boolean hw h1 hr hf hv ho
  | text t =>
    obtain ⟨x, h1, rfl, rfl⟩ := lift_some h
    exact sim_letters hw hD h1 hr hf hv ho
  | nothing => cases h
  | ref i =>
    simp only [Spec.Objects.send] at h
    split at h
    · rename_i hst
      exact sim_block hw hC hL hr hf hv (by simp only [Spec.Objects.isBlock, hst]) ho h
    · exact sim_object hw hI hC hr hf hv ho h
    · rename_i hst
      exact sim_sequence hw hS hr hf hv hst ho h
    · cases h
  | root =>
    simp only [Spec.Objects.send] at h
    split at h
    case isFalse => cases h
    case isTrue hs =>
    obtain ⟨rfl, rfl⟩ := Prod.mk.inj (Option.some.inj h)
    obtain rfl : ro = objectP := hv
    obtain rfl : as = [] := List.eq_nil_of_length_eq_zero hs.2
    obtain rfl := holdsAll_nil ho
    refine send_own hr hf (g := .make) (show 4 < _ by omega) (by decide) (hw.objects (sel, _) (by simp [objOps, hs.1])) ?_ hw.root
    have hrl := hr.quiet (quiet_logged s .make objectP ([] ++ [nilO]))
    obtain ⟨k1, k2, k3⟩ := hrl.add (x := { val := .obj, link := some objectP }) (ob := .obj none (fun _ => none) fun _ => none) (by
      have hob : (alloc (logged s .make objectP ([] ++ [nilO])) { val := .obj, link := some objectP }).1.obj
        (logged s .make objectP ([] ++ [nilO])).fresh = { val := .obj, link := some objectP } := if_pos rfl
      refine ⟨by rw [hob], by rw [hob], by rw [hob], fun k => ?_, fun k => ?_⟩
      · show getp (Obj.props _) _ = none
        rw [hob]; rfl
      · show getp (Obj.meths _) _ = none
        rw [hob]; rfl)
    exact ⟨_, _, _, Ev.of_eq fun n => rfl, k1, k2, hf, k3⟩
  | list =>
    simp only [Spec.Objects.send] at h
    split at h
    case isFalse => cases h
    case isTrue hs =>
    obtain ⟨rfl, rfl⟩ := Prod.mk.inj (Option.some.inj h)
    obtain rfl : ro = arrP := hv
    rcases hs with ⟨hs, hlen⟩ | ⟨hs, hlen⟩
    · obtain rfl : as = [] := List.eq_nil_of_length_eq_zero hlen
      obtain rfl := holdsAll_nil ho
      refine send_own hr hf (g := .newArr) (show 8 < _ by omega) (by decide) (hw.sequences (sel, _) (by simp [arrOps, hs])) ?_ hw.list
      have hrl := hr.quiet (quiet_logged s .newArr arrP ([] ++ [nilO]))
      obtain ⟨k1, k2, k3⟩ := hrl.add (x := { val := .arr [], link := some arrP }) (ob := .seq []) ⟨[], if_pos rfl, trivial⟩
      exact ⟨_, _, _, Ev.of_eq fun n => rfl, k1, k2, hf, k3⟩
    · obtain ⟨v, rfl⟩ : ∃ v, as = [v] := by
        match as, hlen with
        | [v], _ => exact ⟨v, rfl⟩
      obtain ⟨o, rfl, hho⟩ := holdsAll_one ho
      refine send_own hr hf (g := .newPush) (show 8 < _ by omega) (by decide) (hw.sequences (sel, _) (by simp [arrOps, hs])) ?_ hw.list
      have hrl := hr.quiet (quiet_logged s .newPush arrP ([o] ++ [nilO]))
      have q := Program.quiet_alloc (logged s .newPush arrP ([o] ++ [nilO])) { val := .arr [o], link := some arrP }
      obtain ⟨k1, k2, k3⟩ := hrl.add (x := { val := .arr [o], link := some arrP }) (ob := .seq [v])
        ⟨[o], if_pos rfl, hho.ext ⟨List.prefix_append _ _, q.fresh, fun i hi _ => q.obj i hi⟩, trivial⟩
      exact ⟨_, _, _, Ev.of_eq fun n => rfl, k1, k2, hf, k3⟩
  | other => cases h

omit hw in
/-- The rest of the messages when something is pending. -/
theorem Post.chain {s s' : St} {a' : List Nat} {g : Sig} {st : State} {o : Nat} (h : Post I W s0 a s (.error g) st a' s' o) {ms : List Spec.Node}
    (hm : fewMsgs ms = true) (lit : Bool) (v : Nat) :
    ∃ s'' o', Ev (fun n => chain (exec (full I D) n) lit v (lowerMsgs I W.toWords ms) s') (s'', o') ∧ Post I W s0 a s (.error g) st a' s'' o' := by
  obtain ⟨s2, o2, e2, q2⟩ := silent_chain (env := full I D) _ lit v s' (silentMsgs (I := I) (W := W.toWords) ms hm) h.rep.sandbox (pending_of h.res)
  exact ⟨s2, o2, e2, h.quiet q2⟩

/-- Messages one after the other. -/
theorem sim_chain (hI : Function.Injective I) (hD : ∀ t, D (I t) = some t) {ev : Spec.Objects.Task → M V} (hE : SimE I W D s0 ev)
    (hC : SimC I W D s0 ev) (hL : SimL I W D s0 ev) (hS : SimS I W D s0 ev) :
    ∀ (ms : List Spec.Node) (lit : Bool) (v : V) (st st' : State) (r : Except Sig V), Spec.Objects.chain W ev v ms st = some (r, st') →
    fewMsgs ms = true → ∀ a s ro, Rep I W s0 a s st → s.flow = none → Holds I a s.obj s.fresh ro v →
    ∃ a' s' o, Ev (fun n => chain (exec (full I D) n) lit ro (lowerMsgs I W.toWords ms) s) (s', o) ∧ Post I W s0 a s r st' a' s' o := by
  intro ms
  induction ms with
  | nil =>
    intro lit v st st' r h _ a s ro hr hf hv
    obtain ⟨rfl, rfl⟩ := ret_some h
    exact ⟨a, s, ro, Ev.pure _, hr, .refl a s, hf, hv⟩
  | cons m ms ih =>
    intro lit v st st' r h hw' a s ro hr hf hv
    have step : ∀ (as : List Spec.Node) (sel : List UInt8), as.length ≤ 38 → fewArgs as = true → fewMsgs ms = true →
        (Spec.Objects.args ev as).andThen (fun as => (Spec.Objects.send W ev v sel as).andThen fun v => Spec.Objects.chain W ev v ms) st
          = some (r, st') →
        ∃ a' s' o, Ev (fun n => chain (exec (full I D) n) lit ro ((I sel, lowerAll I W.toWords as) :: lowerMsgs I W.toWords ms) s) (s', o) ∧
          Post I W s0 a s r st' a' s' o := by
      intro as sel hl ha hms h
      simp only [chain, tick_free hr.sandbox, Res.ok_bind]
      rcases andThen_some h with ⟨g, h1, rfl⟩ | ⟨vs, fs1, h1, h2⟩
      · obtain ⟨a1, s1, os, e1, r1, x1, f1⟩ := sim_args hE as (if lit then 1 else 0) _ _ _ h1 ha (by split <;> omega) a s hr hf
        have p1 : Post I W s0 a s (.error g) st' a1 s1 nilO := ⟨r1, x1, f1⟩
        obtain ⟨s2, o2, e2, p2⟩ := p1.chain hms true nilO
        exact ⟨a1, s2, o2, Ev.bind e1 (Ev.bind (send_pending (pending_of f1) ro (I sel) _) e2), p2⟩
      · obtain ⟨a1, s1, os, e1, r1, x1, f1, o1⟩ := sim_args hE as (if lit then 1 else 0) _ _ _ h1 ha (by split <;> omega) a s hr hf
        rcases andThen_some h2 with ⟨g, h3, rfl⟩ | ⟨w, fs2, h3, h4⟩
        · obtain ⟨a2, s2, o2, e2, p2⟩ := sim_send hw hI hD hC hL hS r1 f1 (hv.ext x1) o1 h3
          obtain ⟨s3, o3, e3, p3⟩ := p2.chain hms true o2
          exact ⟨a2, s3, o3, Ev.bind e1 (Ev.bind e2 e3), p3.before x1⟩
        · obtain ⟨a2, s2, o2, e2, p2⟩ := sim_send hw hI hD hC hL hS r1 f1 (hv.ext x1) o1 h3
          obtain ⟨a3, s3, o3, e3, p3⟩ := ih true w _ _ _ h4 hms a2 s2 o2 p2.rep p2.res.1 p2.res.2
          exact ⟨a3, s3, o3, Ev.bind e1 (Ev.bind e2 e3), (p3.before p2.ext).before x1⟩
    cases m with
    | una n =>
      simp only [fewMsgs] at hw'
      exact step [] n (by simp) rfl hw' h
    | bin o a =>
      simp only [fewMsgs, Bool.and_eq_true] at hw'
      exact step [a] o (by simp) (by simp only [fewArgs, hw'.1, Bool.and_true]) hw'.2 h
    | kw ps as =>
      simp only [fewMsgs, Bool.and_eq_true, decide_eq_true_eq] at hw'
      exact step as _ hw'.1.1 hw'.1.2 hw'.2 h
    | _ => cases h

end

end Verif.Model.Objects
