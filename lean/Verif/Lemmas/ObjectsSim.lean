import Verif.Lemmas.ObjectsHeap
import Verif.Lemmas.ProgramSim
import Verif.Props.Text

/-!
# Lemmas: built-in operations without callbacks do what the specification says
-/

namespace Verif.Model.Objects
open Verif.Model.Interp
open Verif.Model.Program (Knows lower lowerAll Ev Pending toInt_holds holds_ofInt ofInt answerNum answerBool numOp numArg boolArg boolOp arith)
open Verif.Spec.Objects (Words V Frame Ob State Sig M upd)

variable {I : List UInt8 → Name} {W : Words} {D : Name → Option Text} {a : List Nat}

/-! ### Lists of values -/

theorem holdsAll_nil {obj : Nat → Obj} {fr : Nat} {os : List Nat} (h : HoldsAll I a obj fr os []) : os = [] := by
  cases os with
  | nil => rfl
  | cons => exact h.elim

theorem holdsAll_cons {obj : Nat → Obj} {fr : Nat} {os : List Nat} {v : V} {vs : List V} (h : HoldsAll I a obj fr os (v :: vs)) :
    ∃ o os', os = o :: os' ∧ Holds I a obj fr o v ∧ HoldsAll I a obj fr os' vs := by
  cases os with
  | nil => exact h.elim
  | cons o os' => exact ⟨o, os', rfl, h.1, h.2⟩

theorem holdsAll_one {obj : Nat → Obj} {fr : Nat} {os : List Nat} {v : V} (h : HoldsAll I a obj fr os [v]) :
    ∃ o, os = [o] ∧ Holds I a obj fr o v := by
  obtain ⟨o, os', rfl, h1, h2⟩ := holdsAll_cons h
  exact ⟨o, by rw [holdsAll_nil h2], h1⟩

theorem HoldsAll.append {obj : Nat → Obj} {fr : Nat} {ps : List Nat} {ws : List V} (h' : HoldsAll I a obj fr ps ws) :
    ∀ {os : List Nat} {vs : List V}, HoldsAll I a obj fr os vs → HoldsAll I a obj fr (os ++ ps) (vs ++ ws)
  | [], [], _ => h'
  | _ :: _, _ :: _, h => ⟨h.1, HoldsAll.append h' h.2⟩
  | [], _ :: _, h => h.elim
  | _ :: _, [], h => h.elim

theorem HoldsAll.length {obj : Nat → Obj} {fr : Nat} : ∀ {os : List Nat} {vs : List V}, HoldsAll I a obj fr os vs → os.length = vs.length
  | [], [], _ => rfl
  | _ :: _, _ :: _, h => congrArg (· + 1) h.2.length
  | [], _ :: _, h => h.elim
  | _ :: _, [], h => h.elim

theorem HoldsAll.at {obj : Nat → Obj} {fr : Nat} : ∀ {os : List Nat} {vs : List V}, HoldsAll I a obj fr os vs → ∀ (i : Nat) (v : V), vs[i]? = some v →
    ∃ o, os[i]? = some o ∧ Holds I a obj fr o v
  | _ :: _, _ :: _, h, 0, v, e => by
    obtain rfl := Option.some.inj e
    exact ⟨_, rfl, h.1⟩
  | _ :: _, _ :: _, h, i + 1, v, e => h.2.at i v (by simpa using e)
  | [], [], _, _, _, e => by simp at e
  | [], _ :: _, h, _, _, _ => h.elim
  | _ :: _, [], h, _, _, _ => h.elim

/-! ### Results -/

/-- What is pending. -/
def FlowIs (I : List UInt8 → Name) (s : St) : Sig → Prop
  | .brk => s.flow = some .brk
  | .cont => s.flow = some .cont
  | .err t => ∃ e, s.flow = some (.err e) ∧ e < s.fresh ∧
      match t with
      | some t => s.obj e = { val := .str (I t), link := some strP }
      | none => ∃ k, s.obj e = { val := .str k, link := some strP }

theorem pending_of {s : St} {g : Sig} (h : FlowIs I s g) : Pending s := by
  cases g with
  | brk => exact Program.Pending.of_some (by rw [show s.flow = _ from h]; rfl)
  | cont => exact Program.Pending.of_some (by rw [show s.flow = _ from h]; rfl)
  | err t =>
    obtain ⟨e, h, _⟩ := h
    exact Program.Pending.of_some (by rw [h]; rfl)

theorem FlowIs.quiet {s s' : St} {g : Sig} (h : FlowIs I s g) (q : Program.Quiet s s') : FlowIs I s' g := by
  cases g with
  | brk => exact q.flow.trans h
  | cont => exact q.flow.trans h
  | err t =>
    obtain ⟨e, h1, h2, h3⟩ := h
    refine ⟨e, q.flow.trans h1, Nat.lt_of_lt_of_le h2 q.fresh, ?_⟩
    rw [q.obj e h2]
    exact h3

theorem FlowIs.same {s s' : St} {g : Sig} (h : FlowIs I s g) (hf : s'.flow = s.flow) (ho : s'.obj = s.obj) (hr : s'.fresh = s.fresh) :
    FlowIs I s' g := by
  cases g with
  | brk => exact hf.trans h
  | cont => exact hf.trans h
  | err t =>
    obtain ⟨e, h1, h2, h3⟩ := h
    refine ⟨e, hf.trans h1, by rw [hr]; exact h2, ?_⟩
    rw [ho]
    exact h3

theorem FlowIs.raise (s : St) (k : Name) : FlowIs I (raise s k) (.err none) :=
  ⟨s.fresh, rfl, Nat.lt_succ_self _, k, if_pos rfl⟩

/-- The result of a step that ended in `s`. -/
def Outcome (I : List UInt8 → Name) (a : List Nat) (s : St) (o : Nat) : Except Sig V → Prop
  | .ok v => s.flow = none ∧ Holds I a s.obj s.fresh o v
  | .error g => FlowIs I s g

/-- The outcome of a step that started in `s`. -/
structure Post (I : List UInt8 → Name) (W : Words) (s0 : St) (a : List Nat) (s : St) (r : Except Sig V) (st : State) (a' : List Nat) (s' : St)
    (o : Nat) : Prop where
  rep : Rep I W s0 a' s' st
  ext : Ext a s a' s'
  res : Outcome I a' s' o r

theorem Post.quiet {s0 s s' : St} {a' : List Nat} {g : Sig} {st : State} {o o' : Nat} {s'' : St} (h : Post I W s0 a s (.error g) st a' s' o)
    (q : Program.Quiet s' s'') : Post I W s0 a s (.error g) st a' s'' o' :=
  ⟨h.rep.quiet q, h.ext.trans (quiet_ext q), FlowIs.quiet h.res q⟩

theorem Post.before {s0 s s1 s' : St} {a1 a' : List Nat} {r : Except Sig V} {st : State} {o : Nat} (e : Ext a s a1 s1)
    (h : Post I W s0 a1 s1 r st a' s' o) : Post I W s0 a s r st a' s' o := ⟨h.rep, e.trans h.ext, h.res⟩

/-- An error of the interpreter. -/
theorem Rep.fails {s0 s : St} {st : State} (h : Rep I W s0 a s st) (k : Name) (o : Nat) :
    Post I W s0 a s (.error (.err none)) st a (raise s k) o :=
  ⟨h.calm (.raise s k), (Calm.raise s k).ext, FlowIs.raise (I := I) s k⟩

/-! ### Primitives -/

/-- A primitive has this result. -/
def Answers (I : List UInt8 → Name) (a : List Nat) (s : St) (x : Res PrimOut) (r : Except Sig V) : Prop :=
  ∃ po, x = .ok po ∧ Program.Quiet s { s with obj := po.obj, fresh := po.fresh } ∧
    match r with
    | .ok v => po.err = none ∧ Holds I a po.obj po.fresh po.val v
    | .error g => g = .err none ∧ ∃ e, po.err = some e ∧ e < po.fresh ∧ ∃ k, po.obj e = { val := .str k, link := some strP }

theorem answers_num (s : St) {x : Float.F} {z : Int} (h : Float.Holds x z) :
    Answers I a s (answerNum s.obj s.fresh x) (.ok (.num z)) := by
  unfold answerNum
  rw [toInt_holds h]
  exact ⟨_, rfl, ⟨rfl, rfl, rfl, rfl, rfl, rfl, Nat.le_succ _, fun i hi => if_neg (by omega)⟩, rfl, Nat.lt_succ_self _, if_pos rfl⟩

theorem answers_bool (s : St) (b : Bool) : Answers I a s (answerBool s.obj s.fresh b) (.ok (.bool b)) :=
  ⟨_, rfl, ⟨rfl, rfl, rfl, rfl, rfl, rfl, Nat.le_refl _, fun _ _ => rfl⟩, rfl, rfl⟩

theorem answers_same (s : St) {o : Nat} {v : V} (h : Holds I a s.obj s.fresh o v) : Answers I a s (.ok ⟨s.obj, s.fresh, o, none⟩) (.ok v) :=
  ⟨_, rfl, ⟨rfl, rfl, rfl, rfl, rfl, rfl, Nat.le_refl _, fun _ _ => rfl⟩, rfl, h⟩

theorem answers_text (s : St) (t : List UInt8) :
    Answers I a s (answerObj s.obj s.fresh { val := .str (I t), link := some strP }) (.ok (.text t)) :=
  ⟨_, rfl, ⟨rfl, rfl, rfl, rfl, rfl, rfl, Nat.le_succ _, fun i hi => if_neg (by omega)⟩, rfl, Nat.lt_succ_self _, if_pos rfl⟩

theorem answers_div (s : St) (r : Nat) : Answers I a s (divZero s.obj s.fresh r) (.error (.err none)) :=
  ⟨_, rfl, ⟨rfl, rfl, rfl, rfl, rfl, rfl, Nat.le_succ _, fun i hi => if_neg (by omega)⟩, rfl, s.fresh, rfl, Nat.lt_succ_self _, eDivZero, if_pos rfl⟩

theorem small_some {z : Int} {v : V} (h : Spec.Objects.small z = some v) : v = .num z ∧ z.natAbs ≤ 2 ^ 53 := by
  unfold Spec.Objects.small at h
  split at h
  · rename_i hz; exact ⟨(Option.some.inj h).symm, hz⟩
  · cases h

theorem prim_num2 {s : St} {r o k : Nat} {x b : Int} (os : List Nat) (h9 : k ≠ 9) (h10 : k ≠ 10) (h16 : k ≠ 16)
    (hr : Holds I a s.obj s.fresh r (.num x)) (ho : Holds I a s.obj s.fresh o (.num b)) :
    (full I D).prim (.other k) s.obj s.fresh r (o :: os) = numOp k s.obj s.fresh x b := by
  simp only [full, hr.2, h9, h16, or_self, if_false, arith, h10, numArg, ho.2]

theorem prim_div {s : St} {r o k : Nat} {x b : Int} (os : List Nat) (hk : k = 9 ∨ k = 16)
    (hr : Holds I a s.obj s.fresh r (.num x)) (ho : Holds I a s.obj s.fresh o (.num b)) :
    (full I D).prim (.other k) s.obj s.fresh r (o :: os) =
      division ((if k = 9 then Float.modulo else Float.divide) (ofInt x) (ofInt b)) s.obj s.fresh r := by
  simp only [full, hr.2, hk, if_true, numArg, ho.2]

/-- Messages to numbers. -/
theorem prim_number {x : Int} {sel : List UInt8} {vs : List V} {v : Except Sig V} (h : Spec.Objects.number W x sel vs = some v) :
    ∃ k, (sel, Native.prim (.other k)) ∈ numOps W ∧ ∀ (a : List Nat) (s : St) (r : Nat) (os xs : List Nat), Holds I a s.obj s.fresh r (.num x) →
      HoldsAll I a s.obj s.fresh os vs → Answers I a s ((full I D).prim (.other k) s.obj s.fresh r (os ++ xs)) v := by
  have two : ∀ (k : Nat) (b : Int), k ≠ 9 → k ≠ 10 → k ≠ 16 → vs = [.num b] → (∀ (a : List Nat) (s : St), Answers I a s (numOp k s.obj s.fresh x b) v) →
      (sel, Native.prim (.other k)) ∈ numOps W →
      ∃ k, (sel, Native.prim (.other k)) ∈ numOps W ∧ ∀ (a : List Nat) (s : St) (r : Nat) (os xs : List Nat), Holds I a s.obj s.fresh r (.num x) →
      HoldsAll I a s.obj s.fresh os vs → Answers I a s ((full I D).prim (.other k) s.obj s.fresh r (os ++ xs)) v := by
    rintro k b h9 h10 h16 rfl ha hm
    refine ⟨k, hm, fun a s r os xs hr ho => ?_⟩
    obtain ⟨o, rfl, ho'⟩ := holdsAll_one ho
    rw [List.singleton_append, prim_num2 xs h9 h10 h16 hr ho']
    exact ha a s
  have div : ∀ (k : Nat) (b : Int), (k = 9 ∨ k = 16) → vs = [.num b] →
      (∀ (a : List Nat) (s : St) (r : Nat), Answers I a s (division ((if k = 9 then Float.modulo else Float.divide) (ofInt x) (ofInt b)) s.obj s.fresh r) v) →
      (sel, Native.prim (.other k)) ∈ numOps W →
      ∃ k, (sel, Native.prim (.other k)) ∈ numOps W ∧ ∀ (a : List Nat) (s : St) (r : Nat) (os xs : List Nat), Holds I a s.obj s.fresh r (.num x) →
      HoldsAll I a s.obj s.fresh os vs → Answers I a s ((full I D).prim (.other k) s.obj s.fresh r (os ++ xs)) v := by
    rintro k b hk rfl ha hm
    refine ⟨k, hm, fun a s r os xs hr ho => ?_⟩
    obtain ⟨o, rfl, ho'⟩ := holdsAll_one ho
    rw [List.singleton_append, prim_div xs hk hr ho']
    exact ha a s r
  unfold Spec.Objects.number at h
  split at h
  · rename_i b
    by_cases hs : sel = W.plus
    · rw [if_pos hs] at h
      obtain ⟨w, hw, rfl⟩ := Option.map_eq_some_iff.1 h
      obtain ⟨rfl, hz⟩ := small_some hw
      exact two 0 b (by decide) (by decide) (by decide) rfl (fun a s => answers_num s ((holds_ofInt x).add (holds_ofInt b) hz)) (by simp [numOps, Program.numOps, hs])
    rw [if_neg hs] at h
    by_cases hs : sel = W.minus
    · rw [if_pos hs] at h
      obtain ⟨w, hw, rfl⟩ := Option.map_eq_some_iff.1 h
      obtain ⟨rfl, hz⟩ := small_some hw
      exact two 1 b (by decide) (by decide) (by decide) rfl (fun a s => answers_num s ((holds_ofInt x).sub (holds_ofInt b) hz)) (by simp [numOps, Program.numOps, hs])
    rw [if_neg hs] at h
    by_cases hs : sel = W.times ∨ sel = W.star
    · rw [if_pos hs] at h
      obtain ⟨w, hw, rfl⟩ := Option.map_eq_some_iff.1 h
      obtain ⟨rfl, hz⟩ := small_some hw
      exact two 2 b (by decide) (by decide) (by decide) rfl (fun a s => answers_num s ((holds_ofInt x).mul (holds_ofInt b) hz))
        (by rcases hs with hs | hs <;> simp [numOps, Program.numOps, hs])
    rw [if_neg hs] at h
    by_cases hs : sel = W.less
    · rw [if_pos hs] at h
      obtain rfl := Option.some.inj h
      exact two 3 b (by decide) (by decide) (by decide) rfl (fun a s => answers_bool s _) (by simp [numOps, Program.numOps, hs])
    rw [if_neg hs] at h
    by_cases hs : sel = W.greater
    · rw [if_pos hs] at h
      obtain rfl := Option.some.inj h
      exact two 4 b (by decide) (by decide) (by decide) rfl (fun a s => answers_bool s _) (by simp [numOps, Program.numOps, hs])
    rw [if_neg hs] at h
    by_cases hs : sel = W.atMost
    · rw [if_pos hs] at h
      obtain rfl := Option.some.inj h
      exact two 5 b (by decide) (by decide) (by decide) rfl (fun a s => answers_bool s _) (by simp [numOps, Program.numOps, hs])
    rw [if_neg hs] at h
    by_cases hs : sel = W.atLeast
    · rw [if_pos hs] at h
      obtain rfl := Option.some.inj h
      exact two 6 b (by decide) (by decide) (by decide) rfl (fun a s => answers_bool s _) (by simp [numOps, Program.numOps, hs])
    rw [if_neg hs] at h
    by_cases hs : sel = W.equal
    · rw [if_pos hs] at h
      obtain rfl := Option.some.inj h
      exact two 7 b (by decide) (by decide) (by decide) rfl (fun a s => answers_bool s _) (by simp [numOps, Program.numOps, hs])
    rw [if_neg hs] at h
    by_cases hs : sel = W.unequal
    · rw [if_pos hs] at h
      obtain rfl := Option.some.inj h
      exact two 8 b (by decide) (by decide) (by decide) rfl (fun a s => answers_bool s _) (by simp [numOps, Program.numOps, hs])
    rw [if_neg hs] at h
    by_cases hs : sel = W.modulo
    · rw [if_pos hs] at h
      obtain rfl := Option.some.inj h
      refine div 9 b (.inl rfl) rfl (fun a s r => ?_) (by simp [numOps, Program.numOps, hs])
      by_cases hb : b = 0
      · simp only [if_true, Float.modulo, (holds_ofInt b).isZero, hb, decide_true, division]
        exact answers_div s r
      · simp only [if_true, Float.modulo, (holds_ofInt b).isZero, hb, decide_false, Bool.false_eq_true, if_false, division]
        exact answers_num s ((holds_ofInt x).fmod (holds_ofInt b))
    rw [if_neg hs] at h
    by_cases hs : sel = W.over ∨ sel = W.slash
    · rw [if_pos hs] at h
      have hm : (sel, Native.prim (.other 16)) ∈ numOps W := by rcases hs with hs | hs <;> simp [numOps, hs]
      split at h
      · rename_i hb
        obtain rfl := Option.some.inj h
        refine div 16 b (.inr rfl) rfl (fun a s r => ?_) hm
        simp only [show ¬ (16 : Nat) = 9 by decide, if_false, Float.divide, (holds_ofInt b).isZero, hb, decide_true, if_true, division]
        exact answers_div s r
      split at h
      · rename_i hb hd
        obtain ⟨w, hw, rfl⟩ := Option.map_eq_some_iff.1 h
        obtain ⟨rfl, hz⟩ := small_some hw
        refine div 16 b (.inr rfl) rfl (fun a s r => ?_) hm
        simp only [show ¬ (16 : Nat) = 9 by decide, if_false, Float.divide, (holds_ofInt b).isZero, hb, decide_false, Bool.false_eq_true, division]
        exact answers_num s ((holds_ofInt x).quotient (holds_ofInt b) hb (Int.ediv_mul_cancel (Int.dvd_of_emod_eq_zero hd)).symm hz)
      · cases h
    rw [if_neg hs] at h
    cases h
  · split at h
    · rename_i hs; obtain rfl := Option.some.inj h
      refine ⟨10, by simp [numOps, Program.numOps, hs], fun a s r os xs hr ho => ?_⟩
      simp only [full, hr.2, show ¬ ((10 : Nat) = 9 ∨ (10 : Nat) = 16) by decide, if_false, arith, if_true]
      exact answers_num s (holds_ofInt x).abs
    · cases h
  · cases h

/-- Messages to Booleans. -/
theorem prim_boolean {x : Bool} {sel : List UInt8} {vs : List V} {v : V} (h : Spec.Objects.boolean W x sel vs = some v) :
    ∃ k, (sel, Native.prim (.other k)) ∈ Program.boolOps W.toWords ∧ ∀ (a : List Nat) (s : St) (r : Nat) (os xs : List Nat), (s.obj r).val = .bool x →
      (∀ b, (s.obj (if b then trueO else falseO)).val = .bool b) →
      HoldsAll I a s.obj s.fresh os vs → Answers I a s ((full I D).prim (.other k) s.obj s.fresh r (os ++ xs)) (.ok v) := by
  have two : ∀ (k : Nat) (b : Bool), k ≠ 11 → vs = [.bool b] → v = .bool (boolOp k x b) →
      (sel, Native.prim (.other k)) ∈ Program.boolOps W.toWords →
      ∃ k, (sel, Native.prim (.other k)) ∈ Program.boolOps W.toWords ∧ ∀ (a : List Nat) (s : St) (r : Nat) (os xs : List Nat), (s.obj r).val = .bool x →
      (∀ b, (s.obj (if b then trueO else falseO)).val = .bool b) →
      HoldsAll I a s.obj s.fresh os vs → Answers I a s ((full I D).prim (.other k) s.obj s.fresh r (os ++ xs)) (.ok v) := by
    rintro k b hk rfl rfl hm
    refine ⟨k, hm, fun a s r os xs hr hb ho => ?_⟩
    obtain ⟨o, rfl, ho'⟩ := holdsAll_one ho
    have ho2 : o = if b then trueO else falseO := ho'
    subst ho2
    simp only [List.singleton_append, full, arith, hr, hk, if_false, boolArg, hb b]
    exact answers_bool s _
  unfold Spec.Objects.boolean at h
  split at h
  · rename_i b
    split at h
    · rename_i hs; exact two 12 b (by decide) rfl (Option.some.inj h).symm (by simp [Program.boolOps, hs])
    split at h
    · rename_i hs; exact two 13 b (by decide) rfl (Option.some.inj h).symm (by simp [Program.boolOps, hs])
    split at h
    · rename_i hs; exact two 14 b (by decide) rfl (Option.some.inj h).symm (by simp [Program.boolOps, hs])
    split at h
    · rename_i hs; exact two 15 b (by decide) rfl (Option.some.inj h).symm (by simp [Program.boolOps, hs])
    cases h
  · split at h
    · rename_i hs; obtain rfl := Option.some.inj h
      refine ⟨11, by simp [Program.boolOps, hs], fun a s r os xs hr _ ho => ?_⟩
      simp only [full, arith, hr, if_true]
      exact answers_bool s _
    · cases h
  · cases h

/-- Messages to texts. -/
theorem prim_letters (hD : ∀ t, D (I t) = some t) {t : List UInt8} {sel : List UInt8} {vs : List V} {v : V} (h : Spec.Objects.letters W t sel vs = some v) :
    ∃ k, (sel, Native.prim (.other k)) ∈ strOps W ∧ ∀ (a : List Nat) (s : St) (r : Nat) (os xs : List Nat), Holds I a s.obj s.fresh r (.text t) →
      HoldsAll I a s.obj s.fresh os vs → Answers I a s ((full I D).prim (.other k) s.obj s.fresh r (os ++ xs)) (.ok v) := by
  unfold Spec.Objects.letters at h
  split at h
  · rename_i u
    split at h
    · rename_i hs; obtain rfl := Option.some.inj h
      refine ⟨17, by simp [strOps, hs], fun a s r os xs hr ho => ?_⟩
      obtain ⟨o, rfl, ho'⟩ := holdsAll_one ho
      simp only [List.singleton_append, full, hr.2, hD, textArg, ho'.2, if_true]
      exact answers_text s _
    split at h
    · rename_i hs; obtain rfl := Option.some.inj h
      refine ⟨18, by simp [strOps, hs.1], fun a s r os xs hr ho => ?_⟩
      obtain ⟨o, rfl, ho'⟩ := holdsAll_one ho
      simp only [List.singleton_append, full, hr.2, hD, textArg, ho'.2, show ¬ (18 : Nat) = 17 by decide, if_false,
        (Props.Text.C26_equality_partial t u hs.2.1).1]
      exact answers_bool s _
    · cases h
  · cases h

/-- The number of elements. -/
theorem prim_count {s : St} {r : Nat} {l : List Nat} {args : List Nat} (hl : l.length ≤ 2 ^ 53)
    (hr : (s.obj r).val = .arr l) : Answers I a s ((full I D).prim (.other 19) s.obj s.fresh r args) (.ok (.num l.length)) := by
  simp only [full, hr, if_true]
  exact answers_num s (Float.rnd_holds (by decide) (by simp) (by simpa using hl) (by simp))

/-- An element. -/
theorem prim_position {s : St} {r o : Nat} {l : List Nat} {vs : List V} {n : Int} {xs : List Nat} (h1 : -2147483648 < n) (h2 : n ≤ 2147483647)
    (hr : (s.obj r).val = .arr l) (hl : HoldsAll I a s.obj s.fresh l vs) (ho : Holds I a s.obj s.fresh o (.num n)) :
    Answers I a s ((full I D).prim (.other 20) s.obj s.fresh r (o :: xs))
      (.ok (if 1 ≤ n then (vs[(n - 1).toNat]?).getD .nothing else .nothing)) := by
  have hlen := hl.length
  simp only [full, hr, show ¬ (20 : Nat) = 19 by decide, if_false, numArg, ho.2, position]
  rw [if_pos ⟨h1, h2⟩]
  by_cases hn : 1 ≤ n
  · rw [if_pos hn]
    cases hv : vs[(n - 1).toNat]? with
    | none =>
      have := List.getElem?_eq_none_iff.1 hv
      rw [if_pos (by omega)]
      exact answers_same s rfl
    | some v =>
      obtain ⟨p, e1, e2⟩ := hl.at _ _ hv
      have := (List.getElem?_eq_some_iff.1 hv).1
      rw [if_neg (by omega), e1]
      exact answers_same s e2
  · rw [if_neg hn, if_pos (by omega)]
    exact answers_same s rfl

/-! ### Sending -/

/-- The state in which a built-in operation starts. -/
def logged (s : St) (g : Native) (r : Nat) (args : List Nat) : St := { s with log := .native s.deser g r args :: s.log }

theorem quiet_logged (s : St) (g : Native) (r : Nat) (args : List Nat) : Program.Quiet s (logged s g r args) :=
  ⟨rfl, rfl, rfl, rfl, rfl, rfl, Nat.le_refl _, fun _ _ => rfl⟩

/-- A message for which a method is found. -/
theorem send_found {env : Env} {s : St} (hf : s.flow = none) {r f : Nat} {m : Name} {args : List Nat} {rec : Option Nat} {N : Nat}
    (hs : ∀ n, N ≤ n → search s.obj s.stack s.recursion r m n r = some (some f, rec)) {s' : St} {v : Nat}
    (hc : Ev (fun n => call env (exec env n) f r args { s with recursion := rec }) (s', v)) (hch : (s'.obj r).chain = false) :
    Ev (fun n => exec env n (.send r m args) s) (s', v, false) := by
  refine Ev.succ (g := fun n => plain (send env (exec env n) n r m args s)) ?_ fun _ => rfl
  unfold plain
  refine Ev.bind (a := (s', v)) ?_ (.pure _)
  refine Ev.later (f := fun n => call env (exec env n) f r args { s with recursion := rec } >>= fun a => Res.ok (a.1, if (a.1.obj r).chain then r else a.2)) ?_ N ?_
  · refine Ev.bind hc (Ev.of_eq fun _ => ?_)
    rw [hch]; rfl
  · intro n hn
    simp only [send, hf, Option.isSome_none, Bool.false_eq_true, if_false, hs n hn]

/-- A built-in operation of a prototype. -/
theorem Rep.knows {s0 s : St} {st : State} (h : Rep I W s0 a s st) {p : Nat} {k : Name} {g : Native} (hp : p < s0.fresh)
    (hw : p ≠ worldO) (hk : Knows s0 p k g) : ∃ f, getp (s.obj p).meths k = some f ∧ s.stack.contains f = false ∧ (s.obj f).val = .nat g := by
  obtain ⟨f, h1, h2, h3, h4⟩ := hk
  refine ⟨f, by rw [h.low p hp hw]; exact h1, ?_, by rw [h.low f h2 h3]; exact h4⟩
  rw [Bool.eq_false_iff]
  intro hc
  have := h.stackHigh (by simpa using hc : f ∈ s.stack)
  omega

/-- The method found is a built-in operation. -/
theorem call_native {env : Env} {s : St} {f r : Nat} {g : Native} {args : List Nat} (hd : s.deser = false) (hv : (s.obj f).val = .nat g) (ev : Eval) :
    call env ev f r args { s with recursion := s.recursion } = native env ev g r args (logged s g r args) := by
  simp only [call, hv, hd, Bool.false_and, Bool.false_eq_true, if_false, logged]

/-- A message that the prototype of the receiver knows as a built-in operation. -/
theorem send_native {env : Env} {s0 s : St} {st : State} (h : Rep I W s0 a s st) (hf : s.flow = none) {r p : Nat} {m : Name} {g : Native}
    {args : List Nat} (hm : (s.obj r).meths = []) (hl : (s.obj r).link = some p) (hp : p < s0.fresh) (hw : p ≠ worldO) (hk : Knows s0 p m g)
    {s' : St} {v : Nat} (hn : Ev (fun n => native env (exec env n) g r args (logged s g r args)) (s', v)) (hc : (s'.obj r).chain = false) :
    Ev (fun n => exec env n (.send r m args) s) (s', v, false) := by
  obtain ⟨f, k1, k2, k3⟩ := h.knows hp hw hk
  refine send_found hf (f := f) (rec := s.recursion) (N := 2) (fun n hn => ?_) (hn.congr fun n => call_native h.deser k3 _) hc
  obtain ⟨n, rfl⟩ : ∃ k, n = k + 2 := ⟨n - 2, by omega⟩
  simp only [search, hm, getp, hl, k1, k2, Bool.false_eq_true, if_false]

/-- A primitive. -/
theorem native_prim {env : Env} {s : St} (hf : s.flow = none) {k r : Nat} {args : List Nat} {v : Except Sig V}
    (ha : Answers I a s (env.prim (.other k) s.obj s.fresh r args) v) :
    ∃ s' o, (∀ ev, native env ev (.prim (.other k)) r args s = .ok (s', o)) ∧ Calm s s' ∧ Outcome I a s' o v := by
  obtain ⟨po, h1, h2, h3⟩ := ha
  cases v with
  | ok v =>
    refine ⟨{ s with obj := po.obj, fresh := po.fresh }, po.val, fun ev => ?_, .of h2, hf, h3.2⟩
    simp only [native, h1, Res.ok_bind, h3.1, hf]
  | error g =>
    obtain ⟨rfl, e, h3, h4, h5⟩ := h3
    refine ⟨{ s with obj := po.obj, fresh := po.fresh, flow := some (.err e) }, po.val, fun ev => ?_,
      ⟨rfl, rfl, rfl, rfl, rfl, h2.fresh, h2.obj⟩, e, rfl, h4, h5⟩
    simp only [native, h1, Res.ok_bind, h3]

/-- A message that the prototype of the receiver knows as a primitive. -/
theorem send_prim {env : Env} {s0 s : St} {st : State} (h : Rep I W s0 a s st) (hf : s.flow = none) {r p k : Nat} {m : Name}
    {args : List Nat} (hm : (s.obj r).meths = []) (hl : (s.obj r).link = some p) (hp : p < s0.fresh) (hw : p ≠ worldO)
    (hk : Knows s0 p m (.prim (.other k))) (hr : r < s.fresh) (hc : (s.obj r).chain = false) {v : Except Sig V}
    (ha : Answers I a (logged s (.prim (.other k)) r args) (env.prim (.other k) s.obj s.fresh r args) v) :
    ∃ a' s' o, Ev (fun n => exec env n (.send r m args) s) (s', o, false) ∧ Post I W s0 a s v st a' s' o := by
  obtain ⟨s', o, e1, c1, p1⟩ := native_prim (env := env) (s := logged s (.prim (.other k)) r args) hf ha
  have c2 := (Calm.of (quiet_logged s (.prim (.other k)) r args)).trans c1
  refine ⟨a, s', o, ?_, h.calm c2, c2.ext, p1⟩
  exact send_native h hf hm hl hp hw hk (Ev.of_eq fun n => e1 _) (by rw [c2.obj r hr]; exact hc)

end Verif.Model.Objects
