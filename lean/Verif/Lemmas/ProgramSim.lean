import Verif.Lemmas.ProgramQuiet

/-!
# Lemmas: the interpreter does what the reference interpreter does
-/

namespace Verif.Model.Program
open Verif.Model.Interp
open Verif.Spec.Program (Words V Frame Sig M few fewMsgs fewArgs fewStmts)

/-! ### Numbers -/

theorem toInt_holds {x : Float.F} {z : Int} (h : Float.Holds x z) : toInt? x = some z := by
  obtain ⟨n, m, k, rfl, hm, hs⟩ := h.get
  have hp := Float.two_pow_pos k
  simp only [toInt?, hm, Nat.mul_mod_left, if_true, Nat.mul_div_cancel _ hp]
  congr 1
  by_cases hz : z = 0
  · subst hz; cases n <;> rfl
  · rw [hs hz]
    by_cases h : z < 0
    · rw [decide_eq_true h, if_pos rfl]; omega
    · rw [decide_eq_false h, if_neg (by decide)]; omega

theorem holds_ofInt (z : Int) : Float.Holds (ofInt z) z :=
  .of rfl (by simp) fun _ => rfl

theorem natOf_value (t : Text) : Float.natOf t = Spec.Float.value t := rfl

theorem isDigits_all {t : Text} (h : Spec.Program.isDigits t = true) : t ≠ [] ∧ ∀ c ∈ t, Num.isDigit c = true := by
  simp only [Spec.Program.isDigits, Bool.and_eq_true, List.all_eq_true, Bool.not_eq_true', List.isEmpty_eq_false_iff] at h
  exact ⟨h.1, fun c hc => by
    have := h.2 c hc
    simp only [decide_eq_true_eq, UInt8.le_iff_toNat_le] at this
    simp only [Num.isDigit, Bool.and_eq_true, decide_eq_true_eq]
    exact this⟩

theorem takeWhile_all {p : UInt8 → Bool} : ∀ {t : Text}, (∀ c ∈ t, p c = true) → t.takeWhile p = t
  | [], _ => rfl
  | c :: t, h => by
    rw [List.takeWhile_cons, if_pos (h c (by simp)), takeWhile_all fun x hx => h x (by simp [hx])]

theorem dropWhile_all {p : UInt8 → Bool} : ∀ {t : Text}, (∀ c ∈ t, p c = true) → t.dropWhile p = []
  | [], _ => rfl
  | c :: t, h => by
    rw [List.dropWhile_cons, if_pos (h c (by simp)), dropWhile_all fun x hx => h x (by simp [hx])]

theorem atofPlain_digits {t : Text} (h : Spec.Program.isDigits t = true) (neg : Bool) :
    Float.atofPlain neg t = some (Float.rnd neg (Spec.Float.value t) 1) := by
  obtain ⟨h1, h2⟩ := isDigits_all h
  have e1 : t.takeWhile Num.isDigit = t := takeWhile_all h2
  have e2 : t.dropWhile Num.isDigit = [] := dropWhile_all h2
  simp only [Float.atofPlain, e1, e2, h1, if_false, natOf_value]

theorem numberOf_literal {t : Text} {z : Int} (h : Spec.Program.literal t = some z) : numberOf t = z := by
  unfold Spec.Program.literal at h
  split at h
  · rename_i hl
    have et : t.take 40 = t := List.take_of_length_le hl
    unfold numberOf
    rw [et]
    split at h
    · rename_i hd
      obtain rfl := Option.some.inj h
      obtain ⟨h1, h2⟩ := isDigits_all hd.1
      cases t with
      | nil => exact absurd rfl h1
      | cons c t =>
        have hc : c ≠ 45 := by rintro rfl; exact absurd (h2 45 (by simp)) (by decide)
        rw [Float.atof, if_neg hc, atofPlain_digits hd.1]
        rw [Option.bind_some, toInt_holds (Float.rnd_holds (z := (Spec.Float.value (c :: t) : Int)) (by decide) (by simp) (by simpa using hd.2)
          (fun _ => by rw [decide_eq_false (by omega)]))]
        rfl
    · split at h
      · rename_i hd
        obtain rfl := Option.some.inj h
        cases t with
        | nil => cases hd.1
        | cons c t =>
          obtain rfl : c = 45 := by simpa using hd.1
          simp only [List.tail_cons] at hd ⊢
          rw [Float.atof, if_pos rfl, atofPlain_digits hd.2.1]
          rw [Option.bind_some, toInt_holds (Float.rnd_holds (z := -(Spec.Float.value t : Int)) (by decide) (by simp) (by simpa using hd.2.2)
            (fun hz => by rw [decide_eq_true (by omega)]))]
          rfl
      · cases h
  · cases h

/-! ### Lists of values -/

variable {I : List UInt8 → Name} {W : Words}

/-- The values are the objects. -/
def HoldsAll (I : List UInt8 → Name) (W : Words) (s : St) : List Nat → List V → Prop
  | [], [] => True
  | o :: os, v :: vs => Holds I W s o v ∧ HoldsAll I W s os vs
  | _, _ => False

theorem HoldsAll.ext {s s' : St} (e : Ext s s') : ∀ {os : List Nat} {vs : List V}, HoldsAll I W s os vs → HoldsAll I W s' os vs
  | [], [], _ => trivial
  | _ :: _, _ :: _, h => ⟨h.1.ext e, h.2.ext e⟩
  | [], _ :: _, h => h.elim
  | _ :: _, [], h => h.elim

theorem holdsAll_nil {s : St} {os : List Nat} (h : HoldsAll I W s os []) : os = [] := by
  cases os with
  | nil => rfl
  | cons => exact h.elim

theorem holdsAll_cons {s : St} {os : List Nat} {v : V} {vs : List V} (h : HoldsAll I W s os (v :: vs)) :
    ∃ o os', os = o :: os' ∧ Holds I W s o v ∧ HoldsAll I W s os' vs := by
  cases os with
  | nil => exact h.elim
  | cons o os' => exact ⟨o, os', rfl, h.1, h.2⟩

theorem holdsAll_one {s : St} {os : List Nat} {v : V} (h : HoldsAll I W s os [v]) : ∃ o, os = [o] ∧ Holds I W s o v := by
  obtain ⟨o, os', rfl, h1, h2⟩ := holdsAll_cons h
  exact ⟨o, by rw [holdsAll_nil h2], h1⟩

/-! ### Results -/

/-- The pending Break or Continue. -/
def flowOf : Sig → Interp.Flow
  | .brk => .brk
  | .cont => .cont

/-- The outcome of a step that started in `s`. -/
structure Post (I : List UInt8 → Name) (W : Words) (s0 s : St) (r : Except Sig V) (fs : List Frame) (s' : St) (o : Nat) : Prop where
  rep : Rep I W s0 s' fs
  ext : Ext s s'
  res : match r with
    | .ok v => s'.flow = none ∧ Holds I W s' o v
    | .error g => s'.flow = some (flowOf g)

theorem pending_of {s : St} {g : Sig} (h : s.flow = some (flowOf g)) : Pending s :=
  .of_some (by rw [h]; rfl)

theorem Post.quiet {s0 s s' : St} {g : Sig} {fs : List Frame} {o o' : Nat} {s'' : St} (h : Post I W s0 s (.error g) fs s' o)
    (q : Quiet s' s'') : Post I W s0 s (.error g) fs s'' o' :=
  ⟨h.rep.quiet q, h.ext.trans q.ext, q.flow.trans h.res⟩

theorem Post.before {s0 s s1 s' : St} {r : Except Sig V} {fs : List Frame} {o : Nat} (e : Ext s s1)
    (h : Post I W s0 s1 r fs s' o) : Post I W s0 s r fs s' o := ⟨h.rep, e.trans h.ext, h.res⟩

/-! ### Primitives -/

/-- A primitive succeeds with `v`. -/
def Answers (I : List UInt8 → Name) (W : Words) (s : St) (x : Res PrimOut) (v : V) : Prop :=
  ∃ po, x = .ok po ∧ po.err = none ∧ Quiet s { s with obj := po.obj, fresh := po.fresh } ∧
    Holds I W { s with obj := po.obj, fresh := po.fresh } po.val v

theorem answers_num (s : St) {x : Float.F} {z : Int} (h : Float.Holds x z) : Answers I W s (answerNum s.obj s.fresh x) (.num z) := by
  unfold answerNum
  rw [toInt_holds h]
  exact ⟨_, rfl, rfl, ⟨rfl, rfl, rfl, rfl, rfl, rfl, Nat.le_succ _, fun i hi => if_neg (by omega)⟩, Nat.lt_succ_self _, if_pos rfl⟩

theorem answers_bool (s : St) (b : Bool) : Answers I W s (answerBool s.obj s.fresh b) (.bool b) :=
  ⟨_, rfl, rfl, ⟨rfl, rfl, rfl, rfl, rfl, rfl, Nat.le_refl _, fun _ _ => rfl⟩, rfl⟩

theorem prim_num2 {s : St} {r o k : Nat} {a b : Int} (os : List Nat) (hk : k ≠ 10) (hr : Holds I W s r (.num a)) (ho : Holds I W s o (.num b)) :
    arith.prim (.other k) s.obj s.fresh r (o :: os) = numOp k s.obj s.fresh a b := by
  simp only [arith, hr.2, hk, if_false, numArg, ho.2]

theorem small_some {z : Int} {v : V} (h : Spec.Program.small z = some v) : v = .num z ∧ z.natAbs ≤ 2 ^ 53 := by
  unfold Spec.Program.small at h
  split at h
  · rename_i hz; exact ⟨(Option.some.inj h).symm, hz⟩
  · cases h

/-- Messages to numbers. -/
theorem prim_number {a : Int} {sel : List UInt8} {vs : List V} {v : V} (h : Spec.Program.number W a sel vs = some v) :
    ∃ k, (sel, Native.prim (.other k)) ∈ numOps W ∧ ∀ (s : St) (r : Nat) (os xs : List Nat), Holds I W s r (.num a) →
      HoldsAll I W s os vs → Answers I W s (arith.prim (.other k) s.obj s.fresh r (os ++ xs)) v := by
  have two : ∀ (k : Nat) (b : Int), k ≠ 10 → vs = [.num b] → (∀ s : St, Answers I W s (numOp k s.obj s.fresh a b) v) →
      (sel, Native.prim (.other k)) ∈ numOps W →
      ∃ k, (sel, Native.prim (.other k)) ∈ numOps W ∧ ∀ (s : St) (r : Nat) (os xs : List Nat), Holds I W s r (.num a) →
      HoldsAll I W s os vs → Answers I W s (arith.prim (.other k) s.obj s.fresh r (os ++ xs)) v := by
    rintro k b hk rfl ha hm
    refine ⟨k, hm, fun s r os xs hr ho => ?_⟩
    obtain ⟨o, rfl, ho'⟩ := holdsAll_one ho
    rw [List.singleton_append, prim_num2 xs hk hr ho']
    exact ha s
  unfold Spec.Program.number at h
  split at h
  · rename_i b
    split at h
    · rename_i hs
      obtain ⟨rfl, hz⟩ := small_some h
      exact two 0 b (by decide) rfl (fun s => answers_num s ((holds_ofInt a).add (holds_ofInt b) hz)) (by simp [numOps, hs])
    split at h
    · rename_i hs
      obtain ⟨rfl, hz⟩ := small_some h
      exact two 1 b (by decide) rfl (fun s => answers_num s ((holds_ofInt a).sub (holds_ofInt b) hz)) (by simp [numOps, hs])
    split at h
    · rename_i hs
      obtain ⟨rfl, hz⟩ := small_some h
      exact two 2 b (by decide) rfl (fun s => answers_num s ((holds_ofInt a).mul (holds_ofInt b) hz))
        (by rcases hs with hs | hs <;> simp [numOps, hs])
    split at h
    · rename_i hs; obtain rfl := Option.some.inj h
      exact two 3 b (by decide) rfl (fun s => answers_bool s _) (by simp [numOps, hs])
    split at h
    · rename_i hs; obtain rfl := Option.some.inj h
      exact two 4 b (by decide) rfl (fun s => answers_bool s _) (by simp [numOps, hs])
    split at h
    · rename_i hs; obtain rfl := Option.some.inj h
      exact two 5 b (by decide) rfl (fun s => answers_bool s _) (by simp [numOps, hs])
    split at h
    · rename_i hs; obtain rfl := Option.some.inj h
      exact two 6 b (by decide) rfl (fun s => answers_bool s _) (by simp [numOps, hs])
    split at h
    · rename_i hs; obtain rfl := Option.some.inj h
      exact two 7 b (by decide) rfl (fun s => answers_bool s _) (by simp [numOps, hs])
    split at h
    · rename_i hs; obtain rfl := Option.some.inj h
      exact two 8 b (by decide) rfl (fun s => answers_bool s _) (by simp [numOps, hs])
    split at h
    · rename_i hs; obtain rfl := Option.some.inj h
      refine two 9 b (by decide) rfl (fun s => ?_) (by simp [numOps, hs.1])
      simp only [numOp, Float.modulo, (holds_ofInt b).isZero, hs.2, decide_false, Bool.false_eq_true, if_false]
      exact answers_num s ((holds_ofInt a).fmod (holds_ofInt b))
    cases h
  · split at h
    · rename_i hs; obtain rfl := Option.some.inj h
      refine ⟨10, by simp [numOps, hs], fun s r os xs hr ho => ?_⟩
      simp only [arith, hr.2, if_true]
      exact answers_num s (holds_ofInt a).abs
    · cases h
  · cases h

/-- Messages to Booleans. -/
theorem prim_boolean {a : Bool} {sel : List UInt8} {vs : List V} {v : V} (h : Spec.Program.boolean W a sel vs = some v) :
    ∃ k, (sel, Native.prim (.other k)) ∈ boolOps W ∧ ∀ (s : St) (r : Nat) (os xs : List Nat), (s.obj r).val = .bool a →
      (∀ b, (s.obj (if b then trueO else falseO)).val = .bool b) →
      HoldsAll I W s os vs → Answers I W s (arith.prim (.other k) s.obj s.fresh r (os ++ xs)) v := by
  have two : ∀ (k : Nat) (b : Bool), k ≠ 11 → vs = [.bool b] → v = .bool (boolOp k a b) →
      (sel, Native.prim (.other k)) ∈ boolOps W →
      ∃ k, (sel, Native.prim (.other k)) ∈ boolOps W ∧ ∀ (s : St) (r : Nat) (os xs : List Nat), (s.obj r).val = .bool a →
      (∀ b, (s.obj (if b then trueO else falseO)).val = .bool b) →
      HoldsAll I W s os vs → Answers I W s (arith.prim (.other k) s.obj s.fresh r (os ++ xs)) v := by
    rintro k b hk rfl rfl hm
    refine ⟨k, hm, fun s r os xs hr hb ho => ?_⟩
    obtain ⟨o, rfl, ho'⟩ := holdsAll_one ho
    have ho2 : o = if b then trueO else falseO := ho'
    subst ho2
    simp only [List.singleton_append, arith, hr, hk, if_false, boolArg, hb b]
    exact answers_bool s _
  unfold Spec.Program.boolean at h
  split at h
  · rename_i b
    split at h
    · rename_i hs; exact two 12 b (by decide) rfl (Option.some.inj h).symm (by simp [boolOps, hs])
    split at h
    · rename_i hs; exact two 13 b (by decide) rfl (Option.some.inj h).symm (by simp [boolOps, hs])
    split at h
    · rename_i hs; exact two 14 b (by decide) rfl (Option.some.inj h).symm (by simp [boolOps, hs])
    split at h
    · rename_i hs; exact two 15 b (by decide) rfl (Option.some.inj h).symm (by simp [boolOps, hs])
    cases h
  · split at h
    · rename_i hs; obtain rfl := Option.some.inj h
      refine ⟨11, by simp [boolOps, hs], fun s r os xs hr _ ho => ?_⟩
      simp only [arith, hr, if_true]
      exact answers_bool s _
    · cases h
  · cases h

/-! ### Sending -/

/-- The state in which a built-in operation starts. -/
def logged (s : St) (g : Native) (r : Nat) (args : List Nat) : St :=
  { s with recursion := none, log := .native s.deser g r args :: s.log }

theorem quiet_logged {s : St} (h : s.recursion = none) (g : Native) (r : Nat) (args : List Nat) : Quiet s (logged s g r args) :=
  ⟨rfl, rfl, rfl, h.symm, rfl, rfl, Nat.le_refl _, fun _ _ => rfl⟩

theorem Rep.knows {s0 s : St} {fs : List Frame} (h : Rep I W s0 s fs) {p : Nat} {k : Name} {g : Native} (hp : p < s0.fresh)
    (hw : p ≠ worldO) (hk : Knows s0 p k g) : Knows s p k g := by
  obtain ⟨f, h1, h2, h3, h4⟩ := hk
  exact ⟨f, by rw [h.low p hp hw]; exact h1, Nat.lt_of_lt_of_le h2 h.fresh, h3, by rw [h.low f h2 h3]; exact h4⟩

/-- A message that the prototype of the receiver knows as a built-in operation. -/
theorem send_native {s0 s : St} {fs : List Frame} (h : Rep I W s0 s fs) (hf : s.flow = none) {r p : Nat} {m : Name} {g : Native}
    {args : List Nat} (hm : (s.obj r).meths = []) (hl : (s.obj r).link = some p) (hk : Knows s p m g) {s' : St} {v : Nat}
    (hn : Ev (fun n => native arith (exec arith n) g r args (logged s g r args)) (s', v)) (hc : (s'.obj r).chain = false) :
    Ev (fun n => exec arith n (.send r m args) s) (s', v, false) := by
  obtain ⟨f, k1, _, _, k4⟩ := hk
  refine Ev.succ (g := fun n => plain (send arith (exec arith n) n r m args s)) ?_ fun _ => rfl
  unfold plain
  refine Ev.bind (a := (s', v)) ?_ (.pure _)
  refine Ev.later (f := fun n => native arith (exec arith n) g r args (logged s g r args) >>= fun a => Res.ok (a.1, if (a.1.obj r).chain then r else a.2)) ?_ 2 ?_
  · refine Ev.bind hn (Ev.of_eq fun _ => ?_)
    rw [hc]; rfl
  · intro n hn2
    obtain ⟨n, rfl⟩ : ∃ k, n = k + 2 := ⟨n - 2, by omega⟩
    have hs : search s.obj s.stack s.recursion r m (n + 2) r = some (some f, s.recursion) := by
      simp only [search, hm, getp, hl, k1, h.stack, List.contains_nil, Bool.false_eq_true, if_false]
    simp only [send, hf, Option.isSome_none, Bool.false_eq_true, if_false, hs]
    simp only [call, k4, h.deser, Bool.false_and, Bool.false_eq_true, if_false, h.recursion, logged, hf]

/-- A primitive. -/
theorem native_prim {s : St} (hf : s.flow = none) {k r : Nat} {args : List Nat} {v : V}
    (ha : Answers I W s (arith.prim (.other k) s.obj s.fresh r args) v) (ev : Eval) :
    ∃ s' o, native arith ev (.prim (.other k)) r args s = .ok (s', o) ∧ Quiet s s' ∧ s'.flow = none ∧ Holds I W s' o v := by
  obtain ⟨po, h1, h2, h3, h4⟩ := ha
  refine ⟨{ s with obj := po.obj, fresh := po.fresh }, po.val, ?_, h3, hf, h4⟩
  simp only [native, h1, Res.ok_bind, h2, hf]

end Verif.Model.Program
