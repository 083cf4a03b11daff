import Verif.Lemmas.Interp
import Verif.Lemmas.InterpMono
import Verif.Spec.Interp

/-!
# Loops and dispatch of the interpreter core
-/

namespace Verif.Model.Interp

open Verif.Spec.Loop (Sig Rounds While Each)
open Verif.Spec.Dispatch (Protos pick)

/-! ## Loops -/

/-- The state without the pending signal. -/
def clear (s : St) : St := { s with flow := none }

/-- The pending signal. -/
def sigOf : Option Flow → Sig Flow
  | none => .normal
  | some .brk => .brk
  | some .cont => .cont
  | some f => .stop f

/-- Round number `i` of `b times: n`: the block is run with that number. -/
def timesBody (env : Env) (b : Nat) (i : Nat) (s s' : St) (sig : Sig Flow) : Prop :=
  ∃ n s2 v q, exec env n (.block b [(newNum s (i : Nat)).2] none) (newNum s (i : Nat)).1 =
    .ok (s2, v, q) ∧ s' = clear s2 ∧ sig = sigOf s2.flow

/-- The condition of a `while:` loop: the block is run and its answer converted. -/
def whileCond (env : Env) (c : Nat) (args : List Nat) (s s' : St) (t : Bool) (sig : Sig Flow) : Prop :=
  ∃ n s1 v q s2, exec env n (.block c args none) s = .ok (s1, v, q) ∧
    cast2bool (exec env n) v s1 = .ok (s2, t) ∧ s' = clear s2 ∧ sig = sigOf s2.flow

/-- The body of a `while:` loop. -/
def whileBody (env : Env) (b : Nat) (args : List Nat) (s s' : St) (sig : Sig Flow) : Prop :=
  ∃ n s2 v q, exec env n (.block b args none) s = .ok (s2, v, q) ∧ s' = clear s2 ∧ sig = sigOf s2.flow

/-- The elements of a sequence. -/
def items (r : Nat) (s : St) : List Nat :=
  match (s.obj r).val with
  | .arr l => l
  | _ => []

/-- One round of `each:`: the block is run with the number, the element and the sequence. -/
def eachBody (env : Env) (r b : Nat) (i x : Nat) (s s' : St) (sig : Sig Flow) : Prop :=
  ∃ n s2 v q, exec env n (.block b [(newNum s (i : Nat)).2, x, r] none) (newNum s (i : Nat)).1 =
    .ok (s2, v, q) ∧ s' = clear s2 ∧ sig = sigOf s2.flow

theorem clear_of_none {s : St} (h : s.flow = none) : clear s = s := by
  unfold clear; cases s; cases h; rfl

theorem eatCont_of_ne {s : St} (h : s.flow ≠ some .cont) : eatCont s = s := if_neg h
theorem eatBrk_of_ne {s : St} (h : s.flow ≠ some .brk) : eatBrk s = s := if_neg h

/-- Only real errors and the end of the program get out. -/
def Out (out : Option Flow) : Prop := out ≠ some .brk ∧ out ≠ some .cont

theorem timesLoop_spec (env : Env) (k b : Nat) : ∀ (n i : Nat) (s s' : St),
    timesLoop (exec env k) b n i s = .ok s' → s.flow = none →
      ∃ out, Rounds (timesBody env b) (i + 1) n s (clear (eatBrk s')) out ∧ (eatBrk s').flow = out ∧
        Out out := by
  intro n
  induction n with
  | zero =>
    intro i s s' h hs
    cases h
    rw [eatBrk_of_ne (by rw [hs]; simp), clear_of_none hs]
    exact ⟨none, .done _ _, hs, by simp [Out]⟩
  | succ n ih =>
    intro i s s' h hs
    simp only [timesLoop] at h
    cases he : exec env k (.block b [(newNum s (i + 1 : Nat)).2] none) (newNum s (i + 1 : Nat)).1 with
    | more => rw [he] at h; cases h
    | exit => rw [he] at h; cases h
    | ub u => rw [he] at h; cases h
    | ok a =>
      obtain ⟨s2, v, q⟩ := a
      rw [he] at h
      simp only [Res.ok_bind] at h
      have hb : ∀ sig, sig = sigOf s2.flow → timesBody env b (i + 1) s (clear s2) sig :=
        fun sig hsig => ⟨k, s2, v, q, he, rfl, hsig⟩
      cases hf : s2.flow with
      | none =>
        have e1 : eatCont s2 = s2 := eatCont_of_ne (by rw [hf]; simp)
        rw [e1, hf] at h
        simp only [Option.isSome, Bool.false_eq_true, if_false] at h
        obtain ⟨out, h1, h2, h3⟩ := ih (i + 1) s2 s' h hf
        refine ⟨out, .normal (hb _ (by rw [hf]; rfl)) ?_, h2, h3⟩
        rw [clear_of_none hf]; exact h1
      | some f =>
        cases f with
        | cont =>
          have e1 : eatCont s2 = clear s2 := if_pos hf
          rw [e1] at h
          simp only [clear, Option.isSome, Bool.false_eq_true, if_false] at h
          obtain ⟨out, h1, h2, h3⟩ := ih (i + 1) (clear s2) s' h rfl
          exact ⟨out, .cont (hb _ (by rw [hf]; rfl)) h1, h2, h3⟩
        | brk =>
          have e1 : eatCont s2 = s2 := eatCont_of_ne (by rw [hf]; simp)
          rw [e1, hf] at h
          simp only [Option.isSome, if_true] at h
          cases h
          have e2 : eatBrk s' = clear s' := if_pos hf
          rw [e2]
          exact ⟨none, .brk (hb _ (by rw [hf]; rfl)), rfl, by simp [Out]⟩
        | exit =>
          have e1 : eatCont s2 = s2 := eatCont_of_ne (by rw [hf]; simp)
          rw [e1, hf] at h
          simp only [Option.isSome, if_true] at h
          cases h
          have e2 : eatBrk s' = s' := eatBrk_of_ne (by rw [hf]; simp)
          rw [e2]
          exact ⟨some .exit, .stop (hb _ (by rw [hf]; rfl)), hf, by simp [Out]⟩
        | err e =>
          have e1 : eatCont s2 = s2 := eatCont_of_ne (by rw [hf]; simp)
          rw [e1, hf] at h
          simp only [Option.isSome, if_true] at h
          cases h
          have e2 : eatBrk s' = s' := eatBrk_of_ne (by rw [hf]; simp)
          rw [e2]
          exact ⟨some (.err e), .stop (hb _ (by rw [hf]; rfl)), hf, by simp [Out]⟩

theorem loopEach_spec (env : Env) (r b : Nat) : ∀ (n i : Nat) (s s' : St) (v : Nat) (q : Bool),
    exec env n (.loopEach r b i) s = .ok (s', v, q) → s.flow = none →
      ∃ out, Each (items r) (eachBody env r b) i s (clear (eatBrk s')) out ∧ (eatBrk s').flow = out ∧
        Out out := by
  intro n
  induction n with
  | zero => intro i s s' v q h; cases h
  | succ n ih =>
    intro i s s' v q h hs
    simp only [exec, eachRound] at h
    split at h
    · rename_i l hl
      have hit : items r s = l := by simp [items, hl]
      split at h
      · rename_i hx
        cases h
        rw [eatBrk_of_ne (by rw [hs]; simp), clear_of_none hs]
        exact ⟨none, .done (by rw [hit]; exact hx), hs, by simp [Out]⟩
      · rename_i x hx
        cases he : exec env n (.block b [(newNum s (i + 1 : Nat)).2, x, r] none)
            (newNum s (i + 1 : Nat)).1 with
        | more => rw [he] at h; cases h
        | exit => rw [he] at h; cases h
        | ub u => rw [he] at h; cases h
        | ok a =>
          obtain ⟨s2, v2, q2⟩ := a
          rw [he] at h
          simp only [Res.ok_bind] at h
          have hb : ∀ sig, sig = sigOf s2.flow → eachBody env r b (i + 1) x s (clear s2) sig :=
            fun sig hsig => ⟨n, s2, v2, q2, he, rfl, hsig⟩
          have hx' : (items r s)[i]? = some x := by rw [hit]; exact hx
          cases hf : s2.flow with
          | none =>
            have e1 : eatCont s2 = s2 := eatCont_of_ne (by rw [hf]; simp)
            rw [e1, hf] at h
            simp only [Option.isSome, Bool.false_eq_true, if_false] at h
            obtain ⟨out, h1, h2, h3⟩ := ih (i + 1) s2 s' v q h hf
            refine ⟨out, .normal hx' (hb _ (by rw [hf]; rfl)) ?_, h2, h3⟩
            rw [clear_of_none hf]; exact h1
          | some f =>
            cases f with
            | cont =>
              have e1 : eatCont s2 = clear s2 := if_pos hf
              rw [e1] at h
              simp only [clear, Option.isSome, Bool.false_eq_true, if_false] at h
              obtain ⟨out, h1, h2, h3⟩ := ih (i + 1) (clear s2) s' v q h rfl
              exact ⟨out, .cont hx' (hb _ (by rw [hf]; rfl)) h1, h2, h3⟩
            | brk =>
              have e1 : eatCont s2 = s2 := eatCont_of_ne (by rw [hf]; simp)
              rw [e1, hf] at h
              simp only [Option.isSome, if_true] at h
              cases h
              have e2 : eatBrk s' = clear s' := if_pos hf
              rw [e2]
              exact ⟨none, .brk hx' (hb _ (by rw [hf]; rfl)), rfl, by simp [Out]⟩
            | exit =>
              have e1 : eatCont s2 = s2 := eatCont_of_ne (by rw [hf]; simp)
              rw [e1, hf] at h
              simp only [Option.isSome, if_true] at h
              cases h
              have e2 : eatBrk s' = s' := eatBrk_of_ne (by rw [hf]; simp)
              rw [e2]
              exact ⟨some .exit, .stop hx' (hb _ (by rw [hf]; rfl)), hf, by simp [Out]⟩
            | err e =>
              have e1 : eatCont s2 = s2 := eatCont_of_ne (by rw [hf]; simp)
              rw [e1, hf] at h
              simp only [Option.isSome, if_true] at h
              cases h
              have e2 : eatBrk s' = s' := eatBrk_of_ne (by rw [hf]; simp)
              rw [e2]
              exact ⟨some (.err e), .stop hx' (hb _ (by rw [hf]; rfl)), hf, by simp [Out]⟩
    · cases h

theorem loopWhile_spec (env : Env) (b c : Nat) (args : List Nat) :
    ∀ (n : Nat) (s s' : St) (v : Nat) (q : Bool),
    exec env n (.loopWhile b c args) s = .ok (s', v, q) → s.flow = none →
      ((eatBrk s').flow = some .cont ∧ ∃ s0 t, whileCond env c args s0 (clear (eatBrk s')) t .cont) ∨
      ∃ out, While (whileCond env c args) (whileBody env b args) s (clear (eatBrk s')) out ∧
        (eatBrk s').flow = out ∧ Out out := by
  intro n
  induction n with
  | zero => intro s s' v q h; cases h
  | succ n ih =>
    intro s s' v q h hs
    simp only [exec, whileRound, hs, Option.isSome, Bool.false_eq_true, if_false] at h
    cases he : exec env n (.block c args none) s with
    | more => rw [he] at h; cases h
    | exit => rw [he] at h; cases h
    | ub u => rw [he] at h; cases h
    | ok a =>
      obtain ⟨s1, v1, q1⟩ := a
      rw [he] at h
      simp only [Res.ok_bind] at h
      cases hk : cast2bool (exec env n) v1 s1 with
      | more => rw [hk] at h; cases h
      | exit => rw [hk] at h; cases h
      | ub u => rw [hk] at h; cases h
      | ok a =>
        obtain ⟨s2, t⟩ := a
        rw [hk] at h
        simp only [Res.ok_bind] at h
        have hcond : ∀ sig, sig = sigOf s2.flow → whileCond env c args s (clear s2) t sig :=
          fun sig hsig => ⟨n, s1, v1, q1, s2, he, hk, rfl, hsig⟩
        cases hf : s2.flow with
        | some f =>
          rw [if_pos (by rw [hf]; simp)] at h
          cases h
          cases f with
          | cont =>
            have e2 : eatBrk s' = s' := eatBrk_of_ne (by rw [hf]; simp)
            rw [e2]
            exact .inl ⟨hf, s, t, hcond .cont (by rw [hf]; rfl)⟩
          | brk =>
            have e2 : eatBrk s' = clear s' := if_pos hf
            rw [e2]
            exact .inr ⟨none, .condBrk (hcond _ (by rw [hf]; rfl)), rfl, by simp [Out]⟩
          | exit =>
            have e2 : eatBrk s' = s' := eatBrk_of_ne (by rw [hf]; simp)
            rw [e2]
            exact .inr ⟨some .exit, .condStop (hcond _ (by rw [hf]; rfl)), hf, by simp [Out]⟩
          | err e =>
            have e2 : eatBrk s' = s' := eatBrk_of_ne (by rw [hf]; simp)
            rw [e2]
            exact .inr ⟨some (.err e), .condStop (hcond _ (by rw [hf]; rfl)), hf, by simp [Out]⟩
        | none =>
          have hcn := hcond .normal (by rw [hf]; rfl)
          rw [clear_of_none hf] at hcn
          cases t with
          | false =>
            rw [if_pos (.inl rfl)] at h
            cases h
            rw [eatBrk_of_ne (by rw [hf]; simp), clear_of_none hf]
            exact .inr ⟨none, .false hcn, hf, by simp [Out]⟩
          | true =>
            rw [if_neg (by rw [hf]; simp)] at h
            cases hb : exec env n (.block b args none) s2 with
            | more => rw [hb] at h; cases h
            | exit => rw [hb] at h; cases h
            | ub u => rw [hb] at h; cases h
            | ok a =>
              obtain ⟨s3, v3, q3⟩ := a
              rw [hb] at h
              simp only [Res.ok_bind] at h
              have hbody : ∀ sig, sig = sigOf s3.flow → whileBody env b args s2 (clear s3) sig :=
                fun sig hsig => ⟨n, s3, v3, q3, hb, rfl, hsig⟩
              have stop : ∀ f, s3.flow = some f → f ≠ .cont →
                  s' = s3 := by
                intro f hf3 hne
                have e1 : eatCont s3 = s3 := eatCont_of_ne (by rw [hf3]; simpa using hne)
                rw [e1] at h
                cases n with
                | zero => cases h
                | succ n =>
                  simp only [exec, whileRound, hf3, Option.isSome, if_true] at h
                  cases h; rfl
              cases hf3 : s3.flow with
              | none =>
                have e1 : eatCont s3 = s3 := eatCont_of_ne (by rw [hf3]; simp)
                rw [e1] at h
                rcases ih s3 s' v q h hf3 with hl | ⟨out, h1, h2, h3⟩
                · exact .inl hl
                have hbn := hbody .normal (by rw [hf3]; rfl)
                rw [clear_of_none hf3] at hbn
                exact .inr ⟨out, .normal hcn hbn h1, h2, h3⟩
              | some f =>
                cases f with
                | cont =>
                  have e1 : eatCont s3 = clear s3 := if_pos hf3
                  rw [e1] at h
                  rcases ih (clear s3) s' v q h rfl with hl | ⟨out, h1, h2, h3⟩
                  · exact .inl hl
                  exact .inr ⟨out, .cont hcn (hbody _ (by rw [hf3]; rfl)) h1, h2, h3⟩
                | brk =>
                  rw [stop _ hf3 (by simp)]
                  have e2 : eatBrk s3 = clear s3 := if_pos hf3
                  rw [e2]
                  exact .inr ⟨none, .brk hcn (hbody _ (by rw [hf3]; rfl)), rfl, by simp [Out]⟩
                | exit =>
                  rw [stop _ hf3 (by simp)]
                  have e2 : eatBrk s3 = s3 := eatBrk_of_ne (by rw [hf3]; simp)
                  rw [e2]
                  exact .inr ⟨some .exit, .stop hcn (hbody _ (by rw [hf3]; rfl)), hf3, by simp [Out]⟩
                | err e =>
                  rw [stop _ hf3 (by simp)]
                  have e2 : eatBrk s3 = s3 := eatBrk_of_ne (by rw [hf3]; simp)
                  rw [e2]
                  exact .inr ⟨some (.err e), .stop hcn (hbody _ (by rw [hf3]; rfl)), hf3, by simp [Out]⟩

/-! ## Dispatch -/

/-- A method may run if it is not running yet, or if recursion was requested for the receiver. -/
def mayRun (s : St) (r f : Nat) : Bool := !s.stack.contains f || s.recursion == some r

/-- Method of an object for a message. -/
def methodOf (s : St) (m : Name) (o : Nat) : Option Nat := getp (s.obj o).meths m

theorem search_spec (s : St) (r : Nat) (m : Name) {o : Nat} {l : List Nat}
    (hl : Protos (fun o => (s.obj o).link) o l) : ∀ n, l.length ≤ n →
      search s.obj s.stack s.recursion r m n o =
        match pick (methodOf s m) (mayRun s r) l with
        | some f => some (some f, if s.stack.contains f then none else s.recursion)
        | none => some (none, s.recursion) := by
  have own : ∀ (o : Nat) (rest : Option (Option Nat × Option Nat)) (p : Option Nat),
      rest = (match p with
        | some f => some (some f, if s.stack.contains f then none else s.recursion)
        | none => some (none, s.recursion)) →
      (match getp (s.obj o).meths m with
        | none => rest
        | some f => if s.stack.contains f then
            if s.recursion = some r then some (some f, none) else rest
          else some (some f, s.recursion)) =
      (match (match methodOf s m o with
          | some f => if mayRun s r f then some f else p
          | none => p) with
        | some f => some (some f, if s.stack.contains f then none else s.recursion)
        | none => some (none, s.recursion)) := by
    intro o rest p hr
    subst hr
    simp only [methodOf]
    cases hg : getp (s.obj o).meths m with
    | none => rfl
    | some f =>
      dsimp only
      cases hc : s.stack.contains f with
      | true =>
        by_cases hrec : s.recursion = some r
        · have : mayRun s r f = true := by simp [mayRun, hrec]
          simp only [if_true, if_pos hrec, this, hc]
        · have : mayRun s r f = false := by simp only [mayRun, hc]; simp [hrec]
          simp only [if_true, if_neg hrec, this, Bool.false_eq_true, if_false]
      | false =>
        have : mayRun s r f = true := by simp only [mayRun, hc]; rfl
        simp only [this, Bool.false_eq_true, if_true, if_false, hc]
  induction hl with
  | last h =>
    intro n hn
    cases n with
    | zero => simp at hn
    | succ n =>
      rw [search]
      rw [h]
      exact own _ _ none rfl
  | more h _ ih =>
    intro n hn
    cases n with
    | zero => simp at hn
    | succ n =>
      simp only [List.length_cons] at hn
      have := ih n (by omega)
      rw [search]
      rw [h]
      exact own _ _ _ this

theorem send_found (env : Env) (ev : Eval) {n r f : Nat} {m : Name} {args : List Nat} {s : St}
    {rec : Option Nat} (hf : s.flow = none)
    (hs : search s.obj s.stack s.recursion r m n r = some (some f, rec)) :
    send env ev n r m args s = (call env ev f r args { s with recursion := rec } >>= fun a =>
      .ok (a.1, if (a.1.obj r).chain then r else a.2)) := by
  unfold send
  rw [if_neg (by rw [hf]; simp), hs]

theorem send_missing (env : Env) (ev : Eval) {n r : Nat} {m : Name} {args : List Nat} {s : St}
    {rec : Option Nat} (hf : s.flow = none)
    (hs : search s.obj s.stack s.recursion r m n r = some (none, rec)) :
    send env ev n r m args s =
      (ev (.send r (respondName (args.length - 1)) ((newStr { s with recursion := rec } m).2 :: args))
        (newStr { s with recursion := rec } m).1 >>= fun a =>
          .ok (a.1, if (a.1.obj r).chain then r else a.2.1)) := by
  unfold send
  rw [if_neg (by rw [hf]; simp), hs]

theorem call_native (env : Env) (ev : Eval) {f r : Nat} {g : Native} {args : List Nat} {s : St}
    (hg : (s.obj f).val = .nat g) (hd : s.deser = false) :
    call env ev f r args s = native env ev g r args { s with log := .native false g r args :: s.log } := by
  unfold call
  rw [hg]
  simp only
  rw [if_neg (by rw [hd]; simp), hd]

theorem call_method (env : Env) (ev : Eval) {f r : Nat} {args : List Nat} {s : St} {ps : List Name}
    {body : List Node} (hg : (s.obj f).val = .code ps body) (hsb : (s.obj f).selfbind = true)
    (hst : s.stack.length < 301) :
    call env ev f r args s = (ev (.block f args (some r)) { s with stack := f :: s.stack } >>= fun a =>
      .ok ({ a.1 with stack := a.1.stack.tail }, a.2.1)) := by
  unfold call
  rw [hg]
  simp only
  rw [if_pos hsb, if_neg (by omega)]

/-! ## Blocks without a body -/

/-- Only new objects (and the record of what was executed) have changed. -/
structure Grow (s s' : St) : Prop where
  flow : s'.flow = s.flow
  ctxs : s'.ctxs = s.ctxs
  stack : s'.stack = s.stack
  recursion : s'.recursion = s.recursion
  deser : s'.deser = s.deser
  fresh : s.fresh ≤ s'.fresh
  obj : ∀ i, i < s.fresh → s'.obj i = s.obj i

/-- Only object `d` has changed. -/
structure Only (d : Nat) (s s' : St) : Prop where
  flow : s'.flow = s.flow
  ctxs : s'.ctxs = s.ctxs
  stack : s'.stack = s.stack
  recursion : s'.recursion = s.recursion
  deser : s'.deser = s.deser
  fresh : s'.fresh = s.fresh
  obj : ∀ i, i ≠ d → s'.obj i = s.obj i

theorem Only.refl (d : Nat) (s : St) : Only d s s := ⟨rfl, rfl, rfl, rfl, rfl, rfl, fun _ _ => rfl⟩

theorem Only.trans {d : Nat} {a b c : St} (h : Only d a b) (k : Only d b c) : Only d a c :=
  ⟨k.flow.trans h.flow, k.ctxs.trans h.ctxs, k.stack.trans h.stack, k.recursion.trans h.recursion,
    k.deser.trans h.deser, k.fresh.trans h.fresh, fun i hi => (k.obj i hi).trans (h.obj i hi)⟩

theorem only_assignLocal {d : Nat} {l : List Nat} {s : St} (h : s.ctxs = d :: l) (k : Name) (v : Nat) :
    Only d s (assignLocal s k v).1 := by
  unfold assignLocal
  split
  · exact Only.refl d s
  · rw [h]
    refine ⟨rfl, rfl, rfl, rfl, rfl, rfl, fun i hi => ?_⟩
    simp [setProp, St.put, hi]

theorem only_bindParams {d : Nat} {l : List Nat} : ∀ (ps : List Name) (as : List Nat) (s : St),
    s.ctxs = d :: l → Only d s (bindParams s ps as) := by
  intro ps
  induction ps with
  | nil => intro as s _; cases as <;> exact Only.refl d s
  | cons p ps ih =>
    intro as s h
    cases as with
    | nil => exact Only.refl d s
    | cons a as =>
      have h1 := only_assignLocal h p a
      exact h1.trans (ih as _ (h1.ctxs.trans h))

theorem only_enter {d : Nat} {l : List Nat} {s : St} (h : s.ctxs = d :: l) (ps : List Name)
    (as : List Nat) (b : Nat) : Only d s (enter ps as none b s) := by
  have h1 := only_bindParams ps as s h
  exact h1.trans (only_assignLocal (h1.ctxs.trans h) _ _)

/-- Running a block without a body. -/
theorem blockRun_empty (ev : Eval) (b : Nat) (args : List Nat) (s : St) (ps : List Name)
    (hb : (s.obj b).val = .code ps []) (hf : s.flow = none) (h0 : 0 < s.ctxs.length)
    (h : s.ctxs.length < 300) : ∃ s', blockRun ev b args none s = .ok (s', b) ∧ Grow s s' := by
  have hopen : ∃ s1, openCtx { s with log := .block b args none :: s.log } = .ok s1 ∧
      s1.flow = s.flow ∧ s1.ctxs = s.fresh :: s.ctxs ∧ s1.stack = s.stack ∧ s1.recursion = s.recursion ∧
      s1.deser = s.deser ∧ s1.fresh = s.fresh + 1 ∧ ∀ i, i < s.fresh → s1.obj i = s.obj i := by
    unfold openCtx
    dsimp only
    rw [if_neg (by omega), if_neg (by omega)]
    refine ⟨_, rfl, rfl, rfl, rfl, rfl, rfl, rfl, fun i hi => ?_⟩
    have : i ≠ s.fresh := by omega
    simp [alloc, this]
  obtain ⟨s1, e1, f1, c1, st1, r1, d1, fr1, o1⟩ := hopen
  have he := only_enter c1 ps args b
  refine ⟨closeCtx (enter ps args none b s1), ?_, ?_⟩
  · unfold blockRun
    rw [hb]
    simp only
    rw [e1]
    simp only [Res.ok_bind, runList]
    have hcf : (closeCtx (enter ps args none b s1)).flow = none := by
      have : ∀ t, (closeCtx t).flow = t.flow := by intro t; unfold closeCtx; split <;> rfl
      rw [this, he.flow, f1, hf]
    unfold handle
    rw [hcf]
    rfl
  · have hc : closeCtx (enter ps args none b s1) = { enter ps args none b s1 with ctxs := s.ctxs } := by
      unfold closeCtx
      rw [he.ctxs, c1]
      cases hl : s.ctxs with
      | nil => rw [hl] at h0; simp at h0
      | cons d l => rfl
    rw [hc]
    refine ⟨he.flow.trans f1, rfl, he.stack.trans st1, he.recursion.trans r1, he.deser.trans d1, ?_, ?_⟩
    · show s.fresh ≤ (enter ps args none b s1).fresh
      rw [he.fresh]; omega
    · intro i hi
      exact (he.obj i (by omega)).trans (o1 i hi)

end Verif.Model.Interp
