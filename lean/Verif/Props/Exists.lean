import Verif.Model.Exists
import Verif.Spec.Exists
import Verif.Props.Interp

/-!
# Properties of asking what there is: C111
-/

namespace Verif.Props.Exists
open Verif.Model.Interp Verif.Spec.Exists

/-- C111: `find:` says True exactly of the names that can be used, and the question for a message says True exactly if the object of
that name understands it. -/
def C111_full : Prop := ∀ (env : Env) (bare : Name → Option Name) (s : St), s.flow = none → s.sandbox = false →
  (∀ k, objectExists s k = true ↔ ∃ o, Usable env s k o) ∧
  (∀ k k' m, bare k = some k' → (messageExists bare s k m = true ↔ ∃ o, Usable env s k' o ∧ Understands s.obj m o))

theorem getp_mem {l : List (Name × Nat)} {k : Name} {v : Nat} (h : getp l k = some v) : (k, v) ∈ l := by
  fun_induction getp l k with
  | case1 => cases h
  | case2 => cases h; exact List.mem_cons_self
  | case3 k' v' l hne ih => exact List.mem_cons_of_mem _ (ih h)

theorem mem_getp {l : List (Name × Nat)} {k : Name} {v : Nat} (h : (k, v) ∈ l) : (getp l k).isSome = true := by
  fun_induction getp l k with
  | case1 => cases h
  | case2 => rfl
  | case3 k' v' l hne ih =>
    rcases List.mem_cons.1 h with e | e
    · exact absurd (Prod.mk.inj e).1.symm hne
    · exact ih e

/-- What a statement that consists of a name does. -/
theorem ref_exec (env : Env) (n : Nat) (s : St) (hb : s.sandbox = false) (k : Name) :
    exec env (n + 1) (.expr (.ref false k)) s =
      .ok ((find { s with evals := s.evals + 1 } k).1, (find { s with evals := s.evals + 1 } k).2, false) := by
  have ht : tick s = .ok s := by unfold tick; rw [hb]; rfl
  simp only [exec, expr, ht, Res.ok_bind, Bool.false_eq_true, if_false]

theorem usable_iff {env : Env} {s : St} (hf : s.flow = none) (hb : s.sandbox = false) (k : Name) (o : Nat) :
    Usable env s k o ↔ findIn s.obj s.ctxs k = some o ∨
      (findIn s.obj s.ctxs k = none ∧ getp (s.obj worldO).props k = some o) := by
  have key : ∀ n, exec env (n + 1) (.expr (.ref false k)) s =
      match findIn s.obj s.ctxs k with
      | some v => .ok ({ s with evals := s.evals + 1 }, v, false)
      | none =>
        match getp (s.obj worldO).props k with
        | some v => .ok ({ s with evals := s.evals + 1 }, v, false)
        | none => .ok (raise { s with evals := s.evals + 1 } eKnf, nilO, false) := by
    intro n
    rw [ref_exec env n s hb]
    unfold find
    simp only [hf, Option.isSome_none, Bool.false_eq_true, if_false]
    cases findIn s.obj s.ctxs k with
    | some v => rfl
    | none => cases getp (s.obj worldO).props k <;> rfl
  constructor
  · rintro ⟨n, s', q, h, hf'⟩
    cases n with
    | zero => cases h
    | succ n =>
      rw [key] at h
      cases h1 : findIn s.obj s.ctxs k with
      | some v => rw [h1] at h; cases h; exact .inl rfl
      | none =>
        rw [h1] at h
        cases h2 : getp (s.obj worldO).props k with
        | some v => rw [h2] at h; cases h; exact .inr ⟨rfl, rfl⟩
        | none => rw [h2] at h; cases h; cases hf'
  · rintro (h | ⟨h, h'⟩)
    · exact ⟨1, { s with evals := s.evals + 1 }, false, by rw [key, h], hf⟩
    · exact ⟨1, { s with evals := s.evals + 1 }, false, by rw [key, h, h'], hf⟩

/-- C111, part: after a program, and hence between its statements, `find:` says True exactly of the names that can be used there.
Inside of blocks local variables are missing (`C111_violated`); there True is still right (`C111_inner`). -/
theorem C111_partial {env : Env} (henv : env.Safe) (n : Nat) (p : List Node) (s s' : St) (r : Option Nat)
    (hc : s.ctxs = [worldO]) (hst : s.stack = []) (h : program env n p s = .ok (s', r)) (hf : s'.flow = none)
    (hb : s'.sandbox = false) (k : Name) :
    objectExists s' k = true ↔ ∃ o, Usable env s' k o := by
  have hctx := ((Interp.C14 henv n p s hc hst).2 s' r h).1
  have hfi : findIn s'.obj s'.ctxs k = getp (s'.obj worldO).props k := by
    rw [hctx]
    unfold findIn findIn
    cases getp (s'.obj worldO).props k <;> rfl
  unfold objectExists
  constructor
  · intro h
    obtain ⟨o, ho⟩ := Option.isSome_iff_exists.1 h
    exact ⟨o, (usable_iff hf hb k o).2 (.inl (hfi.trans ho))⟩
  · rintro ⟨o, ho⟩
    rcases (usable_iff hf hb k o).1 ho with h | ⟨-, h⟩
    · rw [← hfi, h]; rfl
    · rw [h]; rfl

/-- `☞ x ≔ 5.` at the top of a program, and a name that was never assigned. -/
example : ((program demo 20 [.assign .loc vX (.num 5)] boot).sat fun a =>
    a.1.flow.isNone && !a.1.sandbox && objectExists a.1 vX && !objectExists a.1 vY) = true := by decide +kernel

/-- C111: wherever it is asked, a name that `find:` says True of can be used. -/
theorem C111_inner (env : Env) (s : St) (hf : s.flow = none) (hb : s.sandbox = false) (k : Name)
    (h : objectExists s k = true) : ∃ o, Usable env s k o := by
  obtain ⟨o, ho⟩ := Option.isSome_iff_exists.1 h
  cases h1 : findIn s.obj s.ctxs k with
  | some v => exact ⟨v, (usable_iff hf hb k v).2 (.inl h1)⟩
  | none => exact ⟨o, (usable_iff hf hb k o).2 (.inr ⟨h1, ho⟩)⟩

/-- In a block that has a variable of its own. -/
example : ((openCtx boot).sat fun s => s.flow.isNone && !s.sandbox && objectExists s vObject && s.ctxs.length == 2) = true := by
  decide +kernel

/-- C111: what the question for a message says is about the methods of the object itself: it says True exactly if the object has
one of that name. -/
theorem C111_message {bare : Name → Option Name} {s : St} {k k' m : Name} (hk : bare k = some k') :
    messageExists bare s k m = true ↔ ∃ o, objectExists s k' = true ∧ getp (s.obj worldO).props k' = some o ∧
      ∃ f, (m, f) ∈ (s.obj o).meths := by
  unfold messageExists objectExists
  rw [hk]
  dsimp only
  cases h : getp (s.obj worldO).props k' with
  | none => simp
  | some o =>
    dsimp only
    constructor
    · intro h'
      obtain ⟨f, hf⟩ := Option.isSome_iff_exists.1 h'
      exact ⟨o, rfl, rfl, f, getp_mem hf⟩
    · rintro ⟨o', -, e, f, hf⟩
      cases e
      exact mem_getp hf

/-- The operation `new` of objects. -/
example : messageExists some boot vObject mNew = true ∧ messageExists some boot vObject mEach = false := by decide +kernel

/-- C111: if the question for a message says True after a program, the object of that name is there and understands the message. -/
theorem C111_answer {env : Env} (henv : env.Safe) (n : Nat) (p : List Node) (s s' : St) (r : Option Nat)
    (hc : s.ctxs = [worldO]) (hst : s.stack = []) (h : program env n p s = .ok (s', r)) (hf : s'.flow = none)
    (hb : s'.sandbox = false) {bare : Name → Option Name} {k k' m : Name} (hk : bare k = some k')
    (hm : messageExists bare s' k m = true) : ∃ o, Usable env s' k' o ∧ Understands s'.obj m o := by
  obtain ⟨o, -, h2, f, h3⟩ := (C111_message hk).1 hm
  have hctx := ((Interp.C14 henv n p s hc hst).2 s' r h).1
  refine ⟨o, (usable_iff hf hb k' o).2 (.inl ?_), .own h3⟩
  rw [hctx]
  unfold findIn
  rw [h2]

example : ((program demo 20 [.assign .loc vX (.ref false vObject)] boot).sat fun a =>
    a.1.flow.isNone && !a.1.sandbox && messageExists some a.1 vX mNew) = true := by decide +kernel

/-- C111: a message that is understood is found when it is sent at the top of a program: it is not passed to `respond:`. -/
theorem C111_understands {s : St} {m : Name} (hst : s.stack = []) {r o : Nat} (hu : Understands s.obj m o) :
    ∃ f N, ∀ n, N ≤ n → ∃ rec, search s.obj s.stack s.recursion r m n o = some (some f, rec) := by
  induction hu with
  | @own o f h =>
    obtain ⟨g, hg⟩ := Option.isSome_iff_exists.1 (mem_getp h)
    refine ⟨g, 1, fun n hn => ⟨s.recursion, ?_⟩⟩
    obtain ⟨n, rfl⟩ : ∃ j, n = j + 1 := ⟨n - 1, by omega⟩
    unfold search
    simp only [hg, hst, List.contains_nil, Bool.false_eq_true, if_false]
  | @made o p hl hu ih =>
    obtain ⟨f, N, ih⟩ := ih
    cases hg : getp (s.obj o).meths m with
    | some g =>
      refine ⟨g, 1, fun n hn => ⟨s.recursion, ?_⟩⟩
      obtain ⟨n, rfl⟩ : ∃ j, n = j + 1 := ⟨n - 1, by omega⟩
      unfold search
      simp only [hg, hst, List.contains_nil, Bool.false_eq_true, if_false]
    | none =>
      refine ⟨f, N + 1, fun n hn => ?_⟩
      obtain ⟨n, rfl⟩ : ∃ j, n = j + 1 := ⟨n - 1, by omega⟩
      obtain ⟨rec, h⟩ := ih n (by omega)
      refine ⟨rec, ?_⟩
      unfold search
      simp only [hg, hl]
      exact h

/-- A sequence understands `new`, its own, and `on:do:`, which it has from Object. -/
example : boot.stack = [] ∧ Understands boot.obj mOnDo arrP :=
  ⟨rfl, .made (p := objectP) rfl (.own (f := 21) (by decide))⟩

/-- C111 is false as stated: a sequence understands `on:do:`, but the program says it does not. -/
theorem C111_violated : ¬ C111_full := by
  intro h
  have := ((h demo some boot rfl rfl).2 vSequence vSequence mOnDo rfl).2
    ⟨arrP, (usable_iff rfl rfl _ _).2 (.inl (by decide +kernel)), .made (p := objectP) rfl (.own (f := 21) (by decide))⟩
  exact absurd this (by decide +kernel)

/-- A scope with a variable of its own. -/
def inner : St := { boot with ctxs := [49, worldO], obj := fun i => if i = 49 then { val := .obj, props := [(vX, 5)] } else bootObj i }

/-- Also of local variables it is false: in a block, a variable of the block can be used, but `find:` says False. -/
theorem C111_violated_local : Usable demo inner vX 5 ∧ objectExists inner vX = false :=
  ⟨(usable_iff rfl rfl _ _).2 (.inl (by decide +kernel)), by decide +kernel⟩

end Verif.Props.Exists
