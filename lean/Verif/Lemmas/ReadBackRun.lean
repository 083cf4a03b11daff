import Verif.Model.ReadBack
import Verif.Lemmas.ReadBackText
import Verif.Lemmas.Interp

/-!
# Evaluating the tree of a value
-/

namespace Verif.Model.ReadBack
open Verif.Spec (Dict)
open Verif.Spec.ReadBack (V Names semicolon mirror mirrorAll mirrorPairs decimal)
open Verif.Model.Interp

/-! ## Objects that are values -/

mutual
/-- The object at address `i` is the value: Nil and the Booleans are the objects everybody shares, all other parts are at
addresses in `A`. Sequences have their items in order, lists their entries, newest first. `lm` is the prototype of lists. -/
def Rep (nm : Text → Name) (lm : Nat) (obj : Nat → Obj) (A : Nat → Prop) (i : Nat) : V → Prop
  | .nil => i = nilO
  | .bool b => i = if b then trueO else falseO
  | .num n => A i ∧ obj i = { val := .num n, link := some numP }
  | .text t => A i ∧ obj i = { val := .str (nm t), link := some strP }
  | .seq l => A i ∧ ∃ xs, obj i = { val := .arr xs, link := some arrP } ∧ RepAll nm lm obj A xs l
  | .map es => A i ∧ ∃ ps, obj i = { val := .obj, link := some lm, props := ps } ∧ RepPairs nm lm obj A ps es
/-- The items of a sequence. -/
def RepAll (nm : Text → Name) (lm : Nat) (obj : Nat → Obj) (A : Nat → Prop) (xs : List Nat) : List V → Prop
  | [] => xs = []
  | v :: l => ∃ x xs', xs = x :: xs' ∧ Rep nm lm obj A x v ∧ RepAll nm lm obj A xs' l
/-- The entries of a list. -/
def RepPairs (nm : Text → Name) (lm : Nat) (obj : Nat → Obj) (A : Nat → Prop) (ps : List (Name × Nat)) :
    List (List UInt8 × V) → Prop
  | [] => ps = []
  | (k, v) :: es => ∃ x ps', ps = (nm k, x) :: ps' ∧ Rep nm lm obj A x v ∧ RepPairs nm lm obj A ps' es
end

mutual
theorem Rep.keep {nm : Text → Name} {lm : Nat} {obj obj' : Nat → Obj} {A A' : Nat → Prop}
    (hA : ∀ j, A j → A' j ∧ obj' j = obj j) (v : V) {i : Nat} (h : Rep nm lm obj A i v) : Rep nm lm obj' A' i v := by
  match v with
  | .nil => unfold Rep at *; exact h
  | .bool b => unfold Rep at *; exact h
  | .num n => unfold Rep at *; exact ⟨(hA i h.1).1, by rw [(hA i h.1).2]; exact h.2⟩
  | .text t => unfold Rep at *; exact ⟨(hA i h.1).1, by rw [(hA i h.1).2]; exact h.2⟩
  | .seq l =>
    unfold Rep at *
    obtain ⟨h1, xs, h2, h3⟩ := h
    exact ⟨(hA i h1).1, xs, by rw [(hA i h1).2]; exact h2, RepAll.keep hA l h3⟩
  | .map es =>
    unfold Rep at *
    obtain ⟨h1, ps, h2, h3⟩ := h
    exact ⟨(hA i h1).1, ps, by rw [(hA i h1).2]; exact h2, RepPairs.keep hA es h3⟩
theorem RepAll.keep {nm : Text → Name} {lm : Nat} {obj obj' : Nat → Obj} {A A' : Nat → Prop}
    (hA : ∀ j, A j → A' j ∧ obj' j = obj j) (l : List V) {xs : List Nat} (h : RepAll nm lm obj A xs l) :
    RepAll nm lm obj' A' xs l := by
  match l with
  | [] => unfold RepAll at *; exact h
  | v :: l =>
    unfold RepAll at *
    obtain ⟨x, xs', e, h1, h2⟩ := h
    exact ⟨x, xs', e, Rep.keep hA v h1, RepAll.keep hA l h2⟩
theorem RepPairs.keep {nm : Text → Name} {lm : Nat} {obj obj' : Nat → Obj} {A A' : Nat → Prop}
    (hA : ∀ j, A j → A' j ∧ obj' j = obj j) (es : List (List UInt8 × V)) {ps : List (Name × Nat)}
    (h : RepPairs nm lm obj A ps es) : RepPairs nm lm obj' A' ps es := by
  match es with
  | [] => unfold RepPairs at *; exact h
  | (k, v) :: es =>
    unfold RepPairs at *
    obtain ⟨x, ps', e, h1, h2⟩ := h
    exact ⟨x, ps', e, Rep.keep hA v h1, RepPairs.keep hA es h2⟩
end

theorem RepAll.snoc {nm : Text → Name} {lm : Nat} {obj : Nat → Obj} {A : Nat → Prop} {l : List V} {xs : List Nat}
    (h : RepAll nm lm obj A xs l) {x : Nat} {v : V} (hv : Rep nm lm obj A x v) :
    RepAll nm lm obj A (xs ++ [x]) (l ++ [v]) := by
  induction l generalizing xs with
  | nil =>
    unfold RepAll at h
    subst h
    show RepAll nm lm obj A [x] [v]
    unfold RepAll
    exact ⟨x, [], rfl, hv, by unfold RepAll; rfl⟩
  | cons u l ih =>
    unfold RepAll at h
    obtain ⟨y, xs', rfl, h1, h2⟩ := h
    show RepAll nm lm obj A (y :: (xs' ++ [x])) (u :: (l ++ [v]))
    unfold RepAll
    exact ⟨y, _, rfl, h1, ih h2⟩

/-! ## The state in which a text is read -/

/-- What a name means in a state. -/
def look (s : St) (k : Name) : Option Nat :=
  match findIn s.obj s.ctxs k with
  | some v => some v
  | none => getp (s.obj worldO).props k

/-- The object `o` has a built-in operation for a message, which is not among the running methods. -/
def Knows (s : St) (b o : Nat) (m : Name) (g : Native) : Prop :=
  ∃ f, getp (s.obj o).meths m = some f ∧ (s.obj f).val = .nat g ∧ f ∉ s.stack ∧ f < b

/-- The state is ready for reading values: nothing is pending, the program is not limited to a number of steps, the words for
values mean what they mean at the start of a program (`world.c:683-900`), and the objects they mean, below address `b`, know
the messages for building sequences and lists. -/
structure Ready (d : Dict) (nm : Text → Name) (W : Names) (lm b : Nat) (s : St) : Prop where
  flow : s.flow = none
  sandbox : s.sandbox = false
  low : b ≤ s.fresh
  world : arrP < b ∧ lm < b ∧ worldO < b ∧ ∀ c ∈ s.ctxs, c < b
  seq : look s (nm W.seq) = some arrP
  list : look s (nm W.list) = some lm
  none : look s (nm W.none) = some nilO
  true : look s (nm W.true) = some trueO
  false : look s (nm W.false) = some falseO
  plain : (s.obj arrP).chain = Bool.false ∧ (s.obj lm).chain = Bool.false
  seqNew : Knows s b arrP (nm W.new) .newArr
  seqArrow : Knows s b arrP (nm W.arrow) .newPush
  seqPush : Knows s b arrP (nm semicolon) .push
  mapNew : Knows s b lm (nm W.new) (.prim .mapNew)
  mapPut : Knows s b lm (nm (W.put ++ d.param :: (W.at ++ [d.param]))) (.prim .mapPut)

/-- The states before and after: addresses in `P` are untouched, and so is everything else but counters and the log. -/
structure Ext (P : Nat → Prop) (s s' : St) : Prop where
  fresh : s.fresh ≤ s'.fresh
  obj : ∀ j, P j → s'.obj j = s.obj j
  ctxs : s'.ctxs = s.ctxs
  flow : s'.flow = s.flow
  stack : s'.stack = s.stack
  recursion : s'.recursion = s.recursion
  sandbox : s'.sandbox = s.sandbox
  deser : s'.deser = s.deser

theorem Ext.rfl {P : Nat → Prop} {s : St} : Ext P s s := ⟨Nat.le_refl _, fun _ _ => Eq.refl _, Eq.refl _, Eq.refl _, Eq.refl _, Eq.refl _, Eq.refl _, Eq.refl _⟩

theorem Ext.trans {P Q R : Nat → Prop} {s s' s'' : St} (h : Ext P s s') (h' : Ext Q s' s'') (hP : ∀ j, R j → P j)
    (hQ : ∀ j, R j → Q j) : Ext R s s'' :=
  ⟨Nat.le_trans h.fresh h'.fresh, fun j hj => by rw [h'.obj j (hQ j hj), h.obj j (hP j hj)],
    by rw [h'.ctxs, h.ctxs], by rw [h'.flow, h.flow], by rw [h'.stack, h.stack], by rw [h'.recursion, h.recursion],
    by rw [h'.sandbox, h.sandbox], by rw [h'.deser, h.deser]⟩

theorem findIn_congr {obj obj' : Nat → Obj} {l : List Nat} (h : ∀ c ∈ l, obj' c = obj c) (k : Name) :
    findIn obj' l k = findIn obj l k := by
  induction l with
  | nil => rfl
  | cons c l ih =>
    unfold findIn
    rw [h c (by simp), ih fun c hc => h c (by simp [hc])]

theorem Ready.ext {d : Dict} {nm : Text → Name} {W : Names} {lm b : Nat} {s s' : St} (h : Ready d nm W lm b s)
    {P : Nat → Prop} (he : Ext P s s') (hP : ∀ j < b, P j) : Ready d nm W lm b s' := by
  have hobj : ∀ j < b, s'.obj j = s.obj j := fun j hj => he.obj j (hP j hj)
  have hlook : ∀ k, look s' k = look s k := by
    intro k
    unfold look
    rw [he.ctxs, findIn_congr (fun c hc => hobj c (h.world.2.2.2 c hc)), hobj _ h.world.2.2.1]
  have hk : ∀ o m g, o < b → Knows s b o m g → Knows s' b o m g := by
    intro o m g ho hk
    obtain ⟨f, h1, h2, h3, h4⟩ := hk
    exact ⟨f, by rw [hobj _ ho]; exact h1, by rw [hobj _ h4]; exact h2, by rw [he.stack]; exact h3, h4⟩
  exact {
    flow := by rw [he.flow, h.flow]
    sandbox := by rw [he.sandbox, h.sandbox]
    low := Nat.le_trans h.low he.fresh
    world := ⟨h.world.1, h.world.2.1, h.world.2.2.1, by rw [he.ctxs]; exact h.world.2.2.2⟩
    seq := by rw [hlook, h.seq]
    list := by rw [hlook, h.list]
    none := by rw [hlook, h.none]
    true := by rw [hlook, h.true]
    false := by rw [hlook, h.false]
    plain := by rw [hobj _ h.world.1, hobj _ h.world.2.1]; exact h.plain
    seqNew := hk _ _ _ h.world.1 h.seqNew
    seqArrow := hk _ _ _ h.world.1 h.seqArrow
    seqPush := hk _ _ _ h.world.1 h.seqPush
    mapNew := hk _ _ _ h.world.2.1 h.mapNew
    mapPut := hk _ _ _ h.world.2.1 h.mapPut }

theorem find_look {s : St} {k : Name} {v : Nat} (hf : s.flow = none) (h : look s k = some v) : find s k = (s, v) := by
  unfold find
  rw [hf]
  unfold look at h
  cases hi : findIn s.obj s.ctxs k with
  | some w =>
    rw [hi] at h
    injection h with h
    rw [h]
    rfl
  | none =>
    rw [hi] at h
    dsimp only at h
    rw [h]
    rfl

/-! ## Evaluation with enough fuel -/

/-- For all sufficiently large fuel the outcome is `a`. -/
def Ends {α : Type} (f : Nat → Res α) (a : α) : Prop := ∃ N, ∀ n, N ≤ n → f n = .ok a

theorem Ends.ok {α : Type} (a : α) : Ends (fun _ => .ok a) a := ⟨0, fun _ _ => rfl⟩

theorem Ends.bind {α β : Type} {f : Nat → Res α} {g : Nat → α → Res β} {a : α} {b : β} (h : Ends f a)
    (h' : Ends (fun n => g n a) b) : Ends (fun n => f n >>= g n) b := by
  obtain ⟨N, hN⟩ := h
  obtain ⟨M, hM⟩ := h'
  refine ⟨max N M, fun n hn => ?_⟩
  dsimp only
  rw [hN n (by omega), Res.ok_bind]
  exact hM n (by omega)

theorem Ends.expr {env : Env} {e : Node} {s : St} {a : Ans} (h : Ends (fun n => expr (exec env n) e s) a) :
    Ends (fun n => exec env n (.expr e) s) a := by
  obtain ⟨N, hN⟩ := h
  refine ⟨N + 1, fun n hn => ?_⟩
  obtain ⟨n, rfl⟩ : ∃ m, n = m + 1 := ⟨n - 1, by omega⟩
  exact hN n (by omega)

theorem Ends.send {env : Env} {r : Nat} {m : Name} {args : List Nat} {s : St} {a : Ans}
    (h : Ends (fun n => plain (send env (exec env n) n r m args s)) a) :
    Ends (fun n => exec env n (.send r m args) s) a := by
  obtain ⟨N, hN⟩ := h
  refine ⟨N + 1, fun n hn => ?_⟩
  obtain ⟨n, rfl⟩ : ∃ m, n = m + 1 := ⟨n - 1, by omega⟩
  exact hN n (by omega)

theorem tick_ok {s : St} (h : s.sandbox = false) : tick s = .ok s := by
  unfold tick
  rw [h]
  rfl

/-- The state after a counted call. -/
def counted (s : St) : St := { s with evals := s.evals + 1 }

theorem ext_counted {P : Nat → Prop} (s : St) : Ext P s (counted s) :=
  ⟨Nat.le_refl _, fun _ _ => rfl, rfl, rfl, rfl, rfl, rfl, rfl⟩

/-- The built-in operation answers the message. -/
def Answers (s : St) (r : Nat) (m : Name) (g : Native) : Prop :=
  ∃ f, (∀ n, search s.obj s.stack s.recursion r m (n + 2) r = some (some f, s.recursion)) ∧ (s.obj f).val = .nat g

theorem Knows.answers {s : St} {b r : Nat} {m : Name} {g : Native} (h : Knows s b r m g) : Answers s r m g := by
  obtain ⟨f, h1, h2, h3, _⟩ := h
  refine ⟨f, fun n => ?_, h2⟩
  unfold search
  rw [h1]
  dsimp only
  rw [if_neg (by simpa using h3)]

theorem Knows.inherits {s : St} {b r p : Nat} {m : Name} {g : Native} (h : Knows s b p m g) (hl : (s.obj r).link = some p)
    (hm : (s.obj r).meths = []) : Answers s r m g := by
  obtain ⟨f, h1, h2, h3, _⟩ := h
  refine ⟨f, fun n => ?_, h2⟩
  rw [search, hm, hl]
  dsimp only [getp]
  rw [search, h1]
  dsimp only
  rw [if_neg (by simpa using h3)]

/-- Sending a message that a harmless built-in operation answers. -/
theorem send_native {env : Env} {s : St} {r : Nat} {m : Name} {g : Native} {args : List Nat} {s' : St} {v : Nat}
    (hf : s.flow = none) (ha : Answers s r m g) (hw : white g = true)
    (hn : Ends (fun n => native env (exec env n) g r args { s with log := .native s.deser g r args :: s.log }) (s', v))
    (hc : (s'.obj r).chain = false) : Ends (fun n => exec env n (.send r m args) s) (s', v, false) := by
  obtain ⟨f, h1, h2⟩ := ha
  obtain ⟨N, hN⟩ := hn
  refine Ends.send ⟨N + 2, fun n hn => ?_⟩
  obtain ⟨k, rfl⟩ : ∃ k, n = k + 2 := ⟨n - 2, by omega⟩
  have hN' := hN (k + 2) (by omega)
  dsimp only at hN' ⊢
  unfold send
  rw [hf]
  dsimp only [Option.isSome_none, Bool.false_eq_true, if_false]
  rw [if_neg (by simp), h1 k]
  dsimp only
  unfold call
  rw [h2]
  dsimp only
  rw [hw]
  simp only [Bool.not_true, Bool.and_false, Bool.false_eq_true, if_false]
  rw [hf] at hN'
  rw [hN', Res.ok_bind]
  dsimp only
  rw [hc]
  rfl

end Verif.Model.ReadBack
