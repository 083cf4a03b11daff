import Verif.Lemmas.ProgramHeap
import Verif.Model.Objects

/-!
# Lemmas: values, things and scopes in the heap of the interpreter
-/

namespace Verif.Model.Objects
open Verif.Model.Interp
open Verif.Model.Program (Knows lower lowerAll setProp_other val_setProp low_setProp)
open Verif.Spec.Objects (Words V Frame Ob State Sig upd lookup assign declare)

variable (I : List UInt8 → Name) (W : Words)

/-! ### Representation -/

/-- The value `v` is the object at `o`; `a` are the addresses of the things. -/
def Holds (a : List Nat) (obj : Nat → Obj) (fr o : Nat) : V → Prop
  | .num z => o < fr ∧ obj o = { val := .num z, link := some numP }
  | .bool b => o = if b then trueO else falseO
  | .text t => o < fr ∧ obj o = { val := .str (I t), link := some strP }
  | .nothing => o = nilO
  | .ref i => a[i]? = some o
  | .root => o = objectP
  | .list => o = arrP
  | .other => True

/-- The values are the objects. -/
def HoldsAll (a : List Nat) (obj : Nat → Obj) (fr : Nat) : List Nat → List V → Prop
  | [], [] => True
  | o :: os, v :: vs => Holds I a obj fr o v ∧ HoldsAll a obj fr os vs
  | _, _ => False

/-- The properties of an object are these variables. -/
def Binds (a : List Nat) (obj : Nat → Obj) (fr c : Nat) (f : Frame) : Prop :=
  ∀ k, match f k with
    | none => getp (obj c).props (I k) = none
    | some v => ∃ o, getp (obj c).props (I k) = some o ∧ Holds I a obj fr o v

/-- The thing is the object at `o`. -/
def Like (a : List Nat) (obj : Nat → Obj) (fr o : Nat) : Ob → Prop
  | .block ps b h bound => ∃ l, obj o = { val := .code (ps.map I) (lowerAll I W.toWords b), link := some codeP, props := l, selfbind := bound } ∧
      match h with
      | none => l = []
      | some x => ∃ c, a[x]? = some c ∧ l = [(nCatch, c)]
  | .obj p own ms => (obj o).val = .obj ∧ (obj o).chain = false ∧
      (match p with
        | none => (obj o).link = some objectP
        | some q => ∃ c, a[q]? = some c ∧ (obj o).link = some c) ∧
      Binds I a obj fr o own ∧
      ∀ k, match ms k with
        | none => getp (obj o).meths (I k) = none
        | some f => ∃ c, a[f]? = some c ∧ getp (obj o).meths (I k) = some c
  | .seq vs => ∃ l, obj o = { val := .arr l, link := some arrP } ∧ HoldsAll I a obj fr l vs

/-- The scopes, `s0` being the state at the start. -/
def Scopes (a : List Nat) (s0 : St) (obj : Nat → Obj) (fr : Nat) : List Nat → List Frame → Prop
  | [], [] => True
  | c :: cs, f :: fs => (c < fr ∧ (obj c).val = .obj ∧ (c = worldO ∨ s0.fresh ≤ c)) ∧ Binds I a obj fr c f ∧ c ∉ cs ∧ Scopes a s0 obj fr cs fs
  | _, _ => False

/-- A world in which everything knows its messages (`world.c:640-1040`), nothing has been executed yet. -/
structure World (s : St) : Prop where
  flow : s.flow = none
  sandbox : s.sandbox = false
  deser : s.deser = false
  stack : s.stack = []
  recursion : s.recursion = none
  ctxs : s.ctxs = [worldO]
  size : 13 ≤ s.fresh
  world : (s.obj worldO).val = .obj
  yes : s.obj trueO = { val := .bool true, link := some boolP }
  no : s.obj falseO = { val := .bool false, link := some boolP }
  nothing : (s.obj nilO).val = .nil
  root : (s.obj objectP).chain = false
  list : (s.obj arrP).chain = false
  numbers : ∀ p ∈ numOps W, Knows s numP (I p.1) p.2
  booleans : ∀ p ∈ Program.boolOps W.toWords, Knows s boolP (I p.1) p.2
  blocks : ∀ p ∈ codeOps W, Knows s codeP (I p.1) p.2
  objects : ∀ p ∈ objOps W, Knows s objectP (I p.1) p.2
  texts : ∀ p ∈ strOps W, Knows s strP (I p.1) p.2
  sequences : ∀ p ∈ arrOps W, Knows s arrP (I p.1) p.2
  globals : Binds I [] s.obj s.fresh worldO (Spec.Objects.globals W)

/-- The state `s` of a run that started with `s0`, with scopes and things; `a` are the addresses of the things. -/
structure Rep (s0 : St) (a : List Nat) (s : St) (st : State) : Prop where
  sandbox : s.sandbox = false
  deser : s.deser = false
  stack : s.stack.map some = st.running.map (a[·]?)
  recursion : s.recursion.map some = st.again.map (a[·]?)
  fresh : s0.fresh ≤ s.fresh
  low : ∀ i < s0.fresh, i ≠ worldO → s.obj i = s0.obj i
  bottom : s.ctxs.getLast? = some worldO
  nodup : a.Nodup
  high : ∀ o ∈ a, s0.fresh ≤ o ∧ o < s.fresh
  apart : ∀ o ∈ a, o ∉ s.ctxs
  length : a.length = st.store.length
  store : ∀ (i : Nat) (ob : Ob) (o : Nat), st.store[i]? = some ob → a[i]? = some o → Like I W a s.obj s.fresh o ob
  scopes : Scopes I a s0 s.obj s.fresh s.ctxs st.frames

/-- Numbers and texts. -/
def plainVal : Val → Bool
  | .num _ => true
  | .str _ => true
  | _ => false

/-- Numbers and texts stay as they are, things stay where they are. -/
structure Ext (a : List Nat) (s : St) (a' : List Nat) (s' : St) : Prop where
  pre : a <+: a'
  fresh : s.fresh ≤ s'.fresh
  obj : ∀ i < s.fresh, plainVal (s.obj i).val = true → s'.obj i = s.obj i

variable {I W}

theorem Ext.refl (a : List Nat) (s : St) : Ext a s a s := ⟨List.prefix_refl _, Nat.le_refl _, fun _ _ _ => rfl⟩

theorem Ext.trans {a b c : List Nat} {s t u : St} (h : Ext a s b t) (k : Ext b t c u) : Ext a s c u :=
  ⟨h.pre.trans k.pre, Nat.le_trans h.fresh k.fresh, fun i hi hv => by
    have e := h.obj i hi hv
    rw [k.obj i (Nat.lt_of_lt_of_le hi h.fresh) (by rw [e]; exact hv), e]⟩

theorem Ext.at {a a' : List Nat} {s s' : St} (h : Ext a s a' s') {i o : Nat} (e : a[i]? = some o) : a'[i]? = some o := by
  obtain ⟨l, rfl⟩ := h.pre
  obtain ⟨hi, _⟩ := List.getElem?_eq_some_iff.1 e
  rw [List.getElem?_append_left hi]; exact e

theorem Holds.ext {a a' : List Nat} {s s' : St} {o : Nat} {v : V} (h : Holds I a s.obj s.fresh o v) (e : Ext a s a' s') :
    Holds I a' s'.obj s'.fresh o v := by
  cases v with
  | num z => exact ⟨Nat.lt_of_lt_of_le h.1 e.fresh, by rw [e.obj o h.1 (by rw [h.2]; rfl)]; exact h.2⟩
  | text t => exact ⟨Nat.lt_of_lt_of_le h.1 e.fresh, by rw [e.obj o h.1 (by rw [h.2]; rfl)]; exact h.2⟩
  | ref i => exact e.at h
  | other => trivial
  | _ => exact h

theorem HoldsAll.ext {a a' : List Nat} {s s' : St} (e : Ext a s a' s') : ∀ {os : List Nat} {vs : List V},
    HoldsAll I a s.obj s.fresh os vs → HoldsAll I a' s'.obj s'.fresh os vs
  | [], [], _ => trivial
  | _ :: _, _ :: _, h => ⟨h.1.ext e, h.2.ext e⟩
  | [], _ :: _, h => h.elim
  | _ :: _, [], h => h.elim

theorem Binds.ext {a a' : List Nat} {s s' : St} {c : Nat} {f : Frame} (h : Binds I a s.obj s.fresh c f) (e : Ext a s a' s')
    (hp : (s'.obj c).props = (s.obj c).props) : Binds I a' s'.obj s'.fresh c f := by
  intro k
  have hk := h k
  rw [hp]
  cases hf : f k with
  | none => rw [hf] at hk; exact hk
  | some v =>
    rw [hf] at hk
    obtain ⟨o, h1, h2⟩ := hk
    exact ⟨o, h1, h2.ext e⟩

theorem Like.ext {a a' : List Nat} {s s' : St} {o : Nat} {ob : Ob} (h : Like I W a s.obj s.fresh o ob) (e : Ext a s a' s')
    (ho : s'.obj o = s.obj o) : Like I W a' s'.obj s'.fresh o ob := by
  cases ob with
  | block ps b hd bound =>
    obtain ⟨l, h1, h2⟩ := h
    refine ⟨l, ho.trans h1, ?_⟩
    cases hd with
    | none => exact h2
    | some x =>
      obtain ⟨c, h3, h4⟩ := h2
      exact ⟨c, e.at h3, h4⟩
  | obj p own ms =>
    obtain ⟨h1, h2, h3, h4, h5⟩ := h
    refine ⟨by rw [ho]; exact h1, by rw [ho]; exact h2, ?_, h4.ext e (by rw [ho]), fun k => ?_⟩
    · rw [ho]
      cases p with
      | none => exact h3
      | some q =>
        obtain ⟨c, h6, h7⟩ := h3
        exact ⟨c, e.at h6, h7⟩
    · have := h5 k
      rw [ho]
      cases hm : ms k with
      | none => rw [hm] at this; exact this
      | some f =>
        rw [hm] at this
        obtain ⟨c, h6, h7⟩ := this
        exact ⟨c, e.at h6, h7⟩
  | seq vs =>
    obtain ⟨l, h1, h2⟩ := h
    exact ⟨l, ho.trans h1, h2.ext e⟩

theorem Like.notPlain {a : List Nat} {obj : Nat → Obj} {fr o : Nat} {ob : Ob} (h : Like I W a obj fr o ob) :
    plainVal (obj o).val = false := by
  cases ob with
  | block ps b hd bound => obtain ⟨l, h1, _⟩ := h; rw [h1]; rfl
  | obj p own ms => rw [h.1]; rfl
  | seq vs => obtain ⟨l, h1, _⟩ := h; rw [h1]; rfl

theorem Like.chain {a : List Nat} {obj : Nat → Obj} {fr o : Nat} {ob : Ob} (h : Like I W a obj fr o ob) : (obj o).chain = false := by
  cases ob with
  | block ps b hd bound => obtain ⟨l, h1, _⟩ := h; rw [h1]
  | obj p own ms => exact h.2.1
  | seq vs => obtain ⟨l, h1, _⟩ := h; rw [h1]

theorem Scopes.ext {a a' : List Nat} {s0 s s' : St} (e : Ext a s a' s') : ∀ {cs : List Nat} {fs : List Frame},
    Scopes I a s0 s.obj s.fresh cs fs → (∀ c ∈ cs, s'.obj c = s.obj c) → Scopes I a' s0 s'.obj s'.fresh cs fs
  | [], [], _, _ => trivial
  | c :: cs, f :: fs, ⟨⟨h1, h2, h3⟩, h4, h5, h6⟩, hc =>
    ⟨⟨Nat.lt_of_lt_of_le h1 e.fresh, by rw [hc c (by simp)]; exact h2, h3⟩,
      h4.ext e (by rw [hc c (by simp)]), h5, h6.ext e fun c h => hc c (by simp [h])⟩
  | [], _ :: _, h, _ => h.elim
  | _ :: _, [], h, _ => h.elim

theorem Scopes.lt {a : List Nat} {s0 : St} {obj : Nat → Obj} {fr : Nat} : ∀ {cs : List Nat} {fs : List Frame},
    Scopes I a s0 obj fr cs fs → ∀ c ∈ cs, c < fr
  | _ :: _, _ :: _, h, d, hd => by
    rcases List.mem_cons.1 hd with rfl | hd
    · exact h.1.1
    · exact h.2.2.2.lt d hd
  | [], _ :: _, h, _, _ => h.elim
  | _ :: _, [], h, _, _ => h.elim

theorem Scopes.length {a : List Nat} {s0 : St} {obj : Nat → Obj} {fr : Nat} : ∀ {cs : List Nat} {fs : List Frame},
    Scopes I a s0 obj fr cs fs → cs.length = fs.length
  | [], [], _ => rfl
  | _ :: _, _ :: _, h => congrArg (· + 1) h.2.2.2.length
  | [], _ :: _, h => h.elim
  | _ :: _, [], h => h.elim

/-! ### Things -/

theorem at_mem {a : List Nat} {i o : Nat} (h : a[i]? = some o) : o ∈ a := List.mem_of_getElem? h

theorem at_inj {a : List Nat} (hn : a.Nodup) {i j o : Nat} (hi : a[i]? = some o) (hj : a[j]? = some o) : i = j := by
  obtain ⟨h1, h2⟩ := List.getElem?_eq_some_iff.1 hi
  obtain ⟨h3, h4⟩ := List.getElem?_eq_some_iff.1 hj
  have hp := List.pairwise_iff_getElem.1 hn
  rcases Nat.lt_trichotomy i j with h | h | h
  · exact absurd (h2.trans h4.symm) (hp i j h1 h3 h)
  · exact h
  · exact absurd (h4.trans h2.symm) (hp j i h3 h1 h)

section
variable {s0 s s' : St} {a a' : List Nat} {st : State}

theorem Rep.thing (h : Rep I W s0 a s st) {i : Nat} {ob : Ob} (hi : st.store[i]? = some ob) :
    ∃ o, a[i]? = some o ∧ Like I W a s.obj s.fresh o ob := by
  obtain ⟨hl, _⟩ := List.getElem?_eq_some_iff.1 hi
  have hl' : i < a.length := by rw [h.length]; exact hl
  exact ⟨a[i], List.getElem?_eq_getElem hl', h.store i ob _ hi (List.getElem?_eq_getElem hl')⟩

theorem Rep.object (h : Rep I W s0 a s st) {i o : Nat} (hi : a[i]? = some o) : ∃ ob, st.store[i]? = some ob ∧ Like I W a s.obj s.fresh o ob := by
  obtain ⟨hl, _⟩ := List.getElem?_eq_some_iff.1 hi
  have hl' : i < st.store.length := by rw [← h.length]; exact hl
  exact ⟨st.store[i], List.getElem?_eq_getElem hl', h.store i _ o (List.getElem?_eq_getElem hl') hi⟩

theorem Rep.chainOff (h : Rep I W s0 a s st) {i o : Nat} (hi : a[i]? = some o) : (s.obj o).chain = false := by
  obtain ⟨ob, _, hk⟩ := h.object hi
  exact hk.chain

/-- Only objects that did not exist before, and what is pending, are different. -/
structure Calm (s s' : St) : Prop where
  sandbox : s'.sandbox = s.sandbox
  deser : s'.deser = s.deser
  stack : s'.stack = s.stack
  recursion : s'.recursion = s.recursion
  ctxs : s'.ctxs = s.ctxs
  fresh : s.fresh ≤ s'.fresh
  obj : ∀ i < s.fresh, s'.obj i = s.obj i

theorem Calm.of (q : Program.Quiet s s') : Calm s s' := ⟨q.1, q.2, q.3, q.4, q.5, q.7, q.8⟩

theorem Calm.trans {s'' : St} (h : Calm s s') (k : Calm s' s'') : Calm s s'' :=
  ⟨k.1.trans h.1, k.2.trans h.2, k.3.trans h.3, k.4.trans h.4, k.5.trans h.5, Nat.le_trans h.6 k.6,
    fun i hi => (k.7 i (Nat.lt_of_lt_of_le hi h.6)).trans (h.7 i hi)⟩

theorem Calm.ext (h : Calm s s') : Ext a s a s' := ⟨List.prefix_refl _, h.fresh, fun i hi _ => h.obj i hi⟩

theorem Calm.flow (s : St) (f : Option Interp.Flow) : Calm s { s with flow := f } :=
  ⟨rfl, rfl, rfl, rfl, rfl, Nat.le_refl _, fun _ _ => rfl⟩

theorem Calm.raise (s : St) (k : Name) : Calm s (raise s k) :=
  ⟨rfl, rfl, rfl, rfl, rfl, Nat.le_succ _, fun i hi => by
    show (if i = s.fresh then _ else s.obj i) = _
    rw [if_neg (by omega)]⟩

theorem Rep.calm (h : Rep I W s0 a s st) (q : Calm s s') : Rep I W s0 a s' st where
  sandbox := q.sandbox.trans h.sandbox
  deser := q.deser.trans h.deser
  stack := by rw [q.stack]; exact h.stack
  recursion := by rw [q.recursion]; exact h.recursion
  fresh := Nat.le_trans h.fresh q.fresh
  low i hi hw := (q.obj i (Nat.lt_of_lt_of_le hi h.fresh)).trans (h.low i hi hw)
  bottom := by rw [q.ctxs]; exact h.bottom
  nodup := h.nodup
  high o ho := ⟨(h.high o ho).1, Nat.lt_of_lt_of_le (h.high o ho).2 q.fresh⟩
  apart o ho := by rw [q.ctxs]; exact h.apart o ho
  length := h.length
  store i ob o h1 h2 := (h.store i ob o h1 h2).ext q.ext (q.obj o (h.high o (at_mem h2)).2)
  scopes := by
    rw [q.ctxs]
    exact h.scopes.ext q.ext fun c hc => q.obj c (h.scopes.lt c hc)

theorem Rep.quiet (h : Rep I W s0 a s st) (q : Program.Quiet s s') : Rep I W s0 a s' st := h.calm (.of q)

theorem quiet_ext (q : Program.Quiet s s') : Ext a s a s' := (Calm.of q).ext

theorem map_at {l : List Nat} {r : List Nat} (h : l.map some = r.map (a[·]?)) (e : Ext a s a' s') :
    l.map some = r.map (a'[·]?) := by
  rw [h]
  apply List.map_congr_left
  intro i hi
  have : a[i]? ∈ l.map some := by rw [h]; exact List.mem_map_of_mem hi
  obtain ⟨o, _, ho⟩ := List.mem_map.1 this
  rw [← ho, e.at ho.symm]

theorem opt_at {l r : Option Nat} (h : l.map some = r.map (a[·]?)) (e : Ext a s a' s') : l.map some = r.map (a'[·]?) := by
  cases r with
  | none => exact h
  | some i =>
    cases l with
    | none => cases h
    | some o =>
      have : some o = a[i]? := Option.some.inj h
      exact congrArg some (e.at this.symm).symm

/-- The object of a thing changes. -/
theorem Rep.put (h : Rep I W s0 a s st) {i o : Nat} (hi : a[i]? = some o) {x : Obj} {ob : Ob}
    (hx : Like I W a (s.put o x).obj s.fresh o ob) : Rep I W s0 a (s.put o x) { st with store := st.store.set i ob } ∧ Ext a s a (s.put o x) := by
  obtain ⟨ob0, h0, hl0⟩ := h.object hi
  have other : ∀ j, j ≠ o → (s.put o x).obj j = s.obj j := fun j hj => if_neg hj
  have e : Ext a s a (s.put o x) := ⟨List.prefix_refl _, Nat.le_refl _, fun j _ hv => other j fun hj => by
    subst hj; rw [hl0.notPlain] at hv; cases hv⟩
  refine ⟨⟨h.sandbox, h.deser, h.stack, h.recursion, h.fresh, fun j hj hw => ?_, h.bottom, h.nodup, h.high, h.apart, ?_, ?_, ?_⟩, e⟩
  · rw [other j (by rintro rfl; have := (h.high j (at_mem hi)).1; omega)]
    exact h.low j hj hw
  · rw [List.length_set]; exact h.length
  · intro j ob' o' h1 h2
    by_cases hj : j = i
    · subst hj
      obtain rfl := Option.some.inj (hi.symm.trans h2)
      have : j < st.store.length := by rw [← h.length]; exact (List.getElem?_eq_some_iff.1 hi).1
      rw [show (st.store.set j ob)[j]? = some ob by simp [this]] at h1
      obtain rfl := Option.some.inj h1
      exact hx
    · have h1' : (st.store.set i ob)[j]? = some ob' := h1
      rw [List.getElem?_set_ne (Ne.symm hj)] at h1'
      exact (h.store j ob' o' h1' h2).ext e (other o' fun he => hj (at_inj h.nodup h2 (he ▸ hi)))
  · exact h.scopes.ext e fun c hc => other c fun he => h.apart o (at_mem hi) (he ▸ hc)

/-- A new thing. -/
theorem Rep.add (h : Rep I W s0 a s st) {x : Obj} {ob : Ob}
    (hx : Like I W (a ++ [s.fresh]) (alloc s x).1.obj (alloc s x).1.fresh s.fresh ob) :
    Rep I W s0 (a ++ [s.fresh]) (alloc s x).1 { st with store := st.store ++ [ob] } ∧ Ext a s (a ++ [s.fresh]) (alloc s x).1 ∧
      (a ++ [s.fresh])[st.store.length]? = some s.fresh := by
  have q : Calm s (alloc s x).1 := .of (Program.quiet_alloc s x)
  have hq := h.calm q
  have e : Ext a s (a ++ [s.fresh]) (alloc s x).1 := ⟨List.prefix_append _ _, q.fresh, fun i hi _ => q.obj i hi⟩
  have e' : Ext a (alloc s x).1 (a ++ [s.fresh]) (alloc s x).1 := ⟨List.prefix_append _ _, Nat.le_refl _, fun _ _ _ => rfl⟩
  refine ⟨⟨h.sandbox, h.deser, map_at h.stack e, opt_at h.recursion e, hq.fresh, hq.low, h.bottom, ?_, ?_, ?_, ?_, ?_, ?_⟩, e, ?_⟩
  · rw [List.nodup_append]
    refine ⟨h.nodup, by simp, fun o ho p hp => ?_⟩
    simp only [List.mem_cons, List.not_mem_nil, or_false] at hp
    subst hp
    have := (h.high o ho).2
    omega
  · intro o ho
    rcases List.mem_append.1 ho with ho | ho
    · exact hq.high o ho
    · simp only [List.mem_cons, List.not_mem_nil, or_false] at ho
      subst ho
      exact ⟨h.fresh, Nat.lt_succ_self _⟩
  · intro o ho
    rcases List.mem_append.1 ho with ho | ho
    · exact h.apart o ho
    · simp only [List.mem_cons, List.not_mem_nil, or_false] at ho
      subst ho
      intro hm
      exact Nat.lt_irrefl _ (h.scopes.lt _ hm)
  · simp [h.length]
  · intro i ob' o h1 h2
    by_cases hi : i < a.length
    · rw [List.getElem?_append_left hi] at h2
      have h1' : (st.store ++ [ob])[i]? = some ob' := h1
      rw [List.getElem?_append_left (by rw [← h.length]; exact hi)] at h1'
      exact (hq.store i ob' o h1' h2).ext e' rfl
    · obtain ⟨hl, _⟩ := List.getElem?_eq_some_iff.1 h2
      simp only [List.length_append, List.length_cons, List.length_nil] at hl
      have hi' : i = a.length := by omega
      subst hi'
      have h1' : (st.store ++ [ob])[a.length]? = some ob' := h1
      rw [h.length, List.getElem?_concat_length] at h1'
      rw [List.getElem?_concat_length] at h2
      obtain rfl := Option.some.inj h1'
      obtain rfl := Option.some.inj h2
      exact hx
  · exact hq.scopes.ext e' fun _ _ => rfl
  · rw [← h.length, List.getElem?_concat_length]

/-! ### Variables -/

theorem scopes_find {obj : Nat → Obj} {fr : Nat} {k : List UInt8} : ∀ {cs : List Nat} {fs : List Frame}, Scopes I a s0 obj fr cs fs →
    match lookup fs k with
    | some v => ∃ o, findIn obj cs (I k) = some o ∧ Holds I a obj fr o v
    | none => findIn obj cs (I k) = none
  | c :: cs, f :: fs, h => by
    have hk := h.2.1 k
    simp only [lookup]
    simp only [findIn]
    cases hf : f k with
    | none =>
      rw [hf] at hk
      rw [hk]
      exact scopes_find h.2.2.2
    | some w =>
      rw [hf] at hk
      obtain ⟨o, h1, h2⟩ := hk
      exact ⟨o, by rw [h1], h2⟩
  | [], [], _ => rfl
  | [], _ :: _, h => h.elim
  | _ :: _, [], h => h.elim

theorem Rep.find (h : Rep I W s0 a s st) (hf : s.flow = none) {k : List UInt8} {v : V}
    (hl : lookup st.frames k = some v) : ∃ o, Interp.find s (I k) = (s, o) ∧ Holds I a s.obj s.fresh o v := by
  have := scopes_find (k := k) h.scopes
  rw [hl] at this
  obtain ⟨o, h1, h2⟩ := this
  exact ⟨o, by simp only [Interp.find, hf, Option.isSome_none, Bool.false_eq_true, if_false, h1], h2⟩

theorem findIn_none {obj : Nat → Obj} {k : Name} : ∀ {cs : List Nat}, findIn obj cs k = none → ∀ c ∈ cs, getp (obj c).props k = none
  | c :: cs, h, d, hd => by
    simp only [findIn] at h
    split at h
    · cases h
    · rename_i e
      rcases List.mem_cons.1 hd with rfl | hd
      · exact e
      · exact findIn_none h d hd

/-- An unknown variable. -/
theorem Rep.unknown (h : Rep I W s0 a s st) (hf : s.flow = none) {k : List UInt8} (hl : lookup st.frames k = none) :
    Interp.find s (I k) = (raise s eKnf, nilO) := by
  have := scopes_find (k := k) h.scopes
  rw [hl] at this
  have hw := findIn_none (show findIn s.obj s.ctxs (I k) = none from this) worldO (List.mem_of_getLast? h.bottom)
  simp only [Interp.find, hf, Option.isSome_none, Bool.false_eq_true, if_false, this, hw]

theorem ext_setProp {c : Nat} (hc : plainVal (s.obj c).val = false) (k : Name) (v : Nat) : Ext a s a (setProp s c k v) :=
  ⟨List.prefix_refl _, Nat.le_refl _, fun i _ hv => by
    show (if i = c then _ else s.obj i) = _
    rw [if_neg (by rintro rfl; rw [hc] at hv; cases hv)]⟩

theorem binds_setProp (hI : Function.Injective I) {c : Nat} {f : Frame} (hc : plainVal (s.obj c).val = false)
    (h : Binds I a s.obj s.fresh c f) {k : List UInt8} {o : Nat} {v : V} (hv : Holds I a s.obj s.fresh o v) :
    Binds I a (setProp s c (I k) o).obj (setProp s c (I k) o).fresh c (upd f k v) := by
  intro k'
  have hk := h k'
  have hp : ((setProp s c (I k) o).obj c).props = setp (s.obj c).props (I k) o := by
    show (if c = c then _ else s.obj c : Obj).props = _
    rw [if_pos rfl]
  have e : Ext a s a _ := ext_setProp hc (I k) o
  rw [hp, getp_setp]
  unfold upd
  by_cases hkk : k' = k
  · subst hkk
    rw [if_pos rfl]
    exact ⟨o, by rw [if_pos rfl], hv.ext e⟩
  · rw [if_neg hkk, if_neg (fun h => hkk (hI h))]
    cases hf : f k' with
    | none => rw [hf] at hk; exact hk
    | some w =>
      rw [hf] at hk
      obtain ⟨o', h1, h2⟩ := hk
      exact ⟨o', h1, h2.ext e⟩

/-- A scope changes. -/
theorem Rep.scope (h : Rep I W s0 a s st) {c : Nat} (hm : c ∈ s.ctxs) (hv : (s.obj c).val = .obj) (hc : c = worldO ∨ s0.fresh ≤ c) {k : Name} {o : Nat}
    {fs : List Frame} (hs : Scopes I a s0 (setProp s c k o).obj (setProp s c k o).fresh s.ctxs fs) :
    Rep I W s0 a (setProp s c k o) { st with frames := fs } ∧ Ext a s a (setProp s c k o) := by
  have e : Ext a s a (setProp s c k o) := ext_setProp (by rw [hv]; rfl) _ _
  refine ⟨⟨h.1, h.2, h.3, h.4, h.5, low_setProp hc _ _ h.low, h.7, h.8, h.9, h.10, h.11, fun i ob p h1 h2 => ?_, hs⟩, e⟩
  exact (h.store i ob p h1 h2).ext e (setProp_other _ _ _ _ _ fun he => h.apart p (at_mem h2) (he ▸ hm))

/-- A new variable in the innermost scope. -/
theorem Rep.declare (hI : Function.Injective I) (h : Rep I W s0 a s st) (hf : s.flow = none)
    {k : List UInt8} {o : Nat} {v : V} (hv : Holds I a s.obj s.fresh o v) {fs' : List Frame} (hd : declare st.frames k v = some fs') :
    ∃ s', assignLocal s (I k) o = (s', o) ∧ Rep I W s0 a s' { st with frames := fs' } ∧ Ext a s a s' ∧ s'.flow = none := by
  have hs := h.scopes
  cases hc : s.ctxs with
  | nil =>
    rw [hc] at hs
    cases hfs : st.frames with
    | nil => rw [hfs] at hd; cases hd
    | cons f fs => rw [hfs] at hs; exact hs.elim
  | cons c cs =>
    cases hfs : st.frames with
    | nil => rw [hfs] at hd; cases hd
    | cons f fs =>
      rw [hfs] at hd
      obtain rfl := Option.some.inj hd
      rw [hc, hfs] at hs
      obtain ⟨⟨h1, h2, h3⟩, h4, h5, h6⟩ := hs
      have hnp : plainVal (s.obj c).val = false := by rw [h2]; rfl
      have e : Ext a s a (setProp s c (I k) o) := ext_setProp hnp (I k) o
      have key := h.scope (c := c) (k := I k) (o := o) (fs := upd f k v :: fs) (by rw [hc]; simp) h2 h3 (by
        rw [hc]
        refine ⟨⟨h1, by rw [val_setProp]; exact h2, h3⟩, binds_setProp hI hnp h4 hv, h5, h6.ext e fun d hd => ?_⟩
        exact setProp_other _ _ _ _ _ (by rintro rfl; exact h5 hd))
      refine ⟨setProp s c (I k) o, ?_, key.1, key.2, hf⟩
      simp only [assignLocal, hf, Option.isSome_none, Bool.false_eq_true, if_false, hc]

theorem scopes_assign (hI : Function.Injective I) {k : List UInt8} {o : Nat} {v : V} (hv : Holds I a s.obj s.fresh o v) :
    ∀ {cs : List Nat} {fs : List Frame}, Scopes I a s0 s.obj s.fresh cs fs →
    match assign fs k v with
    | some fs' => ∃ c, ownerOf s.obj cs (I k) = some c ∧ c ∈ cs ∧ (s.obj c).val = .obj ∧ (c = worldO ∨ s0.fresh ≤ c) ∧
      Scopes I a s0 (setProp s c (I k) o).obj (setProp s c (I k) o).fresh cs fs'
    | none => ownerOf s.obj cs (I k) = none
  | c :: cs, f :: fs, ⟨⟨h1, h2, h3⟩, h4, h5, h6⟩ => by
    have hk := h4 k
    have hnp : plainVal (s.obj c).val = false := by rw [h2]; rfl
    simp only [assign]
    simp only [ownerOf]
    cases hf : f k with
    | none =>
      rw [hf] at hk
      have ih := scopes_assign hI (k := k) hv h6
      cases ha : assign fs k v with
      | none =>
        rw [ha] at ih
        simp only [hk, Option.isSome_none, Bool.false_eq_true, if_false, Option.map_none]
        exact ih
      | some gs =>
        rw [ha] at ih
        obtain ⟨c', i1, i2, i3, i4, i5⟩ := ih
        have hne : c ≠ c' := by rintro rfl; exact h5 i2
        refine ⟨c', by rw [hk]; exact i1, by simp [i2], i3, i4, ⟨h1, by rw [val_setProp]; exact h2, h3⟩, ?_, h5, i5⟩
        exact h4.ext (ext_setProp (by rw [i3]; rfl) _ _) (by rw [setProp_other _ _ _ _ _ hne])
    | some w =>
      rw [hf] at hk
      obtain ⟨o', h7, h8⟩ := hk
      refine ⟨c, by rw [h7]; rfl, by simp, h2, h3, ⟨h1, by rw [val_setProp]; exact h2, h3⟩, binds_setProp hI hnp h4 hv, h5,
        h6.ext (ext_setProp hnp _ _) fun d hd => setProp_other _ _ _ _ _ (by rintro rfl; exact h5 hd)⟩
  | [], [], _ => rfl
  | [], _ :: _, h => h.elim
  | _ :: _, [], h => h.elim

/-- Assignment to a variable. -/
theorem Rep.assign (hI : Function.Injective I) (h : Rep I W s0 a s st) (hf : s.flow = none)
    {k : List UInt8} {o : Nat} {v : V} (hv : Holds I a s.obj s.fresh o v) {fs' : List Frame} (hd : assign st.frames k v = some fs') :
    ∃ s', assignVar s (I k) o = (s', o) ∧ Rep I W s0 a s' { st with frames := fs' } ∧ Ext a s a s' ∧ s'.flow = none := by
  have := scopes_assign hI (k := k) hv h.scopes
  rw [hd] at this
  obtain ⟨c, h1, h2, h3, h4, h5⟩ := this
  obtain ⟨k1, k2⟩ := h.scope h2 h3 h4 h5
  refine ⟨setProp s c (I k) o, ?_, k1, k2, hf⟩
  simp only [assignVar, hf, Option.isSome_none, Bool.false_eq_true, if_false, h1]

/-- Assignment to an unknown variable. -/
theorem Rep.unassigned (hI : Function.Injective I) (h : Rep I W s0 a s st) (hf : s.flow = none)
    {k : List UInt8} {o : Nat} {v : V} (hv : Holds I a s.obj s.fresh o v) (hd : Spec.Objects.assign st.frames k v = none) :
    assignVar s (I k) o = (raise s eAssign, o) := by
  have := scopes_assign hI (k := k) hv h.scopes
  rw [hd] at this
  simp only [assignVar, hf, Option.isSome_none, Bool.false_eq_true, if_false, this]

/-! ### Blocks -/

/-- A new scope. -/
theorem Rep.open (h : Rep I W s0 a s st) (hl : st.frames.length < 300) :
    ∃ s', openCtx s = .ok s' ∧ Rep I W s0 a s' { st with frames := (fun _ => none) :: st.frames } ∧ Ext a s a s' ∧ s'.flow = s.flow := by
  have hn := h.scopes.length
  have q := Program.quiet_alloc s { val := .obj, link := some objectP }
  refine ⟨{ (alloc s { val := .obj, link := some objectP }).1 with ctxs := s.fresh :: s.ctxs }, ?_, ?_,
    ⟨List.prefix_refl _, q.fresh, fun i hi _ => q.obj i hi⟩, rfl⟩
  · unfold openCtx
    rw [if_neg (by omega), if_neg (by omega)]
    rfl
  · have hq := h.quiet q
    refine ⟨hq.1, hq.2, hq.3, hq.4, hq.5, hq.6, ?_, hq.8, hq.9, ?_, hq.11, hq.12, ⟨Nat.lt_succ_self _, ?_, .inr h.fresh⟩, ?_, ?_, hq.13⟩
    · show (s.fresh :: s.ctxs).getLast? = _
      rw [List.getLast?_cons, h.bottom]; rfl
    · intro o ho hm
      rcases List.mem_cons.1 hm with rfl | hm
      · exact Nat.lt_irrefl _ (h.high _ ho).2
      · exact h.apart o ho hm
    · show (if s.fresh = s.fresh then _ else s.obj _ : Obj).val = _
      rw [if_pos rfl]
    · intro k
      show getp (if s.fresh = s.fresh then _ else s.obj _ : Obj).props _ = none
      rw [if_pos rfl]
      rfl
    · intro hm
      exact Nat.lt_irrefl _ (h.scopes.lt _ hm)

/-- The end of a scope. -/
theorem Rep.close {f f' : Frame} {fs : List Frame} (h : Rep I W s0 a s st) (hst : st.frames = f :: f' :: fs) :
    Rep I W s0 a (closeCtx s) { st with frames := f' :: fs } ∧ Ext a s a (closeCtx s) ∧ (closeCtx s).flow = s.flow ∧
      (closeCtx s).obj = s.obj ∧ (closeCtx s).fresh = s.fresh := by
  have hs := h.scopes
  rw [hst] at hs
  unfold closeCtx
  cases hc : s.ctxs with
  | nil => rw [hc] at hs; exact hs.elim
  | cons c cs =>
    rw [hc] at hs
    cases cs with
    | nil => exact hs.2.2.2.elim
    | cons d cs =>
      exact ⟨⟨h.1, h.2, h.3, h.4, h.5, h.6, by have := h.bottom; rw [hc] at this; exact this, h.8, h.9,
        fun o ho hm => h.apart o ho (by rw [hc]; exact List.mem_cons_of_mem _ hm), h.11, h.12, hs.2.2.2⟩,
        ⟨List.prefix_refl _, Nat.le_refl _, fun _ _ _ => rfl⟩, rfl, rfl, rfl⟩

/-- A method starts. -/
theorem Rep.push (h : Rep I W s0 a s st) {f o : Nat} (hf : a[f]? = some o) {r r' : Option Nat} (hr : r.map some = r'.map (a[·]?)) :
    Rep I W s0 a { s with recursion := r, stack := o :: s.stack } { st with again := r', running := f :: st.running } :=
  ⟨h.1, h.2, by simp only [List.map_cons, hf, h.stack], hr, h.5, h.6, h.7, h.8, h.9, h.10, h.11, h.12, h.13⟩

/-- A method ends. -/
theorem Rep.pop (h : Rep I W s0 a s st) : Rep I W s0 a { s with stack := s.stack.tail } { st with running := st.running.tail } :=
  ⟨h.1, h.2, by rw [List.map_tail, List.map_tail, h.stack], h.4, h.5, h.6, h.7, h.8, h.9, h.10, h.11, h.12, h.13⟩

theorem Rep.running (h : Rep I W s0 a s st) {f o : Nat} (hf : a[f]? = some o) : o ∈ s.stack ↔ f ∈ st.running := by
  constructor
  · intro hm
    have : some o ∈ s.stack.map some := List.mem_map_of_mem hm
    rw [h.stack] at this
    obtain ⟨i, hi, e⟩ := List.mem_map.1 this
    rw [← at_inj h.nodup e hf]; exact hi
  · intro hm
    have : a[f]? ∈ st.running.map (a[·]?) := List.mem_map_of_mem hm
    rw [← h.stack, hf] at this
    obtain ⟨i, hi, e⟩ := List.mem_map.1 this
    rw [← Option.some.inj e]; exact hi

theorem Rep.stackHigh (h : Rep I W s0 a s st) {o : Nat} (ho : o ∈ s.stack) : s0.fresh ≤ o := by
  have : some o ∈ s.stack.map some := List.mem_map_of_mem ho
  rw [h.stack] at this
  obtain ⟨i, _, e⟩ := List.mem_map.1 this
  exact (h.high o (at_mem e)).1

theorem Rep.stackLength (h : Rep I W s0 a s st) : s.stack.length = st.running.length := by
  have := congrArg List.length h.stack
  simpa using this

theorem Rep.again (h : Rep I W s0 a s st) {i o : Nat} (hi : a[i]? = some o) : s.recursion = some o ↔ st.again = some i := by
  have hr := h.recursion
  constructor
  · intro e
    rw [e] at hr
    cases ha : st.again with
    | none => rw [ha] at hr; cases hr
    | some j =>
      rw [ha] at hr
      have : some o = a[j]? := Option.some.inj hr
      rw [at_inj h.nodup this.symm hi]
  · intro e
    rw [e] at hr
    cases ha : s.recursion with
    | none => rw [ha] at hr; cases hr
    | some j =>
      rw [ha] at hr
      have : some j = a[i]? := Option.some.inj hr
      rw [hi] at this
      exact this

end

end Verif.Model.Objects
