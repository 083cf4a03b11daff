import Verif.Spec.Retold

/-!
# Lemmas: the reference interpreter and its translation
-/

namespace Verif.Spec.Retold
open Verif.Spec (Node)
open Verif.Spec.Program
open Verif.Spec.Retell (Say trNode trNodes)

variable {T : Say} {W W' : Words} {N Q : List (List UInt8)} {K : List (List (List UInt8))}

/-! ### Values and scopes -/

section
variable (T N Q K)

/-- Blocks use the given names only. -/
def Fine : V → Prop
  | .code ps b => (∀ p ∈ ps, p ∈ N) ∧ usesAll N Q K b = true
  | _ => True

/-- The scope and its translation. -/
def Pair (f f' : Frame) : Prop :=
  ∀ k ∈ N, f' (T.word k) = (f k).map (retold T) ∧ ∀ v, f k = some v → Fine N Q K v

/-- The scopes and their translations. -/
def Pairs : List Frame → List Frame → Prop
  | [], [] => True
  | f :: fs, f' :: fs' => Pair T N Q K f f' ∧ Pairs fs fs'
  | _, _ => False

/-- What a step does in one language, its translation does in the other one. -/
def SimM (g : α → Prop) (t : α → β) (m : Program.M α) (m' : Program.M β) : Prop :=
  ∀ fs fs', Pairs T N Q K fs fs' → ∀ r gs, m fs = some (r, gs) →
    (∀ a, r = .ok a → g a) ∧ ∃ gs', m' fs' = some (r.map t, gs') ∧ Pairs T N Q K gs gs'
end

theorem Pairs.length : ∀ {fs fs' : List Frame}, Pairs T N Q K fs fs' → fs'.length = fs.length
  | [], [], _ => rfl
  | _ :: _, _ :: _, h => congrArg (· + 1) h.2.length
  | [], _ :: _, h => h.elim
  | _ :: _, [], h => h.elim

theorem SimM.none {α β : Type} {g : α → Prop} {t : α → β} {m' : Program.M β} : SimM T N Q K g t (fun _ => none) m' :=
  fun _ _ _ _ _ h => nomatch h

theorem SimM.ret {α β : Type} {g : α → Prop} {t : α → β} {a : α} (h : g a) : SimM T N Q K g t (M.ret a) (M.ret (t a)) := by
  intro fs fs' hp r gs e
  obtain ⟨rfl, rfl⟩ := Prod.mk.inj (Option.some.inj e)
  exact ⟨fun b hb => by obtain rfl := Except.ok.inj hb; exact h, fs', rfl, hp⟩

theorem SimM.lift {α β : Type} {g : α → Prop} {t : α → β} {a : Option α} (h : ∀ b, a = some b → g b) :
    SimM T N Q K g t (M.lift a) (M.lift (a.map t)) := by
  cases a with
  | none => exact SimM.none
  | some a => exact SimM.ret (h a rfl)

theorem SimM.bind {α β γ δ : Type} {g : α → Prop} {t : α → β} {h : γ → Prop} {u : γ → δ} {m : Program.M α} {m' : Program.M β}
    {f : α → Program.M γ} {f' : β → Program.M δ} (h1 : SimM T N Q K g t m m') (h2 : ∀ a, g a → SimM T N Q K h u (f a) (f' (t a))) :
    SimM T N Q K h u (m.andThen f) (m'.andThen f') := by
  intro fs fs' hp r gs e
  unfold M.andThen at e
  split at e
  · cases e
  · rename_i x gs1 e1
    obtain ⟨rfl, rfl⟩ := Prod.mk.inj (Option.some.inj e)
    obtain ⟨_, gs', e2, p2⟩ := h1 _ _ hp _ _ e1
    exact ⟨fun _ h => (nomatch h), gs', by simp only [M.andThen, e2, Except.map], p2⟩
  · rename_i a gs1 e1
    obtain ⟨k1, gs', e2, p2⟩ := h1 _ _ hp _ _ e1
    obtain ⟨k2, gs2, e3, p3⟩ := h2 a (k1 a rfl) _ _ p2 _ _ e
    exact ⟨k2, gs2, by simp only [M.andThen, e2, Except.map]; exact e3, p3⟩

theorem SimM.ite {α β : Type} {g : α → Prop} {t : α → β} {c : Prop} [Decidable c] {m n : Program.M α} {m' n' : Program.M β}
    (h : SimM T N Q K g t m m') (k : SimM T N Q K g t n n') : SimM T N Q K g t (if c then m else n) (if c then m' else n') := by
  by_cases hc : c
  · rw [if_pos hc, if_pos hc]; exact h
  · rw [if_neg hc, if_neg hc]; exact k

theorem SimM.early {α β : Type} {g : α → Prop} {t : α → β} {x : Sig} :
    SimM T N Q K g t (fun fs => some (.error x, fs)) (fun fs => some (.error x, fs)) := by
  intro fs fs' hp r gs e
  obtain ⟨rfl, rfl⟩ := Prod.mk.inj (Option.some.inj e)
  exact ⟨fun _ h => (nomatch h), fs', rfl, hp⟩

/-! ### Restrictions -/

theorem trNodes_length : ∀ es : List Node, (trNodes T es).length = es.length
  | [] => rfl
  | _ :: es => congrArg (· + 1) (trNodes_length es)

theorem receiver_tr {e : Node} (h : receiver e = true) : receiver (trNode T e) = true := by
  cases e <;> first | rfl | cases h

mutual
theorem few_tr : ∀ e : Node, few e = true → few (trNode T e) = true
  | .ref _ _, _ => rfl
  | .num _, _ => rfl
  | .str _, _ => rfl
  | .block _ _, _ => rfl
  | .nested e, h => few_tr e h
  | .assign r e, h => by
    simp only [few, Bool.and_eq_true] at h
    cases r with
    | ref m n => simp only [trNode, few, few_tr e h.2, Bool.and_true]
    | _ => exact absurd h.1 (by simp)
  | .msg r ms, h => by
    simp only [few, Bool.and_eq_true] at h
    simp only [trNode, few, receiver_tr h.1.1, few_tr r h.1.2, fewMsgs_tr ms h.2, Bool.and_true]
  | .ret _, h => by cases h
  | .una _, h => by cases h
  | .bin _ _, h => by cases h
  | .kw _ _, h => by cases h
theorem fewMsgs_tr : ∀ ms : List Node, fewMsgs ms = true → fewMsgs (trNodes T ms) = true
  | [], _ => rfl
  | .una _ :: ms, h => fewMsgs_tr ms h
  | .bin _ a :: ms, h => by
    simp only [fewMsgs, Bool.and_eq_true] at h
    simp only [trNodes, trNode, fewMsgs, few_tr a h.1, fewMsgs_tr ms h.2, Bool.and_true]
  | .kw _ as :: ms, h => by
    simp only [fewMsgs, Bool.and_eq_true, decide_eq_true_eq] at h
    simp only [trNodes, trNode, fewMsgs, fewArgs_tr as h.1.2, fewMsgs_tr ms h.2, Bool.and_true, trNodes_length, h.1.1, decide_true]
  | .ref _ _ :: _, h => by cases h
  | .num _ :: _, h => by cases h
  | .str _ :: _, h => by cases h
  | .block _ _ :: _, h => by cases h
  | .nested _ :: _, h => by cases h
  | .assign _ _ :: _, h => by cases h
  | .msg _ _ :: _, h => by cases h
  | .ret _ :: _, h => by cases h
theorem fewArgs_tr : ∀ as : List Node, fewArgs as = true → fewArgs (trNodes T as) = true
  | [], _ => rfl
  | a :: as, h => by
    simp only [fewArgs, Bool.and_eq_true] at h
    simp only [trNodes, fewArgs, few_tr a h.1, fewArgs_tr as h.2, Bool.and_true]
end

theorem fewStmts_tr : ∀ es : List Node, fewStmts es = true → fewStmts (trNodes T es) = true
  | [], _ => rfl
  | e :: es, h => by
    cases e with
    | ret e =>
      simp only [fewStmts, Bool.and_eq_true] at h
      simp only [trNodes, trNode, fewStmts, few_tr e h.1, fewStmts_tr es h.2, Bool.and_true]
    | _ =>
      simp only [fewStmts, Bool.and_eq_true] at h
      have := few_tr (T := T) _ h.1
      simp only [trNode] at this
      simp only [trNodes, trNode, fewStmts, this, fewStmts_tr es h.2, Bool.and_true]

/-! ### Variables -/

section
variable (hF : Faithful T W W' N Q K)
include hF

theorem Pair.upd {f f' : Frame} (h : Pair T N Q K f f') {k : List UInt8} (hk : k ∈ N) {v : V} (hv : Fine N Q K v) :
    Pair T N Q K (upd f k v) (upd f' (T.word k) (retold T v)) := by
  intro x hx
  by_cases e : x = k
  · subst e
    simp only [Program.upd, if_true, Option.map_some, true_and]
    intro w hw
    obtain rfl := Option.some.inj hw
    exact hv
  · have e' : ¬ T.word x = T.word k := fun h => e (hF.apart _ hx _ hk h)
    simp only [Program.upd, e, e', if_false]
    exact h x hx

omit hF in
theorem lookup_pairs {k : List UInt8} (hk : k ∈ N) : ∀ {fs fs' : List Frame}, Pairs T N Q K fs fs' →
    lookup fs' (T.word k) = (lookup fs k).map (retold T) ∧ ∀ v, lookup fs k = some v → Fine N Q K v
  | [], [], _ => ⟨rfl, fun _ h => nomatch h⟩
  | f :: fs, f' :: fs', h => by
    obtain ⟨h1, h2⟩ := h.1 k hk
    simp only [lookup, h1]
    cases hf : f k with
    | none => exact lookup_pairs hk h.2
    | some v =>
      refine ⟨rfl, fun w hw => ?_⟩
      obtain rfl := Option.some.inj hw
      exact h2 v hf
  | [], _ :: _, h => h.elim
  | _ :: _, [], h => h.elim

theorem assign_pairs {k : List UInt8} (hk : k ∈ N) {v : V} (hv : Fine N Q K v) : ∀ {fs fs' gs : List Frame}, Pairs T N Q K fs fs' →
    assign fs k v = some gs → ∃ gs', assign fs' (T.word k) (retold T v) = some gs' ∧ Pairs T N Q K gs gs'
  | [], [], _, _, e => nomatch e
  | f :: fs, f' :: fs', gs, h, e => by
    obtain ⟨h1, h2⟩ := h.1 k hk
    simp only [assign] at e ⊢
    rw [h1]
    cases hf : f k with
    | none =>
      rw [hf] at e
      simp only [Option.map_eq_some_iff] at e
      obtain ⟨gs1, e1, rfl⟩ := e
      obtain ⟨gs', e2, p2⟩ := assign_pairs hk hv h.2 e1
      exact ⟨f' :: gs', by simp only [Option.map_none, e2, Option.map_some], h.1, p2⟩
    | some w =>
      rw [hf] at e
      obtain rfl := Option.some.inj e
      exact ⟨_, rfl, h.1.upd hF hk hv, h.2⟩
  | [], _ :: _, _, h, _ => h.elim
  | _ :: _, [], _, h, _ => h.elim

theorem declare_pairs {k : List UInt8} (hk : k ∈ N) {v : V} (hv : Fine N Q K v) : ∀ {fs fs' gs : List Frame}, Pairs T N Q K fs fs' →
    declare fs k v = some gs → ∃ gs', declare fs' (T.word k) (retold T v) = some gs' ∧ Pairs T N Q K gs gs'
  | [], [], _, _, e => nomatch e
  | f :: fs, f' :: fs', gs, h, e => by
    obtain rfl := Option.some.inj e
    exact ⟨_, rfl, h.1.upd hF hk hv, h.2⟩
  | [], _ :: _, _, h, _ => h.elim
  | _ :: _, [], _, h, _ => h.elim

theorem entry_pair {ps : List (List UInt8)} {b : List Node} {as : List V} {me : Bool} (hps : ∀ p ∈ ps, p ∈ N)
    (hb : usesAll N Q K b = true) (has : ∀ a ∈ as, Fine N Q K a) :
    Pair T N Q K (entry W ps b as me) (entry W' (ps.map T.word) (trNodes T b) (as.map (retold T)) me) := by
  have hc : Fine N Q K (.code ps b) := ⟨hps, hb⟩
  have hn := hF.names
  simp only [names, List.forall_mem_cons] at hn
  obtain ⟨⟨m1, m2⟩, ⟨y1, y2⟩, ⟨t1, t2⟩, _⟩ := hn
  have h0 : ∀ (ps : List (List UInt8)) (as : List V) (f f' : Frame), (∀ p ∈ ps, p ∈ N) → (∀ a ∈ as, Fine N Q K a) → Pair T N Q K f f' →
      Pair T N Q K ((ps.zip as).foldl (fun f p => Program.upd f p.1 p.2) f)
        (((ps.map T.word).zip (as.map (retold T))).foldl (fun f p => Program.upd f p.1 p.2) f') := by
    intro ps
    induction ps with
    | nil => intro as f f' _ _ h; exact h
    | cons p ps ih =>
      intro as f f' h1 h2 h
      cases as with
      | nil => exact h
      | cons a as =>
        exact ih as _ _ (fun q hq => h1 q (by simp [hq])) (fun q hq => h2 q (by simp [hq])) (h.upd hF (h1 p (by simp)) (h2 a (by simp)))
  have h1 := h0 ps as (fun _ => none) (fun _ => none) hps has fun k _ => ⟨rfl, fun _ h => nomatch h⟩
  unfold entry
  rw [← m2, ← y2, ← t2]
  cases me with
  | false => exact h1.upd hF t1 hc
  | true => exact ((h1.upd hF m1 hc).upd hF y1 hc).upd hF t1 hc

/-! ### Messages -/

omit hF in
/-- The name of a message and its translation mean the same. -/
def Sel (W W' : Words) (sel sel' : List UInt8) : Prop := ∀ p ∈ messages W W', sel' = p.2 ↔ sel = p.1

omit hF in
/-- A value and its translation, if any. -/
def Same (T : Say) (N Q : List (List UInt8)) (K : List (List (List UInt8))) (x x' : Option V) : Prop :=
  x' = x.map (retold T) ∧ ∀ v, x = some v → Fine N Q K v

omit hF in
theorem Same.ite {c : Prop} [Decidable c] {x x' y y' : Option V} (h : Same T N Q K x x') (k : Same T N Q K y y') :
    Same T N Q K (if c then x else y) (if c then x' else y') := by
  by_cases hc : c
  · rw [if_pos hc, if_pos hc]; exact h
  · rw [if_neg hc, if_neg hc]; exact k

omit hF in
theorem Same.none : Same T N Q K none none := ⟨rfl, fun _ h => nomatch h⟩

omit hF in
theorem SimM.same {x x' : Option V} (h : Same T N Q K x x') : SimM T N Q K (Fine N Q K) (retold T) (M.lift x) (M.lift x') := by
  rw [h.1]
  exact SimM.lift h.2

omit hF in
theorem Same.num {z : Int} : Same T N Q K (some (.num z)) (some (.num z)) :=
  ⟨rfl, fun v hv => by obtain rfl := Option.some.inj hv; trivial⟩

omit hF in
theorem Same.bool {b : Bool} : Same T N Q K (some (.bool b)) (some (.bool b)) :=
  ⟨rfl, fun v hv => by obtain rfl := Option.some.inj hv; trivial⟩

omit hF in
theorem Same.small {z : Int} : Same T N Q K (small z) (small z) := by
  unfold Program.small
  exact Same.ite Same.num Same.none

omit hF in
theorem number_retold {a : Int} {sel sel' : List UInt8} (h : Sel W W' sel sel') (as : List V) :
    Same T N Q K (number W a sel as) (number W' a sel' (as.map (retold T))) := by
  simp only [Sel, messages, List.forall_mem_cons] at h
  obtain ⟨h1, h2, h3, h4, h5, h6, h7, h8, h9, h10, h11, h12, _⟩ := h
  match as with
  | [] =>
    simp only [List.map_nil, number, h12]
    exact Same.ite Same.num Same.none
  | [.num b] =>
    simp only [List.map_cons, List.map_nil, retold, number, h1, h2, h3, h4, h5, h6, h7, h8, h9, h10, h11]
    exact .ite .small (.ite .small (.ite .small (.ite .bool (.ite .bool (.ite .bool (.ite .bool (.ite .bool (.ite .bool (.ite .num .none)))))))))
  | [.bool b] => exact Same.none
  | [.code _ _] => exact Same.none
  | [.other] => exact Same.none
  | x :: y :: l => cases x <;> exact Same.none

omit hF in
theorem boolean_retold {a : Bool} {sel sel' : List UInt8} (h : Sel W W' sel sel') (as : List V) :
    Same T N Q K (boolean W a sel as) (boolean W' a sel' (as.map (retold T))) := by
  simp only [Sel, messages, List.forall_mem_cons] at h
  obtain ⟨_, _, _, _, _, _, _, _, h9, h10, _, _, _, _, _, _, _, h18, h19, h20, _⟩ := h
  match as with
  | [] =>
    simp only [List.map_nil, boolean, h18]
    exact Same.ite Same.bool Same.none
  | [.bool b] =>
    simp only [List.map_cons, List.map_nil, retold, boolean, h9, h10, h19, h20]
    exact .ite .bool (.ite .bool (.ite .bool (.ite .bool .none)))
  | [.num b] => exact Same.none
  | [.code _ _] => exact Same.none
  | [.other] => exact Same.none
  | x :: y :: l => cases x <;> exact Same.none

end

/-! ### Steps -/

/-- The task in the other language. -/
def trTask (T : Say) : Task → Task
  | .expr e => .expr (trNode T e)
  | .call ps b as me => .call (ps.map T.word) (trNodes T b) (as.map (retold T)) me
  | .loop b c => .loop (trNodes T b) (trNodes T c)

section
variable (N Q K)
/-- The task uses the given names only. -/
def FineTask : Task → Prop
  | .expr e => uses N Q K e = true
  | .call ps b as _ => (∀ p ∈ ps, p ∈ N) ∧ usesAll N Q K b = true ∧ ∀ a ∈ as, Fine N Q K a
  | .loop b c => usesAll N Q K b = true ∧ usesAll N Q K c = true
variable (T)
/-- The second interpreter does what the first one does. -/
def Sim (ev ev' : Task → Program.M V) : Prop :=
  ∀ t, FineTask N Q K t → SimM T N Q K (Fine N Q K) (retold T) (ev t) (ev' (trTask T t))
end

section
variable {ev ev' : Task → Program.M V} (hS : Sim T N Q K ev ev')
include hS

theorem sim_rounds {ps : List (List UInt8)} {b : List Node} (hps : ∀ p ∈ ps, p ∈ N) (hb : usesAll N Q K b = true) :
    ∀ left done, SimM T N Q K (fun _ : Unit => True) id (rounds ev ps b left done) (rounds ev' (ps.map T.word) (trNodes T b) left done)
  | 0, _ => SimM.ret trivial
  | left + 1, done => by
    intro fs fs' hp r gs e
    have h1 := hS (.call ps b [.num (done + 1 : Nat)] false) ⟨hps, hb, fun a ha => by
      rcases List.mem_singleton.1 ha with rfl; trivial⟩
    unfold rounds at e
    split at e
    · cases e
    · rename_i gs1 e1
      obtain ⟨rfl, rfl⟩ := Prod.mk.inj (Option.some.inj e)
      obtain ⟨_, gs', e2, p2⟩ := h1 _ _ hp _ _ e1
      refine ⟨fun _ _ => trivial, gs', ?_, p2⟩
      unfold rounds
      rw [show ev' (.call (ps.map T.word) (trNodes T b) [.num (done + 1 : Nat)] false) fs' = _ from e2]
      rfl
    · rename_i x gs1 hx e1
      obtain ⟨_, gs', e2, p2⟩ := h1 _ _ hp _ _ e1
      obtain ⟨k3, gs2, e3, p3⟩ := sim_rounds hps hb left (done + 1) _ _ p2 _ _ e
      refine ⟨k3, gs2, ?_, p3⟩
      unfold rounds
      rw [show ev' (.call (ps.map T.word) (trNodes T b) [.num (done + 1 : Nat)] false) fs' = _ from e2]
      cases x with
      | ok v => exact e3
      | error g =>
        cases g with
        | brk => exact absurd rfl hx
        | cont => exact e3

theorem sim_branch {ps : List (List UInt8)} {b : List Node} (hps : ∀ p ∈ ps, p ∈ N) (hb : usesAll N Q K b = true) {v : V} (hv : Fine N Q K v) :
    SimM T N Q K (Fine N Q K) (retold T) (branch ev ps b v) (branch ev' (ps.map T.word) (trNodes T b) (retold T v)) :=
  SimM.bind (hS (.call ps b [v] false) ⟨hps, hb, fun a ha => by rcases List.mem_singleton.1 ha with rfl; exact hv⟩) fun _ _ => SimM.ret hv

theorem sim_call {ps : List (List UInt8)} {b : List Node} (hps : ∀ p ∈ ps, p ∈ N) (hb : usesAll N Q K b = true) {as : List V}
    (has : ∀ a ∈ as, Fine N Q K a) :
    SimM T N Q K (Fine N Q K) (retold T) (call ev ps b as) (call ev' (ps.map T.word) (trNodes T b) (as.map (retold T))) := by
  intro fs fs' hp r gs e
  unfold call at e
  split at e
  · rename_i v gs1 e1
    obtain ⟨rfl, rfl⟩ := Prod.mk.inj (Option.some.inj e)
    obtain ⟨k, gs', e2, p2⟩ := hS (.call ps b as true) ⟨hps, hb, has⟩ _ _ hp _ _ e1
    refine ⟨k, gs', ?_, p2⟩
    unfold call
    rw [show ev' (.call (ps.map T.word) (trNodes T b) (as.map (retold T)) true) fs' = _ from e2]
    rfl
  · cases e

theorem sim_block {ps : List (List UInt8)} {b : List Node} (hps : ∀ p ∈ ps, p ∈ N) (hb : usesAll N Q K b = true) {sel sel' : List UInt8}
    (h : Sel W W' sel sel') {as : List V} (has : ∀ a ∈ as, Fine N Q K a) :
    SimM T N Q K (Fine N Q K) (retold T) (block W ev ps b sel as) (block W' ev' (ps.map T.word) (trNodes T b) sel' (as.map (retold T))) := by
  simp only [Sel, messages, List.forall_mem_cons] at h
  obtain ⟨_, _, h3, h4, _, _, _, _, _, _, _, _, _, _, _, _, _, _, _, _, h21, h22, h23, h24, _⟩ := h
  have hc : ∀ as, (∀ a ∈ as, Fine N Q K a) → _ := fun as h => sim_call (as := as) hS hps hb h
  match as with
  | [] =>
    simp only [List.map_nil, block, h21]
    exact .ite (hc [] has) .none
  | [.num n] =>
    simp only [List.map_cons, List.map_nil, retold, block, h22, h3, h4]
    exact .ite (hc _ has) (.ite (.bind (sim_rounds hS hps hb _ _) fun _ _ => SimM.ret (a := V.code ps b) ⟨hps, hb⟩) .none)
  | [.code qs c] =>
    simp only [List.map_cons, List.map_nil, retold, block, h22, h24, List.map_eq_nil_iff]
    exact .ite (hc _ has) (.ite (hS (.loop b c) ⟨hb, (has (.code qs c) (by simp)).2⟩) .none)
  | [.bool v] =>
    simp only [List.map_cons, List.map_nil, retold, block, h22]
    exact .ite (hc _ has) .none
  | [.other] =>
    simp only [List.map_cons, List.map_nil, retold, block, h22]
    exact .ite (hc _ has) .none
  | [v, w] =>
    cases v <;>
    · simp only [List.map_cons, List.map_nil, retold, block, h23]
      exact .ite (hc _ has) .none
  | v :: w :: x :: l => cases v <;> exact .none

theorem sim_send {v : V} (hv : Fine N Q K v) {sel sel' : List UInt8} (h : Sel W W' sel sel') {as : List V} (has : ∀ a ∈ as, Fine N Q K a) :
    SimM T N Q K (Fine N Q K) (retold T) (send W ev v sel as) (send W' ev' (retold T v) sel' (as.map (retold T))) := by
  cases v with
  | num a => exact .same (number_retold h as)
  | code ps b => exact sim_block hS hv.1 hv.2 h has
  | other => exact .none
  | bool a =>
    have hb := boolean_retold (T := T) (N := N) (Q := Q) (K := K) (a := a) h as
    simp only [Sel, messages, List.forall_mem_cons] at h
    obtain ⟨_, _, _, _, _, _, _, _, _, _, _, _, h13, h14, h15, h16, h17, _⟩ := h
    match as with
    | [] =>
      simp only [List.map_nil, retold, send, h16, h17]
      refine .ite ?_ (.ite ?_ (.same hb))
      · cases a
        · exact SimM.ret (a := V.bool false) trivial
        · exact .early
      · cases a
        · exact SimM.ret (a := V.bool false) trivial
        · exact .early
    | [.code ps b] =>
      simp only [List.map_cons, List.map_nil, retold, send, h13, h14, h15]
      have hc := has (.code ps b) (by simp)
      have h1 := sim_branch hS hc.1 hc.2 (v := .bool a) trivial
      have h2 : SimM T N Q K (Fine N Q K) (retold T) (M.ret (.bool a)) (M.ret (.bool a)) := SimM.ret (a := V.bool a) trivial
      exact .ite (.ite h1 h2) (.ite (.ite h2 h1) .none)
    | [.num b] => exact .same hb
    | [.bool b] => exact .same hb
    | [.other] => exact .same hb
    | x :: y :: l => cases x <;> exact .same hb

theorem sim_args : ∀ {es : List Node}, usesAll N Q K es = true →
    SimM T N Q K (fun vs => ∀ v ∈ vs, Fine N Q K v) (List.map (retold T)) (args ev es) (args ev' (trNodes T es))
  | [], _ => SimM.ret (by simp)
  | e :: es, h => by
    simp only [usesAll, Bool.and_eq_true] at h
    refine .bind (hS (.expr e) h.1) fun v hv => .bind (sim_args h.2) fun vs hvs => SimM.ret (a := v :: vs) ?_
    intro w hw
    rcases List.mem_cons.1 hw with rfl | hw
    · exact hv
    · exact hvs w hw

variable (hF : Faithful T W W' N Q K)
include hF

theorem sim_chain : ∀ {ms : List Node} {v : V}, Fine N Q K v → usesAll N Q K ms = true →
    SimM T N Q K (Fine N Q K) (retold T) (chain W ev v ms) (chain W' ev' (retold T v) (trNodes T ms))
  | [], v, hv, _ => SimM.ret hv
  | m :: ms, v, hv, h => by
    simp only [usesAll, Bool.and_eq_true] at h
    cases m with
    | una n =>
      have hn : n ∈ Q := of_decide_eq_true h.1
      simp only [trNodes, trNode, chain]
      exact .bind (sim_send hS hv (as := []) (hF.words n hn) (by simp)) fun w hw => sim_chain hw h.2
    | bin o a =>
      have h1 := h.1
      simp only [uses, Bool.and_eq_true, decide_eq_true_eq] at h1
      simp only [trNodes, trNode, chain]
      exact .bind (sim_args hS (es := [a]) (by simp only [usesAll, h1.2, Bool.and_true])) fun as has =>
        .bind (sim_send hS hv (hF.words o h1.1) has) fun w hw => sim_chain hw h.2
    | kw ps as =>
      have h1 := h.1
      simp only [uses, Bool.and_eq_true, decide_eq_true_eq] at h1
      simp only [trNodes, trNode, chain]
      exact .bind (sim_args hS h1.2) fun as has =>
        .bind (sim_send hS hv (hF.parts ps h1.1) has) fun w hw => sim_chain hw h.2
    | _ => exact .none

theorem sim_expr {e : Node} (h : uses N Q K e = true) : SimM T N Q K (Fine N Q K) (retold T) (expr W ev e) (expr W' ev' (trNode T e)) := by
  cases e with
  | num t =>
    simp only [trNode, expr]
    exact .same ⟨by cases literal t <;> rfl, fun v hv => by
      cases hl : literal t <;> rw [hl] at hv
      · cases hv
      · obtain rfl := Option.some.inj hv; trivial⟩
  | ref m n =>
    have hn : n ∈ N := of_decide_eq_true h
    match m with
    | 0 =>
      intro fs fs' hp r gs e
      simp only [trNode, expr] at e ⊢
      obtain ⟨h1, h2⟩ := lookup_pairs hn hp
      rw [h1]
      exact SimM.lift h2 fs fs' hp r gs e
    | m + 1 => exact .none
  | block ps b =>
    simp only [uses, Bool.and_eq_true, List.all_eq_true, decide_eq_true_eq] at h
    exact SimM.ret (a := V.code ps b) h
  | nested e => exact hS (.expr e) h
  | msg r ms =>
    simp only [uses, Bool.and_eq_true] at h
    exact .bind (hS (.expr r) h.1) fun v hv => sim_chain hS hF hv h.2
  | assign x e =>
    simp only [uses, Bool.and_eq_true] at h
    cases x with
    | ref m n =>
      have hn : n ∈ N := of_decide_eq_true h.1
      match m with
      | 0 =>
        refine .bind (hS (.expr e) h.2) fun v hv => ?_
        intro fs fs' hp r gs e
        simp only [Option.map_eq_some_iff] at e
        obtain ⟨gs1, e1, e2⟩ := e
        obtain ⟨rfl, rfl⟩ := Prod.mk.inj e2
        obtain ⟨gs', e3, p3⟩ := assign_pairs hF hn hv hp e1
        refine ⟨fun a ha => by obtain rfl := Except.ok.inj ha; exact hv, gs', ?_, p3⟩
        dsimp only
        rw [e3]; rfl
      | 2 =>
        refine .bind (hS (.expr e) h.2) fun v hv => ?_
        intro fs fs' hp r gs e
        simp only [Option.map_eq_some_iff] at e
        obtain ⟨gs1, e1, e2⟩ := e
        obtain ⟨rfl, rfl⟩ := Prod.mk.inj e2
        obtain ⟨gs', e3, p3⟩ := declare_pairs hF hn hv hp e1
        refine ⟨fun a ha => by obtain rfl := Except.ok.inj ha; exact hv, gs', ?_, p3⟩
        dsimp only
        rw [e3]; rfl
      | 1 => exact .none
      | m + 3 => exact .none
    | _ => exact .none
  | _ => exact .none

omit hF in
theorem sim_stmts : ∀ {es : List Node}, usesAll N Q K es = true →
    SimM T N Q K (fun v => ∀ w, v = some w → Fine N Q K w) (Option.map (retold T)) (stmts ev es) (stmts ev' (trNodes T es))
  | [], _ => SimM.ret (by simp)
  | e :: es, h => by
    simp only [usesAll, Bool.and_eq_true] at h
    have h1 := sim_stmts h.2
    cases e with
    | ret e => exact .bind (hS (.expr e) h.1) fun v hv => SimM.ret (a := some v) fun w hw => by obtain rfl := Option.some.inj hw; exact hv
    | _ => exact .bind (hS (.expr _) h.1) fun v hv => h1

theorem sim_enter {ps : List (List UInt8)} {b : List Node} (hps : ∀ p ∈ ps, p ∈ N) (hb : usesAll N Q K b = true) {as : List V}
    (has : ∀ a ∈ as, Fine N Q K a) {me : Bool} :
    SimM T N Q K (Fine N Q K) (retold T) (enter W ev ps b as me) (enter W' ev' (ps.map T.word) (trNodes T b) (as.map (retold T)) me) := by
  intro fs fs' hp r gs e
  unfold enter at e
  split at e
  case isFalse => cases e
  rename_i hc
  have hc' : fs'.length < 300 ∧ (ps.map T.word).length ≤ (as.map (retold T)).length ∧ fewStmts (trNodes T b) = true := by
    rw [hp.length, List.length_map, List.length_map]
    exact ⟨hc.1, hc.2.1, fewStmts_tr b hc.2.2⟩
  unfold enter
  rw [if_pos hc']
  have hp' : Pairs T N Q K (entry W ps b as me :: fs) (entry W' (ps.map T.word) (trNodes T b) (as.map (retold T)) me :: fs') :=
    ⟨entry_pair hF hps hb has, hp⟩
  split at e
  · rename_i v _ f gs1 e1
    obtain ⟨rfl, rfl⟩ := Prod.mk.inj (Option.some.inj e)
    obtain ⟨k, gs', e2, p2⟩ := sim_stmts hS hb _ _ hp' _ _ e1
    rw [e2]
    match gs', p2 with
    | _ :: f' :: gs2, p2 =>
      refine ⟨fun a ha => ?_, f' :: gs2, ?_, p2.2⟩
      · obtain rfl := Except.ok.inj ha
        cases v with
        | none => exact ⟨hps, hb⟩
        | some v => exact k _ rfl v rfl
      · cases v <;> rfl
    | [_], p2 => exact p2.2.elim
    | [], p2 => exact p2.elim
  · rename_i g _ f gs1 e1
    obtain ⟨rfl, rfl⟩ := Prod.mk.inj (Option.some.inj e)
    obtain ⟨_, gs', e2, p2⟩ := sim_stmts hS hb _ _ hp' _ _ e1
    rw [e2]
    match gs', p2 with
    | _ :: f' :: gs2, p2 => exact ⟨fun _ h => (nomatch h), f' :: gs2, rfl, p2.2⟩
    | [_], p2 => exact p2.2.elim
    | [], p2 => exact p2.elim
  · cases e

omit hF in
theorem sim_loop {b c : List Node} (hb : usesAll N Q K b = true) (hc : usesAll N Q K c = true) :
    SimM T N Q K (Fine N Q K) (retold T) (loop ev b c) (loop ev' (trNodes T b) (trNodes T c)) := by
  intro fs fs' hp r gs e
  have h1 := hS (.call [] c [] false) ⟨by simp, hc, by simp⟩
  have h2 := hS (.call [] b [] false) ⟨by simp, hb, by simp⟩
  have hf : ∀ a : V, (Except.ok (V.code [] b) : Except Sig V) = .ok a → Fine N Q K a := fun a ha => by
    obtain rfl := Except.ok.inj ha; exact ⟨by simp, hb⟩
  unfold loop at e
  unfold loop
  split at e
  · rename_i gs1 e1
    obtain ⟨rfl, rfl⟩ := Prod.mk.inj (Option.some.inj e)
    obtain ⟨_, gs', e2, p2⟩ := h1 _ _ hp _ _ e1
    refine ⟨hf, gs', ?_, p2⟩
    rw [show ev' (.call [] (trNodes T c) [] false) fs' = _ from e2]
    rfl
  · rename_i gs1 e1
    obtain ⟨_, gs', e2, p2⟩ := h1 _ _ hp _ _ e1
    rw [show ev' (.call [] (trNodes T c) [] false) fs' = _ from e2]
    split at e
    · cases e
    · rename_i gs3 e3
      obtain ⟨rfl, rfl⟩ := Prod.mk.inj (Option.some.inj e)
      obtain ⟨_, gs4, e4, p4⟩ := h2 _ _ p2 _ _ e3
      refine ⟨hf, gs4, ?_, p4⟩
      simp only [Except.map, retold]
      rw [show ev' (.call [] (trNodes T b) [] false) gs' = _ from e4]
      rfl
    · rename_i x gs3 hx e3
      obtain ⟨_, gs4, e4, p4⟩ := h2 _ _ p2 _ _ e3
      obtain ⟨k5, gs5, e5, p5⟩ := hS (.loop b c) ⟨hb, hc⟩ _ _ p4 _ _ e
      refine ⟨k5, gs5, ?_, p5⟩
      simp only [Except.map, retold]
      rw [show ev' (.call [] (trNodes T b) [] false) gs' = _ from e4]
      cases x with
      | ok v => exact e5
      | error g =>
        cases g with
        | brk => exact absurd rfl hx
        | cont => exact e5
  · cases e

end

section
variable (hF : Faithful T W W' N Q K)
include hF

/-- The reference interpreter for the other language does the same with the translated program. -/
theorem sim : ∀ n, Sim T N Q K (exec W n) (exec W' n)
  | 0 => fun _ _ => .none
  | n + 1 => fun t ht => by
    cases t with
    | expr e => exact sim_expr (sim n) hF ht
    | call ps b as me => exact sim_enter (sim n) hF ht.1 ht.2.1 ht.2.2
    | loop b c => exact sim_loop (sim n) ht.1 ht.2

theorem globals_pair : Pair T N Q K (globals W) (globals W') := by
  have hn := hF.names
  simp only [names, List.forall_mem_cons] at hn
  obtain ⟨_, _, _, ⟨y1, y2⟩, ⟨n1, n2⟩, _⟩ := hn
  intro k hk
  have e1 : T.word k = W'.yes ↔ k = W.yes := by
    rw [← y2]; exact ⟨hF.apart _ hk _ y1, congrArg _⟩
  have e2 : T.word k = W'.no ↔ k = W.no := by
    rw [← n2]; exact ⟨hF.apart _ hk _ n1, congrArg _⟩
  have e3 : T.word k ∈ W'.others ↔ k ∈ W.others := by
    rw [hF.others.1, List.mem_map]
    constructor
    · rintro ⟨o, ho, e⟩
      rw [← hF.apart _ (hF.others.2 o ho) _ hk e]; exact ho
    · exact fun h => ⟨k, h, rfl⟩
  have hs : Same T N Q K (globals W k) (globals W' (T.word k)) := by
    simp only [globals, e1, e2, e3]
    exact .ite .bool (.ite .bool (.ite ⟨rfl, fun v hv => by obtain rfl := Option.some.inj hv; trivial⟩ .none))
  exact hs

/-- The translated program ends with the same values. -/
theorem ends_retold {es : List Node} {f : Frame} (hu : usesAll N Q K es = true) (h : Ends W es f) :
    ∃ f', Ends W' (trNodes T es) f' ∧ ∀ k ∈ N, f' (T.word k) = (f k).map (retold T) := by
  obtain ⟨n, r, e⟩ := h
  obtain ⟨_, gs', e2, p2⟩ := sim_stmts (sim hF n) hu [globals W] [globals W'] ⟨globals_pair hF, trivial⟩ _ _ e
  match gs', p2 with
  | [f'], p2 => exact ⟨f', ⟨n, _, e2⟩, fun k hk => (p2.1 k hk).1⟩
  | _ :: _ :: _, p2 => exact p2.2.elim
  | [], p2 => exact p2.elim

end

end Verif.Spec.Retold
