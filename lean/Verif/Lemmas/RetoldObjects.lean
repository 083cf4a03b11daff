import Verif.Spec.RetoldObjects
import Verif.Lemmas.Retold

/-!
# Lemmas: the reference interpreter of programs with objects, and its translation
-/

namespace Verif.Spec.RetoldObjects
open Verif.Spec (Node)
open Verif.Spec.Program (selector literal fewStmts)
open Verif.Spec.Objects
open Verif.Spec.Retell (Say trNode trNodes)
open Verif.Spec.Retold (uses usesAll fewStmts_tr)

/-! ### Lists and options -/

section
variable {α β γ δ : Type} {r : α → β → Prop}

theorem Two.length : ∀ {l : List α} {l' : List β}, Two r l l' → l'.length = l.length
  | [], [], _ => rfl
  | _ :: _, _ :: _, h => congrArg (· + 1) h.2.length
  | [], _ :: _, h => h.elim
  | _ :: _, [], h => h.elim

theorem Two.get : ∀ {l : List α} {l' : List β}, Two r l l' → ∀ i : Nat, Opt r l[i]? l'[i]?
  | [], [], _, _ => trivial
  | _ :: _, _ :: _, h, 0 => h.1
  | _ :: _, _ :: _, h, i + 1 => by
    rw [List.getElem?_cons_succ, List.getElem?_cons_succ]; exact h.2.get i
  | [], _ :: _, h, _ => h.elim
  | _ :: _, [], h, _ => h.elim

theorem Two.set {a : α} {b : β} (hab : r a b) : ∀ {l : List α} {l' : List β}, Two r l l' → ∀ i : Nat, Two r (l.set i a) (l'.set i b)
  | [], [], _, _ => trivial
  | _ :: _, _ :: _, h, 0 => ⟨hab, h.2⟩
  | _ :: _, _ :: _, h, i + 1 => ⟨h.1, h.2.set hab i⟩
  | [], _ :: _, h, _ => h.elim
  | _ :: _, [], h, _ => h.elim

theorem Two.append {m : List α} {m' : List β} (hm : Two r m m') : ∀ {l : List α} {l' : List β}, Two r l l' → Two r (l ++ m) (l' ++ m')
  | [], [], _ => hm
  | _ :: _, _ :: _, h => ⟨h.1, Two.append hm h.2⟩
  | [], _ :: _, h => h.elim
  | _ :: _, [], h => h.elim

theorem Opt.some_left {a : α} {y : Option β} (h : Opt r (some a) y) : ∃ b, y = some b ∧ r a b := by
  cases y with
  | none => exact h.elim
  | some b => exact ⟨b, rfl, h⟩

theorem Opt.none_left {y : Option β} (h : Opt r none y) : y = none := by
  cases y with
  | none => rfl
  | some b => exact h.elim
end

variable {T : Say} {W W' : Words} {N Q L : List (List UInt8)} {K : List (List (List UInt8))} {R : List UInt8 → List UInt8 → Prop}

/-! ### States -/

section
variable (T W W' N Q L K R)

/-- Names, messages and texts in blocks are the given ones. -/
def Good : Ob → Prop
  | .block ps b _ _ => (∀ p ∈ ps, p ∈ N) ∧ usesAll N Q K b = true ∧ saysAll L b = true
  | _ => True

/-- Things and their translations. -/
def ObRel (o o' : Ob) : Prop := LikeOb T W W' N Q K R o o' ∧ Good N Q L K o

/-- The states of both programs. -/
structure Both (s s' : State) : Prop where
  frames : Two (Pair T N R) s.frames s'.frames
  store : Two (ObRel T W W' N Q L K R) s.store s'.store
  running : s'.running = s.running
  again : s'.again = s.again

/-- What a step does in one language, its translation does in the other one. -/
def SimM (g : α → β → Prop) (m : M α) (m' : M β) : Prop :=
  ∀ s s', Both T W W' N Q L K R s s' → ∀ r z, m s = some (r, z) →
    ∃ r' z', m' s' = some (r', z') ∧ LikeRes g R r r' ∧ Both T W W' N Q L K R z z'
end

local notation "SIM" => SimM T W W' N Q L K R
local notation "BOTH" => Both T W W' N Q L K R

section
variable {α β γ δ : Type}

theorem SimM.none {g : α → β → Prop} {m' : M β} : SIM g (fun _ => none) m' := fun _ _ _ _ _ h => nomatch h

theorem SimM.ret {g : α → β → Prop} {a : α} {b : β} (h : g a b) : SIM g (M.ret a) (M.ret b) := by
  intro s s' hp r z e
  obtain ⟨rfl, rfl⟩ := Prod.mk.inj (Option.some.inj e)
  exact ⟨_, _, rfl, h, hp⟩

theorem SimM.fail {g : α → β → Prop} : SIM g M.fail M.fail := by
  intro s s' hp r z e
  obtain ⟨rfl, rfl⟩ := Prod.mk.inj (Option.some.inj e)
  exact ⟨_, _, rfl, trivial, hp⟩

theorem SimM.give {g : α → β → Prop} {x : Except Sig α} {x' : Except Sig β} (h : LikeRes g R x x') :
    SIM g (fun s => some (x, s)) (fun s => some (x', s)) := by
  intro s s' hp r z e
  obtain ⟨rfl, rfl⟩ := Prod.mk.inj (Option.some.inj e)
  exact ⟨_, _, rfl, h, hp⟩

theorem SimM.lift {g : α → β → Prop} {a : Option α} {b : Option β} (h : ∀ x, a = some x → ∃ y, b = some y ∧ g x y) :
    SIM g (M.lift a) (M.lift b) := by
  cases a with
  | none => exact SimM.none
  | some a =>
    obtain ⟨y, rfl, hy⟩ := h a rfl
    exact SimM.ret hy

theorem SimM.bind {g : α → β → Prop} {h : γ → δ → Prop} {m : M α} {m' : M β}
    {f : α → M γ} {f' : β → M δ} (h1 : SIM g m m') (h2 : ∀ a b, g a b → SIM h (f a) (f' b)) :
    SIM h (m.andThen f) (m'.andThen f') := by
  intro s s' hp r z e
  unfold M.andThen at e
  split at e
  · cases e
  · rename_i x z1 e1
    obtain ⟨rfl, rfl⟩ := Prod.mk.inj (Option.some.inj e)
    obtain ⟨r', z', e2, l2, p2⟩ := h1 _ _ hp _ _ e1
    cases r' with
    | ok b => exact l2.elim
    | error x' => exact ⟨.error x', z', by simp only [M.andThen, e2], l2, p2⟩
  · rename_i a z1 e1
    obtain ⟨r', z', e2, l2, p2⟩ := h1 _ _ hp _ _ e1
    cases r' with
    | error x' => exact l2.elim
    | ok b =>
      obtain ⟨r3, z3, e3, l3, p3⟩ := h2 a b l2 _ _ p2 _ _ e
      exact ⟨r3, z3, by simp only [M.andThen, e2]; exact e3, l3, p3⟩

theorem SimM.ite {g : α → β → Prop} {c : Prop} [Decidable c] {m n : M α} {m' n' : M β}
    (h : SIM g m m') (k : SIM g n n') : SIM g (if c then m else n) (if c then m' else n') := by
  by_cases hc : c
  · rw [if_pos hc, if_pos hc]; exact h
  · rw [if_neg hc, if_neg hc]; exact k

/-- Steps that depend on the state. -/
theorem SimM.dep {g : α → β → Prop} {f : State → M α} {f' : State → M β}
    (h : ∀ s s', BOTH s s' → SIM g (f s) (f' s')) : SIM g (fun s => f s s) (fun s => f' s s) :=
  fun s s' hp r z e => h s s' hp s s' hp r z e

theorem SimM.mono {g h : α → β → Prop} {m : M α} {m' : M β} (k : ∀ a b, g a b → h a b) (hm : SIM g m m') : SIM h m m' := by
  intro s s' hp r z e
  obtain ⟨r', z', e2, l2, p2⟩ := hm _ _ hp _ _ e
  refine ⟨r', z', e2, ?_, p2⟩
  cases r <;> cases r' <;> first | exact l2 | exact k _ _ l2 | exact l2.elim
end

/-! ### Variables -/

section
variable (hF : Faithful T W W' N Q K)
include hF

theorem Pair.upd {f f' : Frame} (h : Pair T N R f f') {k : List UInt8} (hk : k ∈ N) {v v' : V} (hv : Like R v v') :
    Pair T N R (upd f k v) (upd f' (T.word k) v') := by
  intro x hx
  by_cases e : x = k
  · subst e
    simp only [Objects.upd, if_true]
    exact hv
  · have e' : ¬ T.word x = T.word k := fun h => e (hF.apart _ hx _ hk h)
    simp only [Objects.upd, e, e', if_false]
    exact h x hx

omit hF in
theorem lookup_pairs {k : List UInt8} (hk : k ∈ N) : ∀ {fs fs' : List Frame}, Two (Pair T N R) fs fs' →
    Opt (Like R) (lookup fs k) (lookup fs' (T.word k))
  | [], [], _ => trivial
  | f :: fs, f' :: fs', h => by
    have h1 := h.1 k hk
    simp only [lookup]
    cases hf : f k with
    | none =>
      rw [hf] at h1
      rw [h1.none_left]
      exact lookup_pairs hk h.2
    | some v =>
      rw [hf] at h1
      obtain ⟨v', e, l⟩ := h1.some_left
      rw [e]
      exact l
  | [], _ :: _, h => h.elim
  | _ :: _, [], h => h.elim

theorem assign_pairs {k : List UInt8} (hk : k ∈ N) {v v' : V} (hv : Like R v v') : ∀ {fs fs' : List Frame}, Two (Pair T N R) fs fs' →
    Opt (Two (Pair T N R)) (assign fs k v) (assign fs' (T.word k) v')
  | [], [], _ => trivial
  | f :: fs, f' :: fs', h => by
    have h1 := h.1 k hk
    simp only [assign]
    cases hf : f k with
    | none =>
      rw [hf] at h1
      rw [h1.none_left]
      have ih := assign_pairs hk hv h.2
      cases e1 : assign fs k v with
      | none => rw [e1] at ih; rw [ih.none_left]; trivial
      | some gs =>
        rw [e1] at ih
        obtain ⟨gs', e2, p2⟩ := ih.some_left
        rw [e2]
        exact ⟨h.1, p2⟩
    | some w =>
      rw [hf] at h1
      obtain ⟨w', e, _⟩ := h1.some_left
      rw [e]
      exact ⟨h.1.upd hF hk hv, h.2⟩
  | [], _ :: _, h => h.elim
  | _ :: _, [], h => h.elim

omit hF in
theorem sim_fetch {k : List UInt8} (hk : k ∈ N) : SIM (Like R) (fetch k) (fetch (T.word k)) := by
  intro s s' hp r z e
  have h := lookup_pairs hk hp.frames
  unfold fetch at e ⊢
  cases h1 : lookup s.frames k with
  | none => rw [h1] at h e; rw [h.none_left]; exact SimM.fail s s' hp r z e
  | some v =>
    rw [h1] at h e
    obtain ⟨v', e2, l⟩ := h.some_left
    rw [e2]
    exact SimM.ret l s s' hp r z e

theorem sim_store {k : List UInt8} (hk : k ∈ N) {v v' : V} (hv : Like R v v') : SIM (Like R) (store k v) (store (T.word k) v') := by
  intro s s' hp r z e
  have h := assign_pairs hF hk hv hp.frames
  unfold store at e ⊢
  cases h1 : assign s.frames k v with
  | none => rw [h1] at h e; rw [h.none_left]; exact SimM.fail s s' hp r z e
  | some fs =>
    rw [h1] at h e
    obtain ⟨fs', e2, l⟩ := h.some_left
    rw [e2]
    obtain ⟨rfl, rfl⟩ := Prod.mk.inj (Option.some.inj e)
    exact ⟨.ok v', { s' with frames := fs' }, rfl, hv, l, hp.store, hp.running, hp.again⟩

theorem sim_make {k : List UInt8} (hk : k ∈ N) {v v' : V} (hv : Like R v v') : SIM (Like R) (make k v) (make (T.word k) v') := by
  intro s s' hp r z e
  have hf := hp.frames
  unfold make declare at *
  match h1 : s.frames, h2 : s'.frames, hf with
  | [], [], _ => rw [h1] at e; cases e
  | f :: fs, f' :: fs', hf =>
    rw [h1] at e
    obtain ⟨rfl, rfl⟩ := Prod.mk.inj (Option.some.inj e)
    exact ⟨.ok v', { s' with frames := Objects.upd f' (T.word k) v' :: fs' }, rfl, hv, ⟨hf.1.upd hF hk hv, hf.2⟩, hp.store, hp.running,
      hp.again⟩
  | [], _ :: _, hf => exact hf.elim
  | _ :: _, [], hf => exact hf.elim

theorem sim_me {f f' : Nat → Option Nat → Frame → (List UInt8 → Option Nat) → M V}
    (h : ∀ i p own own' ms ms', Pair T N R own own' → (∀ sel sel', Sent T W W' Q K sel sel' → ms' sel' = ms sel) →
      SIM (Like R) (f i p own ms) (f' i p own' ms')) : SIM (Like R) (me W f) (me W' f') := by
  intro s s' hp r z e
  have hn := hF.names
  simp only [names, Retold.names, List.cons_append, List.forall_mem_cons] at hn
  obtain ⟨⟨m1, m2⟩, _⟩ := hn
  have hl := lookup_pairs m1 hp.frames
  rw [m2] at hl
  unfold me at e ⊢
  cases h1 : lookup s.frames W.me with
  | none => rw [h1] at hl e; rw [hl.none_left]; exact SimM.fail s s' hp r z e
  | some v =>
    rw [h1] at hl e
    obtain ⟨v', e2, l⟩ := hl.some_left
    cases v with
    | ref i =>
      cases v' with
      | ref j =>
        obtain rfl : i = j := l
        rw [e2]
        dsimp only at e ⊢
        have hs := hp.store.get i
        cases h3 : s.store[i]? with
        | none => rw [h3] at e; cases e
        | some o =>
          rw [h3] at hs e
          obtain ⟨o', e4, l4⟩ := hs.some_left
          rw [e4]
          cases o with
          | obj p own ms =>
            cases o' with
            | obj p' own' ms' =>
              obtain ⟨⟨rfl, k1, k2⟩, _⟩ := l4
              exact h i p' own own' ms ms' k1 k2 s s' hp r z e
            | _ => exact l4.1.elim
          | _ => cases e
      | _ => exact l.elim
    | _ => cases e

theorem sim_own {k : List UInt8} (hk : k ∈ N) : SIM (Like R) (ownVariable W k) (ownVariable W' (T.word k)) := by
  refine sim_me hF fun i p own own' ms ms' h _ => ?_
  have h1 := h k hk
  cases h2 : own k with
  | none => rw [h2] at h1; rw [h1.none_left]; exact .fail
  | some v =>
    rw [h2] at h1
    obtain ⟨v', e2, l⟩ := h1.some_left
    rw [e2]
    exact .ret l

theorem sim_ownStore {k : List UInt8} (hk : k ∈ N) {v v' : V} (hv : Like R v v') :
    SIM (Like R) (ownStore W k v) (ownStore W' (T.word k) v') := by
  refine sim_me hF fun i p own own' ms ms' h hm => ?_
  intro s s' hp r z e
  obtain ⟨rfl, rfl⟩ := Prod.mk.inj (Option.some.inj e)
  exact ⟨_, _, rfl, hv, hp.frames, hp.store.set (a := .obj p (Objects.upd own k v) ms) (b := .obj p (Objects.upd own' (T.word k) v') ms') ⟨⟨rfl, h.upd hF hk hv, hm⟩, trivial⟩ i, hp.running, hp.again⟩
end

/-! ### Messages -/

/-- The name of a message and its translation mean the same. -/
def Sel (W W' : Words) (sel sel' : List UInt8) : Prop := ∀ p ∈ messages W W', sel' = p.2 ↔ sel = p.1

/-- The results of a message in both languages. -/
def OkOpt (R : List UInt8 → List UInt8 → Prop) (x x' : Option (Except Sig V)) : Prop :=
  ∀ r, x = some r → ∃ r', x' = some r' ∧ LikeRes (Like R) R r r'

theorem OkOpt.ite {c : Prop} [Decidable c] {x x' y y' : Option (Except Sig V)} (h : OkOpt R x x') (k : OkOpt R y y') :
    OkOpt R (if c then x else y) (if c then x' else y') := by
  by_cases hc : c
  · rw [if_pos hc, if_pos hc]; exact h
  · rw [if_neg hc, if_neg hc]; exact k

theorem OkOpt.none {x' : Option (Except Sig V)} : OkOpt R none x' := fun _ h => nomatch h

theorem OkOpt.some {r r' : Except Sig V} (h : LikeRes (Like R) R r r') : OkOpt R (some r) (some r') := by
  intro x hx
  obtain rfl := Option.some.inj hx
  exact ⟨r', rfl, h⟩

theorem OkOpt.small {z : Int} : OkOpt R ((small z).map .ok) ((small z).map .ok) := by
  unfold Objects.small
  by_cases h : z.natAbs ≤ 2 ^ 53
  · rw [if_pos h]; exact OkOpt.some rfl
  · rw [if_neg h]; exact OkOpt.none

/-- The values of a message in both languages. -/
def OkV (R : List UInt8 → List UInt8 → Prop) (x x' : Option V) : Prop := ∀ v, x = some v → ∃ v', x' = some v' ∧ Like R v v'

theorem OkV.ite {c : Prop} [Decidable c] {x x' y y' : Option V} (h : OkV R x x') (k : OkV R y y') :
    OkV R (if c then x else y) (if c then x' else y') := by
  by_cases hc : c
  · rw [if_pos hc, if_pos hc]; exact h
  · rw [if_neg hc, if_neg hc]; exact k

theorem OkV.none {x' : Option V} : OkV R none x' := fun _ h => nomatch h

theorem OkV.some {v v' : V} (h : Like R v v') : OkV R (some v) (some v') := by
  intro x hx
  obtain rfl := Option.some.inj hx
  exact ⟨v', rfl, h⟩

/-- One argument that is a number. -/
theorem two_num {n : Int} {as' : List V} (h : Two (Like R) [.num n] as') : as' = [.num n] := by
  match as', h with
  | [.num m], h => rw [show n = m from h.1]
  | [.bool _], h => exact h.1.elim
  | [.text _], h => exact h.1.elim
  | [.nothing], h => exact h.1.elim
  | [.ref _], h => exact h.1.elim
  | [.root], h => exact h.1.elim
  | [.list], h => exact h.1.elim
  | [.other], h => exact h.1.elim
  | _ :: _ :: _, h => exact h.2.elim
  | [], h => exact h.elim

theorem two_bool {b : Bool} {as' : List V} (h : Two (Like R) [.bool b] as') : as' = [.bool b] := by
  match as', h with
  | [.bool m], h => rw [show b = m from h.1]
  | [.num _], h => exact h.1.elim
  | [.text _], h => exact h.1.elim
  | [.nothing], h => exact h.1.elim
  | [.ref _], h => exact h.1.elim
  | [.root], h => exact h.1.elim
  | [.list], h => exact h.1.elim
  | [.other], h => exact h.1.elim
  | _ :: _ :: _, h => exact h.2.elim
  | [], h => exact h.elim

theorem two_ref {b : Nat} {as' : List V} (h : Two (Like R) [.ref b] as') : as' = [.ref b] := by
  match as', h with
  | [.ref m], h => rw [show b = m from h.1]
  | [.num _], h => exact h.1.elim
  | [.text _], h => exact h.1.elim
  | [.nothing], h => exact h.1.elim
  | [.bool _], h => exact h.1.elim
  | [.root], h => exact h.1.elim
  | [.list], h => exact h.1.elim
  | [.other], h => exact h.1.elim
  | _ :: _ :: _, h => exact h.2.elim
  | [], h => exact h.elim

theorem two_text {t : List UInt8} {as' : List V} (h : Two (Like R) [.text t] as') : ∃ t', as' = [.text t'] ∧ R t t' := by
  match as', h with
  | [.text t'], h => exact ⟨t', rfl, h.1⟩
  | [.num _], h => exact h.1.elim
  | [.ref _], h => exact h.1.elim
  | [.nothing], h => exact h.1.elim
  | [.bool _], h => exact h.1.elim
  | [.root], h => exact h.1.elim
  | [.list], h => exact h.1.elim
  | [.other], h => exact h.1.elim
  | _ :: _ :: _, h => exact h.2.elim
  | [], h => exact h.elim

theorem two_nil {as' : List V} (h : Two (Like R) [] as') : as' = [] := by
  match as', h with
  | [], _ => rfl
  | _ :: _, h => exact h.elim

theorem like_ref {i : Nat} {v' : V} (h : Like R (.ref i) v') : v' = .ref i := by
  cases v' <;> first | exact h.elim | (rw [show i = _ from h])

theorem number_retold {a : Int} {sel sel' : List UInt8} (h : Sel W W' sel sel') {as as' : List V} (ha : Two (Like R) as as') :
    OkOpt R (number W a sel as) (number W' a sel' as') := by
  simp only [Sel, messages, Retold.messages, List.cons_append, List.nil_append, List.forall_mem_cons] at h
  obtain ⟨h1, h2, h3, h4, h5, h6, h7, h8, h9, h10, h11, h12, _, _, _, _, _, _, _, _, _, _, _, _, h25, h26, _⟩ := h
  match as with
  | [] =>
    rw [two_nil ha]
    simp only [number, h12]
    exact .ite (.some rfl) .none
  | [.num b] =>
    rw [two_num ha]
    simp only [number, h1, h2, h3, h4, h5, h6, h7, h8, h9, h10, h11, h25, h26]
    have e1 : LikeRes (Like R) R (.error (.err none)) (.error (.err none)) := trivial
    refine .ite .small (.ite .small (.ite .small (.ite (.some rfl) (.ite (.some rfl) (.ite (.some rfl) (.ite (.some rfl) (.ite (.some rfl)
      (.ite (.some rfl) (.ite ?_ (.ite (.ite (.some e1) (.ite .small .none)) .none))))))))))
    by_cases hb : b = 0
    · rw [if_pos hb]; exact .some e1
    · rw [if_neg hb]; exact .some rfl
  | [.bool _] => exact .none
  | [.text _] => exact .none
  | [.nothing] => exact .none
  | [.ref _] => exact .none
  | [.root] => exact .none
  | [.list] => exact .none
  | [.other] => exact .none
  | x :: y :: l => cases x <;> exact .none

theorem boolean_retold {a : Bool} {sel sel' : List UInt8} (h : Sel W W' sel sel') {as as' : List V} (ha : Two (Like R) as as') :
    OkV R (boolean W a sel as) (boolean W' a sel' as') := by
  simp only [Sel, messages, Retold.messages, List.cons_append, List.nil_append, List.forall_mem_cons] at h
  obtain ⟨_, _, _, _, _, _, _, _, h9, h10, _, _, _, _, _, _, _, h18, h19, h20, _⟩ := h
  match as with
  | [] =>
    rw [two_nil ha]
    simp only [boolean, h18]
    exact .ite (.some rfl) .none
  | [.bool b] =>
    rw [two_bool ha]
    simp only [boolean, h9, h10, h19, h20]
    exact .ite (.some rfl) (.ite (.some rfl) (.ite (.some rfl) (.ite (.some rfl) .none)))
  | [.num _] => exact .none
  | [.text _] => exact .none
  | [.nothing] => exact .none
  | [.ref _] => exact .none
  | [.root] => exact .none
  | [.list] => exact .none
  | [.other] => exact .none
  | x :: y :: l => cases x <;> exact .none

section
variable (hF : Faithful T W W' N Q K) (hT : Texts T W W' L Q K R)
include hF hT

theorem letters_retold {t t' : List UInt8} (ht : R t t') {sel sel' : List UInt8} (hs : Sent T W W' Q K sel sel') {as as' : List V}
    (ha : Two (Like R) as as') : OkV R (letters W t sel as) (letters W' t' sel' as') := by
  have h := hF.sent _ _ hs
  simp only [messages, Retold.messages, List.cons_append, List.nil_append, List.forall_mem_cons] at h
  obtain ⟨h1, _, _, _, _, _, _, _, h9, _⟩ := h
  match as with
  | [.text u] =>
    obtain ⟨u', rfl, hu⟩ := two_text ha
    simp only [letters, h1, h9]
    refine .ite (.some (hT.joined _ _ _ _ ht hu)) ?_
    by_cases he : sel = W.equal
    · rcases hT.equal with hn | hn
      · exact absurd he (hn _ _ hs)
      · obtain ⟨z1, e1⟩ := hn _ _ _ _ ht hu
        obtain ⟨z2, _⟩ := hn _ _ _ _ hu ht
        simp only [← z1, ← z2, ← e1]
        exact .ite (.some rfl) .none
    · rw [if_neg (fun h => he h.1), if_neg (fun h => he h.1)]; exact .none
  | [] => exact .none
  | [.num _] => exact .none
  | [.bool _] => exact .none
  | [.nothing] => exact .none
  | [.ref _] => exact .none
  | [.root] => exact .none
  | [.list] => exact .none
  | [.other] => exact .none
  | x :: y :: l => cases x <;> exact .none
end

/-! ### Steps -/

/-- Tasks in both languages. -/
def TaskRel (T : Say) (N Q L : List (List UInt8)) (K : List (List (List UInt8))) (R : List UInt8 → List UInt8 → Prop) :
    Task → Task → Prop
  | .expr e, .expr e' => e' = trNode T e ∧ uses N Q K e = true ∧ says L e = true
  | .call b as me, .call b' as' me' => b' = b ∧ Two (Like R) as as' ∧ Opt (Like R) me me'
  | .loop b c, .loop b' c' => b' = b ∧ c' = c
  | .each q b i, .each q' b' i' => q' = q ∧ b' = b ∧ i' = i
  | _, _ => False

section
variable (T W W' N Q L K R)
/-- The second interpreter does what the first one does. -/
def Sim (ev ev' : Task → M V) : Prop := ∀ t t', TaskRel T N Q L K R t t' → SIM (Like R) (ev t) (ev' t')
end


theorem isBlock_both {s s' : State} (h : BOTH s s') (b : Nat) : isBlock s' b = isBlock s b := by
  have hs := h.store.get b
  unfold isBlock
  cases h1 : s.store[b]? with
  | none => rw [h1] at hs; rw [hs.none_left]
  | some o =>
    rw [h1] at hs
    obtain ⟨o', e, l⟩ := hs.some_left
    rw [e]
    cases o <;> cases o' <;> first | rfl | exact l.1.elim

section
variable {ev ev' : Task → M V} (hS : Sim T W W' N Q L K R ev ev')
include hS

theorem sim_rounds {b : Nat} : ∀ left done, SIM (fun _ _ : Unit => True) (rounds ev b left done) (rounds ev' b left done)
  | 0, _ => SimM.ret trivial
  | left + 1, done => by
    intro s s' hp r z e
    have h1 := hS (.call b [.num (done + 1 : Nat)] none) (.call b [.num (done + 1 : Nat)] none) ⟨rfl, ⟨rfl, trivial⟩, trivial⟩
    unfold rounds at e ⊢
    cases e1 : ev (.call b [.num (done + 1 : Nat)] none) s with
    | none => rw [e1] at e; cases e
    | some p =>
      obtain ⟨x, z1⟩ := p
      rw [e1] at e
      obtain ⟨x', z', e2, l2, p2⟩ := h1 _ _ hp _ _ e1
      rw [e2]
      have ih := sim_rounds (b := b) left (done + 1)
      match x, x', l2 with
      | .ok _, .ok _, _ => exact ih _ _ p2 _ _ e
      | .error .cont, .error .cont, _ => exact ih _ _ p2 _ _ e
      | .error .brk, .error .brk, _ =>
        obtain ⟨rfl, rfl⟩ := Prod.mk.inj (Option.some.inj e)
        exact ⟨_, _, rfl, trivial, p2⟩
      | .error (.err t), .error (.err t'), l2 =>
        obtain ⟨rfl, rfl⟩ := Prod.mk.inj (Option.some.inj e)
        exact ⟨_, _, rfl, l2, p2⟩

theorem sim_branch {b : Nat} {v v' : V} (hv : Like R v v') : SIM (Like R) (branch ev b v) (branch ev' b v') := by
  intro s s' hp r z e
  unfold branch at e ⊢
  rw [isBlock_both hp]
  by_cases hb : isBlock s b = true
  · rw [if_pos hb] at e ⊢
    exact SimM.bind (hS (.call b [v] none) (.call b [v'] none) ⟨rfl, ⟨hv, trivial⟩, trivial⟩) (fun _ _ _ => SimM.ret hv) _ _ hp _ _ e
  · rw [if_neg hb] at e; cases e

theorem sim_call {b : Nat} {as as' : List V} (ha : Two (Like R) as as') : SIM (Like R) (call ev b as) (call ev' b as') := by
  intro s s' hp r z e
  have h1 := hS (.call b as (some (.ref b))) (.call b as' (some (.ref b))) ⟨rfl, ha, rfl⟩
  unfold call at e ⊢
  cases e1 : ev (.call b as (some (.ref b))) s with
  | none => rw [e1] at e; cases e
  | some p =>
    obtain ⟨x, z1⟩ := p
    rw [e1] at e
    obtain ⟨x', z', e2, l2, p2⟩ := h1 _ _ hp _ _ e1
    rw [e2]
    match x, x', l2 with
    | .ok _, .ok _, l2 =>
      obtain ⟨rfl, rfl⟩ := Prod.mk.inj (Option.some.inj e)
      exact ⟨_, _, rfl, l2, p2⟩
    | .error (.err t), .error (.err t'), l2 =>
      obtain ⟨rfl, rfl⟩ := Prod.mk.inj (Option.some.inj e)
      exact ⟨_, _, rfl, l2, p2⟩
    | .error .cont, _, _ => cases e
    | .error .brk, _, _ => cases e

omit hS in
theorem sim_add {o o' : Ob} (h : ObRel T W W' N Q L K R o o') : SIM (Like R) (add o) (add o') := by
  intro s s' hp r z e
  obtain ⟨rfl, rfl⟩ := Prod.mk.inj (Option.some.inj e)
  refine ⟨_, _, rfl, ?_, hp.frames, Two.append (m := [o]) (m' := [o']) ⟨h, trivial⟩ hp.store, hp.running, hp.again⟩
  exact hp.store.length.symm

omit hS in
/-- What is known of a block in both states. -/
theorem block_both {s s' : State} (hp : BOTH s s') {b : Nat} {ps c h m} (e : s.store[b]? = some (.block ps c h m)) :
    s'.store[b]? = some (.block (ps.map T.word) (trNodes T c) h m) ∧ (∀ p ∈ ps, p ∈ N) ∧ usesAll N Q K c = true ∧ saysAll L c = true := by
  have hs := hp.store.get b
  rw [e] at hs
  obtain ⟨o', e2, l⟩ := hs.some_left
  cases o' with
  | block ps' c' h' m' =>
    obtain ⟨⟨rfl, rfl, rfl, rfl⟩, k⟩ := l
    exact ⟨e2, k⟩
  | _ => exact l.1.elim

omit hS in
theorem sim_catching {b h : Nat} : SIM (Like R) (catching b h) (catching b h) := by
  intro s s' hp r z e
  unfold catching at e ⊢
  split at e
  · rename_i ps c h0 m e1
    obtain ⟨e2, k⟩ := block_both hp e1
    rw [e2]
    dsimp only
    rw [isBlock_both hp]
    by_cases hb : isBlock s h = true
    · rw [if_pos hb] at e ⊢
      obtain ⟨rfl, rfl⟩ := Prod.mk.inj (Option.some.inj e)
      exact ⟨_, _, rfl, rfl, hp.frames, hp.store.set (a := .block ps c (some h) m) (b := .block (ps.map T.word) (trNodes T c) (some h) m) ⟨⟨rfl, rfl, rfl, rfl⟩, k⟩ b, hp.running, hp.again⟩
    · rw [if_neg hb] at e; cases e
  · cases e

theorem sim_block {b : Nat} {sel sel' : List UInt8} (h : Sel W W' sel sel') {as as' : List V} (ha : Two (Like R) as as') :
    SIM (Like R) (block W ev b sel as) (block W' ev' b sel' as') := by
  simp only [Sel, messages, Retold.messages, List.cons_append, List.nil_append, List.forall_mem_cons] at h
  obtain ⟨_, _, h3, h4, _, _, _, _, _, _, _, _, _, _, _, _, _, _, _, _, h21, h22, h23, h24, _, _, _, _, _, h30, h31, _⟩ := h
  unfold block
  simp only [h21, h22, h23, ha.length]
  refine .ite (sim_call hS ha) ?_
  match as with
  | [.num n] =>
    rw [two_num ha]
    simp only [h3, h4]
    exact .ite (.bind (sim_rounds hS _ _) fun _ _ _ => .ret rfl) .none
  | [.ref c] =>
    rw [two_ref ha]
    simp only [h24, h31]
    refine .ite ?_ (.ite sim_catching .none)
    intro s s' hp r z e
    dsimp only at e ⊢
    rw [isBlock_both hp]
    by_cases hb : isBlock s c = true
    · rw [if_pos hb] at e ⊢
      exact hS (.loop b c) (.loop b c) ⟨rfl, rfl⟩ _ _ hp _ _ e
    · rw [if_neg hb] at e; cases e
  | [.text t] =>
    obtain ⟨t', rfl, ht⟩ := two_text ha
    simp only [h30]
    exact .ite (.give ht) .none
  | [] => exact .none
  | [.bool _] => exact .none
  | [.nothing] => exact .none
  | [.root] => exact .none
  | [.list] => exact .none
  | [.other] => exact .none
  | x :: y :: l => cases x <;> exact .none

omit hS in
/-- What the object above has. -/
def aboveOf (f : Nat → Option (Option (Nat × Option Nat))) : Option Nat → Option (Option (Nat × Option Nat))
  | some q => f q
  | none => some none

omit hS in
theorem method_both {s s' : State} (hp : BOTH s s') {sel sel' : List UInt8} (hs : Sent T W W' Q K sel sel') (r : Nat) :
    ∀ n i x, method s r sel n i = some x → method s' r sel' n i = some x
  | 0, _, _, e => nomatch e
  | n + 1, i, x, e => by
    have ih := method_both hp hs r n
    have h0 := hp.store.get i
    unfold method at e ⊢
    cases h1 : s.store[i]? with
    | none => rw [h1] at e; cases e
    | some o =>
      rw [h1] at h0 e
      obtain ⟨o', e2, l⟩ := h0.some_left
      rw [e2]
      cases o with
      | obj p own ms =>
        cases o' with
        | obj p' own' ms' =>
          obtain ⟨⟨rfl, _, hm⟩, _⟩ := l
          dsimp only at e ⊢
          rw [hm _ _ hs, hp.running, hp.again]
          have above : ∀ x, aboveOf (fun q => method s r sel n q) p' = some x → aboveOf (fun q => method s' r sel' n q) p' = some x := by
            intro x hx
            cases p' with
            | none => exact hx
            | some q => exact ih q x hx
          change (match ms sel with
            | none => aboveOf (fun q => method s r sel n q) p'
            | some f => if f ∈ s.running then if s.again = some r then some (some (f, none)) else aboveOf (fun q => method s r sel n q) p'
              else some (some (f, s.again))) = some x at e
          change (match ms sel with
            | none => aboveOf (fun q => method s' r sel' n q) p'
            | some f => if f ∈ s.running then if s.again = some r then some (some (f, none)) else aboveOf (fun q => method s' r sel' n q) p'
              else some (some (f, s.again))) = some x
          cases hms : ms sel with
          | none => rw [hms] at e; exact above x e
          | some f =>
            rw [hms] at e
            dsimp only at e ⊢
            by_cases hr : f ∈ s.running
            · rw [if_pos hr] at e ⊢
              by_cases ha : s.again = some r
              · rw [if_pos ha] at e ⊢; exact e
              · rw [if_neg ha] at e ⊢; exact above x e
            · rw [if_neg hr] at e ⊢; exact e
        | _ => exact l.1.elim
      | _ => cases e

theorem sim_runM {i f : Nat} {again : Option Nat} {as as' : List V} (ha : Two (Like R) as as') :
    SIM (Like R) (run ev i f again as) (run ev' i f again as') := by
  intro s s' hp r z e
  unfold run at e ⊢
  split at e
  · rename_i ps c h0 e1
    obtain ⟨e2, _⟩ := block_both hp e1
    rw [e2]
    dsimp only
    rw [hp.running]
    by_cases hl : s.running.length < 300
    · rw [if_pos hl] at e ⊢
      have h1 := hS (.call f as (some (.ref i))) (.call f as' (some (.ref i))) ⟨rfl, ha, rfl⟩
      have hp' : BOTH { s with again := again, running := f :: s.running } { s' with again := again, running := f :: s.running } :=
        ⟨hp.frames, hp.store, rfl, rfl⟩
      cases e3 : ev (.call f as (some (.ref i))) { s with again := again, running := f :: s.running } with
      | none => rw [e3] at e; cases e
      | some p =>
        obtain ⟨x, z1⟩ := p
        rw [e3] at e
        obtain ⟨x', z', e4, l4, p4⟩ := h1 _ _ hp' _ _ e3
        rw [e4]
        obtain ⟨rfl, rfl⟩ := Prod.mk.inj (Option.some.inj e)
        exact ⟨_, _, rfl, l4, p4.frames, p4.store, by dsimp only; rw [p4.running], p4.again⟩
    · rw [if_neg hl] at e; cases e
  · cases e

omit hS in
theorem sim_learn (hT : Texts T W W' L Q K R) {i b : Nat} {k k' : List UInt8} (hk : R k k') : SIM (Like R) (learn i k b) (learn i k' b) := by
  intro s s' hp r z e
  unfold learn at e ⊢
  split at e
  · rename_i ps c h m p own ms e1 e2
    obtain ⟨e3, kb⟩ := block_both hp e1
    have h0 := hp.store.get i
    rw [e2] at h0
    obtain ⟨o', e4, l⟩ := h0.some_left
    rw [e3, e4]
    cases o' with
    | obj p' own' ms' =>
      obtain ⟨⟨rfl, k1, hm⟩, _⟩ := l
      obtain ⟨rfl, rfl⟩ := Prod.mk.inj (Option.some.inj e)
      refine ⟨_, _, rfl, rfl, hp.frames,
        (hp.store.set (a := .block ps c h true) (b := .block (ps.map T.word) (trNodes T c) h true) ⟨⟨rfl, rfl, rfl, rfl⟩, kb⟩ b).set (a := .obj p' own (Objects.upd ms k b)) (b := .obj p' own' (Objects.upd ms' k' b))
          ⟨⟨rfl, k1, fun sel sel' hs => ?_⟩, trivial⟩ i, hp.running, hp.again⟩
      simp only [Objects.upd, hT.method _ _ hs _ _ hk, hm _ _ hs]
    | _ => exact l.1.elim
  · cases e

variable (hF : Faithful T W W' N Q K) (hT : Texts T W W' L Q K R)
include hF hT

omit hS in
theorem sim_plainObject {i : Nat} {sel sel' : List UInt8} (hs : Sent T W W' Q K sel sel') {as as' : List V}
    (ha : Two (Like R) as as') : SIM (Like R) (plainObject W i sel as) (plainObject W' i sel' as') := by
  have h := hF.sent _ _ hs
  simp only [messages, Retold.messages, List.cons_append, List.nil_append, List.forall_mem_cons] at h
  obtain ⟨_, _, _, _, _, _, _, _, _, _, _, _, _, _, _, _, _, _, _, _, _, _, _, _, _, _, h27, h28, h29, _⟩ := h
  match as with
  | [] =>
    rw [two_nil ha]
    simp only [plainObject, h27, h29]
    refine .ite (sim_add ⟨⟨rfl, fun _ _ => trivial, fun _ _ _ => rfl⟩, trivial⟩) (.ite ?_ .none)
    intro s s' hp r z e
    obtain ⟨rfl, rfl⟩ := Prod.mk.inj (Option.some.inj e)
    exact ⟨_, _, rfl, rfl, hp.frames, hp.store, hp.running, rfl⟩
  | [.text k, .ref b] =>
    match as', ha with
    | x :: y, ha =>
      obtain ⟨t', e1, ht⟩ := two_text (as' := [x]) ⟨ha.1, trivial⟩
      have e2 := two_ref ha.2
      obtain rfl := (List.cons.inj e1).1
      rw [e2]
      simp only [plainObject, h28]
      exact .ite (sim_learn hT ht) .none
    | [], ha => exact ha.elim
  | [x] => cases x <;> exact .none
  | [.text k, .num _] => exact .none
  | [.text k, .bool _] => exact .none
  | [.text k, .text _] => exact .none
  | [.text k, .nothing] => exact .none
  | [.text k, .root] => exact .none
  | [.text k, .list] => exact .none
  | [.text k, .other] => exact .none
  | [.num _, _] => exact .none
  | [.bool _, _] => exact .none
  | [.nothing, _] => exact .none
  | [.ref _, _] => exact .none
  | [.root, _] => exact .none
  | [.list, _] => exact .none
  | [.other, _] => exact .none
  | x :: y :: w :: l => cases x <;> cases y <;> exact .none

theorem sim_object {i : Nat} {sel sel' : List UInt8} (hs : Sent T W W' Q K sel sel') {as as' : List V}
    (ha : Two (Like R) as as') : SIM (Like R) (object W ev i sel as) (object W' ev' i sel' as') := by
  intro s s' hp r z e
  unfold object at e ⊢
  cases h1 : method s i sel s.store.length i with
  | none => rw [h1] at e; cases e
  | some x =>
    rw [h1] at e
    rw [hp.store.length, method_both hp hs i _ _ x h1]
    cases x with
    | none => exact sim_plainObject hF hT hs ha _ _ hp _ _ e
    | some x => exact sim_runM hS ha _ _ hp _ _ e

omit hT hF in
theorem sim_sequence {q : Nat} {l l' : List V} (hl : Two (Like R) l l') {sel sel' : List UInt8} (h : Sel W W' sel sel') {as as' : List V}
    (ha : Two (Like R) as as') : SIM (Like R) (sequence W ev q l sel as) (sequence W' ev' q l' sel' as') := by
  simp only [Sel, messages, Retold.messages, List.cons_append, List.nil_append, List.forall_mem_cons] at h
  obtain ⟨_, _, _, _, _, _, _, _, _, _, _, _, _, _, _, _, _, _, _, _, _, _, _, _, _, _, _, _, _, _, _, _, h33, h34, h35, h36, h37, _⟩ := h
  intro s s' hp r z e
  unfold sequence at e ⊢
  simp only [h33, h34, ha.length]
  by_cases hc : (sel = W.append ∨ sel = W.semicolon) ∧ as.length = 1
  · rw [if_pos hc] at e ⊢
    obtain ⟨rfl, rfl⟩ := Prod.mk.inj (Option.some.inj e)
    exact ⟨_, _, rfl, rfl, hp.frames, hp.store.set (a := .seq (l ++ as)) (b := .seq (l' ++ as')) ⟨Two.append ha hl, trivial⟩ q, hp.running, hp.again⟩
  · rw [if_neg hc] at e ⊢
    match as with
    | [] =>
      rw [two_nil ha]
      simp only [h35, hl.length] at e ⊢
      by_cases h : sel = W.count ∧ l.length ≤ 2 ^ 53
      · rw [if_pos h] at e ⊢
        exact SimM.give (g := Like R) (x := .ok (.num l.length)) (x' := .ok (.num l.length)) rfl s s' hp r z e
      · rw [if_neg h] at e; cases e
    | [.num n] =>
      rw [two_num ha]
      simp only [h36] at e ⊢
      by_cases h : sel = W.position ∧ -2147483648 < n ∧ n ≤ 2147483647
      · rw [if_pos h] at e ⊢
        refine SimM.give (g := Like R) (x := .ok _) (x' := .ok _) ?_ s s' hp r z e
        show Like R _ _
        by_cases hn : 1 ≤ n
        · rw [if_pos hn, if_pos hn]
          have h0 := hl.get (n - 1).toNat
          cases h1 : l[(n - 1).toNat]? with
          | none => rw [h1] at h0; rw [h0.none_left]; trivial
          | some v =>
            rw [h1] at h0
            obtain ⟨v', e2, lv⟩ := h0.some_left
            rw [e2]; exact lv
        · rw [if_neg hn, if_neg hn]; trivial
      · rw [if_neg h] at e; cases e
    | [.ref b] =>
      rw [two_ref ha]
      simp only [h37, isBlock_both hp] at e ⊢
      by_cases h : sel = W.each ∧ isBlock s b = true
      · rw [if_pos h] at e ⊢
        exact hS (.each q b 0) (.each q b 0) ⟨rfl, rfl, rfl⟩ _ _ hp _ _ e
      · rw [if_neg h] at e; cases e
    | [.bool _] => cases e
    | [.text _] => cases e
    | [.nothing] => cases e
    | [.root] => cases e
    | [.list] => cases e
    | [.other] => cases e
    | x :: y :: l => cases x <;> cases e

theorem sim_send {v v' : V} (hv : Like R v v') {sel sel' : List UInt8} (hs : Sent T W W' Q K sel sel') {as as' : List V}
    (ha : Two (Like R) as as') : SIM (Like R) (send W ev v sel as) (send W' ev' v' sel' as') := by
  have h := hF.sent _ _ hs
  have h' := h
  simp only [messages, Retold.messages, List.cons_append, List.nil_append, List.forall_mem_cons] at h'
  obtain ⟨_, _, _, _, _, _, _, _, _, _, _, _, h13, h14, h15, h16, h17, _, _, _, _, _, _, _, _, _, h27, _, _, _, _, h32, _⟩ := h'
  match v, v', hv with
  | .num a, .num b, hv =>
    obtain rfl : a = b := hv
    intro s s' hp r z e
    have hn := number_retold (R := R) (a := a) h ha
    unfold send at e ⊢
    dsimp only at e ⊢
    cases h1 : number W a sel as with
    | none => rw [h1] at e; cases e
    | some x =>
      rw [h1] at e
      obtain ⟨x', e2, l⟩ := hn x h1
      rw [e2]
      exact SimM.give l s s' hp r z e
  | .bool a, .bool b, hv =>
    obtain rfl : a = b := hv
    have hb := boolean_retold (R := R) (a := a) h ha
    have hl : SIM (Like R) (M.lift (boolean W a sel as)) (M.lift (boolean W' a sel' as')) := SimM.lift hb
    intro s s' hp r z e
    unfold send at e ⊢
    match as with
    | [] =>
      rw [two_nil ha] at hl ⊢
      simp only [h16, h17] at e ⊢
      by_cases c1 : sel = W.stop
      · rw [if_pos c1] at e ⊢
        refine SimM.give (x := if a then .error .brk else .ok (.bool a)) (g := Like R) ?_ s s' hp r z e
        cases a
        · exact (rfl : false = false)
        · trivial
      · rw [if_neg c1] at e ⊢
        by_cases c2 : sel = W.next
        · rw [if_pos c2] at e ⊢
          refine SimM.give (x := if a then .error .cont else .ok (.bool a)) (g := Like R) ?_ s s' hp r z e
          cases a
          · exact (rfl : false = false)
          · trivial
        · rw [if_neg c2] at e ⊢
          exact hl s s' hp r z e
    | [.ref b] =>
      rw [two_ref ha]
      simp only [h13, h14, h15] at e ⊢
      have b1 : SIM (Like R) (branch ev b (.bool a)) (branch ev' b (.bool a)) := sim_branch hS rfl
      have b2 : SIM (Like R) (M.ret (.bool a)) (M.ret (.bool a)) := SimM.ret rfl
      by_cases c1 : sel = W.ifTrue
      · rw [if_pos c1] at e ⊢
        cases a
        · exact b2 s s' hp r z e
        · exact b1 s s' hp r z e
      · rw [if_neg c1] at e ⊢
        by_cases c2 : sel = W.ifFalse ∨ sel = W.otherwise
        · rw [if_pos c2] at e ⊢
          cases a
          · exact b1 s s' hp r z e
          · exact b2 s s' hp r z e
        · rw [if_neg c2] at e; cases e
    | [.num n] => rw [two_num ha] at hl ⊢; exact hl s s' hp r z e
    | [.bool n] => rw [two_bool ha] at hl ⊢; exact hl s s' hp r z e
    | [.text n] => obtain ⟨t', rfl, _⟩ := two_text ha; exact hl s s' hp r z e
    | [.nothing] => cases e
    | [.root] => cases e
    | [.list] => cases e
    | [.other] => cases e
    | x :: y :: l => cases x <;> cases e
  | .text t, .text t', hv =>
    intro s s' hp r z e
    exact SimM.lift (letters_retold hF hT hv hs ha) s s' hp r z e
  | .ref i, .ref j, hv =>
    obtain rfl : i = j := hv
    intro s s' hp r z e
    have h0 := hp.store.get i
    unfold send at e ⊢
    dsimp only at e ⊢
    cases h1 : s.store[i]? with
    | none => rw [h1] at e; cases e
    | some o =>
      rw [h1] at h0 e
      obtain ⟨o', e2, l⟩ := h0.some_left
      rw [e2]
      match o, o', l with
      | .block .., .block .., _ => exact sim_block hS h ha _ _ hp _ _ e
      | .obj .., .obj .., _ => exact sim_object hS hF hT hs ha _ _ hp _ _ e
      | .seq _, .seq _, l => exact sim_sequence hS l.1 h ha _ _ hp _ _ e
  | .root, .root, _ =>
    intro s s' hp r z e
    unfold send at e ⊢
    simp only [h27, ha.length] at e ⊢
    by_cases c1 : sel = W.new ∧ as.length = 0
    · rw [if_pos c1] at e ⊢
      exact sim_add (T := T) (W := W) (W' := W') (N := N) (Q := Q) (L := L) (K := K) (R := R)
        (o := .obj none (fun _ => none) fun _ => none) (o' := .obj none (fun _ => none) fun _ => none) ⟨⟨rfl, fun _ _ => trivial, fun _ _ _ => rfl⟩, trivial⟩ s s' hp r z e
    · rw [if_neg c1] at e; cases e
  | .list, .list, _ =>
    intro s s' hp r z e
    unfold send at e ⊢
    simp only [h27, h32, ha.length] at e ⊢
    by_cases c1 : sel = W.new ∧ as.length = 0 ∨ sel = W.newWith ∧ as.length = 1
    · rw [if_pos c1] at e ⊢
      exact sim_add (T := T) (W := W) (W' := W') (N := N) (Q := Q) (L := L) (K := K) (R := R) (o := .seq as) (o' := .seq as')
        ⟨ha, trivial⟩ s s' hp r z e
    · rw [if_neg c1] at e; cases e
  | .nothing, .nothing, _ => intro s s' hp r z e; cases e
  | .other, .other, _ => intro s s' hp r z e; cases e

omit hF hT in
theorem sim_args : ∀ {es : List Node}, usesAll N Q K es = true → saysAll L es = true →
    SIM (Two (Like R)) (args ev es) (args ev' (trNodes T es))
  | [], _, _ => SimM.ret trivial
  | e :: es, h, k => by
    simp only [usesAll, Bool.and_eq_true] at h
    simp only [saysAll, Bool.and_eq_true] at k
    exact .bind (hS (.expr e) (.expr (trNode T e)) ⟨rfl, h.1, k.1⟩) fun v v' hv =>
      .bind (sim_args h.2 k.2) fun vs vs' hvs => .ret ⟨hv, hvs⟩

theorem sim_chain : ∀ {ms : List Node} {v v' : V}, Like R v v' → usesAll N Q K ms = true → saysAll L ms = true →
    SIM (Like R) (chain W ev v ms) (chain W' ev' v' (trNodes T ms))
  | [], v, v', hv, _, _ => SimM.ret hv
  | m :: ms, v, v', hv, h, k => by
    simp only [usesAll, Bool.and_eq_true] at h
    simp only [saysAll, Bool.and_eq_true] at k
    cases m with
    | una n =>
      have hn : n ∈ Q := of_decide_eq_true h.1
      simp only [trNodes, trNode, chain]
      exact .bind (sim_send hS hF hT hv (.inl ⟨n, hn, rfl, rfl⟩) (as := []) (as' := []) trivial) fun w w' hw => sim_chain hw h.2 k.2
    | bin o a =>
      have h1 := h.1
      simp only [uses, Bool.and_eq_true, decide_eq_true_eq] at h1
      simp only [trNodes, trNode, chain]
      exact .bind (sim_args hS (es := [a]) (by simp only [usesAll, h1.2, Bool.and_true])
          (by simp only [saysAll, Bool.and_true]; exact k.1)) fun as as' has =>
        .bind (sim_send hS hF hT hv (.inl ⟨o, h1.1, rfl, rfl⟩) has) fun w w' hw => sim_chain hw h.2 k.2
    | kw ps as =>
      have h1 := h.1
      simp only [uses, Bool.and_eq_true, decide_eq_true_eq] at h1
      simp only [trNodes, trNode, chain]
      exact .bind (sim_args hS h1.2 k.1) fun as as' has =>
        .bind (sim_send hS hF hT hv (.inr ⟨ps, h1.1, rfl, rfl⟩) has) fun w w' hw => sim_chain hw h.2 k.2
    | _ => exact .none

theorem sim_expr {e : Node} (h : uses N Q K e = true) (k : says L e = true) :
    SIM (Like R) (expr W ev e) (expr W' ev' (trNode T e)) := by
  cases e with
  | num t =>
    simp only [trNode, expr]
    refine .lift fun v hv => ⟨v, hv, ?_⟩
    cases hl : literal t <;> rw [hl] at hv
    · cases hv
    · obtain rfl := Option.some.inj hv; exact (rfl : (_ : Int) = _)
  | str t => exact .ret (hT.quoted t (of_decide_eq_true k))
  | ref m n =>
    have hn : n ∈ N := of_decide_eq_true h
    match m with
    | 0 => exact sim_fetch hn
    | 1 => exact sim_own hF hn
    | m + 2 => exact .none
  | block ps b =>
    simp only [uses, Bool.and_eq_true, List.all_eq_true, decide_eq_true_eq] at h
    exact sim_add ⟨⟨rfl, rfl, rfl, rfl⟩, h.1, h.2, k⟩
  | nested e => exact hS (.expr e) (.expr (trNode T e)) ⟨rfl, h, k⟩
  | msg r ms =>
    simp only [uses, Bool.and_eq_true] at h
    simp only [says, Bool.and_eq_true] at k
    exact .bind (hS (.expr r) (.expr (trNode T r)) ⟨rfl, h.1, k.1⟩) fun v v' hv => sim_chain hS hF hT hv h.2 k.2
  | assign x e =>
    simp only [uses, Bool.and_eq_true] at h
    simp only [says, Bool.and_eq_true] at k
    cases x with
    | ref m n =>
      have hn : n ∈ N := of_decide_eq_true h.1
      have h1 := hS (.expr e) (.expr (trNode T e)) ⟨rfl, h.2, k.2⟩
      match m with
      | 0 => exact .bind h1 fun v v' hv => sim_store hF hn hv
      | 1 => exact .bind h1 fun v v' hv => sim_ownStore hF hn hv
      | 2 => exact .bind h1 fun v v' hv => sim_make hF hn hv
      | m + 3 => exact .none
    | _ => exact .none
  | _ => exact .none

omit hF hT in
theorem sim_stmts : ∀ {es : List Node}, usesAll N Q K es = true → saysAll L es = true →
    SIM (Opt (Like R)) (stmts ev es) (stmts ev' (trNodes T es))
  | [], _, _ => SimM.ret trivial
  | e :: es, h, k => by
    simp only [usesAll, Bool.and_eq_true] at h
    simp only [saysAll, Bool.and_eq_true] at k
    have h1 := sim_stmts h.2 k.2
    cases e with
    | ret e => exact .bind (hS (.expr e) (.expr (trNode T e)) ⟨rfl, h.1, k.1⟩) fun v v' hv => SimM.ret (a := some v) (b := some v') hv
    | _ => exact .bind (hS (.expr _) (.expr (trNode T _)) ⟨rfl, h.1, k.1⟩) fun v v' hv => h1

omit hS hT in
theorem entry_pair {ps : List (List UInt8)} {b : Nat} {as as' : List V} {me me' : Option V} (hps : ∀ p ∈ ps, p ∈ N)
    (ha : Two (Like R) as as') (hm : Opt (Like R) me me') :
    Pair T N R (entry W ps b as me) (entry W' (ps.map T.word) b as' me') := by
  have hn := hF.names
  simp only [names, Retold.names, List.cons_append, List.nil_append, List.forall_mem_cons] at hn
  obtain ⟨⟨m1, m2⟩, ⟨y1, y2⟩, ⟨t1, t2⟩, _⟩ := hn
  have hb : Like R (.ref b) (.ref b) := (rfl : b = b)
  have h0 : ∀ (ps : List (List UInt8)) (as as' : List V) (f f' : Frame), (∀ p ∈ ps, p ∈ N) → Two (Like R) as as' → Pair T N R f f' →
      Pair T N R ((ps.zip as).foldl (fun f p => Objects.upd f p.1 p.2) f)
        (((ps.map T.word).zip as').foldl (fun f p => Objects.upd f p.1 p.2) f') := by
    intro ps
    induction ps with
    | nil => intro as as' f f' _ _ h; exact h
    | cons p ps ih =>
      intro as as' f f' h1 h2 h
      match as, as', h2 with
      | [], [], _ => exact h
      | a :: as, a' :: as', h2 => exact ih as as' _ _ (fun q hq => h1 q (by simp [hq])) h2.2 (h.upd hF (h1 p (by simp)) h2.1)
  have h1 := h0 ps as as' (fun _ => none) (fun _ => none) hps ha fun k _ => trivial
  unfold entry
  rw [← m2, ← y2, ← t2]
  match me, me', hm with
  | none, none, _ => exact h1.upd hF t1 hb
  | some v, some v', hm => exact ((h1.upd hF m1 hm).upd hF y1 hm).upd hF t1 hb

omit hF hT in
theorem sim_rescue {b : Nat} {t t' : Option (List UInt8)} (ht : Opt R t t') : SIM (Like R) (rescue ev b t) (rescue ev' b t') := by
  intro s s' hp r z e
  unfold rescue at e ⊢
  have hto : Like R (told t) (told t') := by
    match t, t', ht with
    | none, none, _ => trivial
    | some _, some _, ht => exact ht
  split at e
  · rename_i ps c h m e1
    obtain ⟨e2, _⟩ := block_both hp e1
    rw [e2]
    exact SimM.bind (hS (.call h [told t] none) (.call h [told t'] none) ⟨rfl, ⟨hto, trivial⟩, trivial⟩)
      (fun _ _ _ => SimM.ret (show Like R (.ref b) (.ref b) from (rfl : b = b))) _ _ hp _ _ e
  · rename_i ps c m e1
    obtain ⟨e2, _⟩ := block_both hp e1
    rw [e2]
    obtain ⟨rfl, rfl⟩ := Prod.mk.inj (Option.some.inj e)
    exact ⟨_, _, rfl, ht, hp⟩
  · cases e

omit hT in
theorem sim_enter {b : Nat} {as as' : List V} (ha : Two (Like R) as as') {me me' : Option V} (hm : Opt (Like R) me me') :
    SIM (Like R) (enter W ev b as me) (enter W' ev' b as' me') := by
  intro s s' hp r z e
  unfold enter at e ⊢
  split at e
  case h_2 => cases e
  rename_i ps c h m e1
  obtain ⟨e2, hps, hu, hy⟩ := block_both hp e1
  rw [e2]
  dsimp only
  by_cases hc : s.frames.length < 300 ∧ ps.length ≤ as.length ∧ fewStmts c = true
  case neg => rw [if_neg hc] at e; cases e
  have hc' : s'.frames.length < 300 ∧ (ps.map T.word).length ≤ as'.length ∧ fewStmts (trNodes T c) = true := by
    rw [hp.frames.length, List.length_map, ha.length]
    exact ⟨hc.1, hc.2.1, fewStmts_tr c hc.2.2⟩
  rw [if_pos hc] at e
  rw [if_pos hc']
  have hp' : BOTH { s with frames := entry W ps b as me :: s.frames }
      { s' with frames := entry W' (ps.map T.word) b as' me' :: s'.frames } :=
    ⟨⟨entry_pair hF hps ha hm, hp.frames⟩, hp.store, hp.running, hp.again⟩
  cases e3 : stmts ev c { s with frames := entry W ps b as me :: s.frames } with
  | none => rw [e3] at e; cases e
  | some p =>
    obtain ⟨x, z1⟩ := p
    rw [e3] at e
    obtain ⟨x', z', e4, l4, p4⟩ := sim_stmts hS hu hy _ _ hp' _ _ e3
    rw [e4]
    dsimp only at e ⊢
    have hf := p4.frames
    match h1 : z1.frames, h2 : z'.frames, hf with
    | [], _, _ => rw [h1] at e; cases e
    | [_], _, _ => rw [h1] at e; cases e
    | _ :: f :: fs, [], hf => exact hf.elim
    | _ :: f :: fs, [_], hf => exact hf.2.elim
    | _ :: f :: fs, _ :: f' :: fs', hf =>
      rw [h1] at e
      dsimp only at e ⊢
      have p5 : BOTH { z1 with frames := f :: fs } { z' with frames := f' :: fs' } := ⟨hf.2, p4.store, p4.running, p4.again⟩
      match x, x', l4 with
      | .ok v, .ok v', l4 =>
        obtain ⟨rfl, rfl⟩ := Prod.mk.inj (Option.some.inj e)
        refine ⟨_, _, rfl, ?_, p5⟩
        match v, v', l4 with
        | some _, some _, l4 => exact l4
        | none, none, _ =>
          match me, me', hm with
          | some _, some _, hm => exact hm
          | none, none, _ => exact (rfl : b = b)
      | .error (.err t), .error (.err t'), l4 => exact sim_rescue hS l4 _ _ p5 _ _ e
      | .error .brk, .error .brk, _ =>
        obtain ⟨rfl, rfl⟩ := Prod.mk.inj (Option.some.inj e)
        exact ⟨_, _, rfl, trivial, p5⟩
      | .error .cont, .error .cont, _ =>
        obtain ⟨rfl, rfl⟩ := Prod.mk.inj (Option.some.inj e)
        exact ⟨_, _, rfl, trivial, p5⟩

omit hF hT in
theorem sim_loop {b c : Nat} : SIM (Like R) (loop ev b c) (loop ev' b c) := by
  intro s s' hp r z e
  have h1 := hS (.call c [] none) (.call c [] none) ⟨rfl, trivial, trivial⟩
  have h2 := hS (.call b [] none) (.call b [] none) ⟨rfl, trivial, trivial⟩
  unfold loop at e ⊢
  cases e1 : ev (.call c [] none) s with
  | none => rw [e1] at e; cases e
  | some p =>
    obtain ⟨x, z1⟩ := p
    rw [e1] at e
    obtain ⟨x', z', e2, l2, p2⟩ := h1 _ _ hp _ _ e1
    rw [e2]
    match x, x', l2 with
    | .ok (.bool false), .ok (.bool false), _ =>
      obtain ⟨rfl, rfl⟩ := Prod.mk.inj (Option.some.inj e)
      exact ⟨_, _, rfl, (rfl : b = b), p2⟩
    | .ok (.bool true), .ok (.bool true), _ =>
      dsimp only at e ⊢
      cases e3 : ev (.call b [] none) z1 with
      | none => rw [e3] at e; cases e
      | some p =>
        obtain ⟨y, z2⟩ := p
        rw [e3] at e
        obtain ⟨y', z3, e4, l4, p4⟩ := h2 _ _ p2 _ _ e3
        rw [e4]
        have h3 := hS (.loop b c) (.loop b c) ⟨rfl, rfl⟩
        match y, y', l4 with
        | .ok _, .ok _, _ => exact h3 _ _ p4 _ _ e
        | .error .cont, .error .cont, _ => exact h3 _ _ p4 _ _ e
        | .error .brk, .error .brk, _ =>
          obtain ⟨rfl, rfl⟩ := Prod.mk.inj (Option.some.inj e)
          exact ⟨_, _, rfl, (rfl : b = b), p4⟩
        | .error (.err t), .error (.err t'), l4 =>
          obtain ⟨rfl, rfl⟩ := Prod.mk.inj (Option.some.inj e)
          exact ⟨_, _, rfl, l4, p4⟩
    | .error (.err t), .error (.err t'), _ =>
      obtain ⟨rfl, rfl⟩ := Prod.mk.inj (Option.some.inj e)
      exact ⟨_, _, rfl, trivial, p2⟩
    | .error .brk, _, _ => cases e
    | .error .cont, _, _ => cases e
    | .ok (.num _), _, _ => cases e
    | .ok (.text _), _, _ => cases e
    | .ok .nothing, _, _ => cases e
    | .ok (.ref _), _, _ => cases e
    | .ok .root, _, _ => cases e
    | .ok .list, _, _ => cases e
    | .ok .other, _, _ => cases e

omit hF hT in
theorem sim_each {q b i : Nat} : SIM (Like R) (each ev q b i) (each ev' q b i) := by
  intro s s' hp r z e
  have h0 := hp.store.get q
  unfold each at e ⊢
  cases h1 : s.store[q]? with
  | none => rw [h1] at e; cases e
  | some o =>
    rw [h1] at h0 e
    obtain ⟨o', e2, l⟩ := h0.some_left
    rw [e2]
    match o, o', l with
    | .block .., _, _ => cases e
    | .obj .., _, _ => cases e
    | .seq l, .seq l', hl =>
      dsimp only at e ⊢
      have hg := hl.1.get i
      cases h3 : l[i]? with
      | none =>
        rw [h3] at hg e
        rw [hg.none_left]
        obtain ⟨rfl, rfl⟩ := Prod.mk.inj (Option.some.inj e)
        exact ⟨_, _, rfl, (rfl : q = q), hp⟩
      | some v =>
        rw [h3] at hg e
        obtain ⟨v', e4, lv⟩ := hg.some_left
        rw [e4]
        dsimp only at e ⊢
        have h5 := hS (.call b [.num (i + 1 : Nat), v, .ref q] none) (.call b [.num (i + 1 : Nat), v', .ref q] none)
          ⟨rfl, ⟨rfl, lv, rfl, trivial⟩, trivial⟩
        cases e5 : ev (.call b [.num (i + 1 : Nat), v, .ref q] none) s with
        | none => rw [e5] at e; cases e
        | some p =>
          obtain ⟨y, z2⟩ := p
          rw [e5] at e
          obtain ⟨y', z3, e6, l6, p6⟩ := h5 _ _ hp _ _ e5
          rw [e6]
          have h7 := hS (.each q b (i + 1)) (.each q b (i + 1)) ⟨rfl, rfl, rfl⟩
          match y, y', l6 with
          | .ok _, .ok _, _ => exact h7 _ _ p6 _ _ e
          | .error .cont, .error .cont, _ => exact h7 _ _ p6 _ _ e
          | .error .brk, .error .brk, _ =>
            obtain ⟨rfl, rfl⟩ := Prod.mk.inj (Option.some.inj e)
            exact ⟨_, _, rfl, (rfl : q = q), p6⟩
          | .error (.err t), .error (.err t'), l6 =>
            obtain ⟨rfl, rfl⟩ := Prod.mk.inj (Option.some.inj e)
            exact ⟨_, _, rfl, l6, p6⟩
end

section
variable (hF : Faithful T W W' N Q K) (hT : Texts T W W' L Q K R)
include hF hT

/-- The reference interpreter for the other language does the same with the translated program. -/
theorem sim : ∀ n, Sim T W W' N Q L K R (exec W n) (exec W' n)
  | 0 => fun _ _ _ => .none
  | n + 1 => fun t t' h => by
    have ih := sim n
    match t, t', h with
    | .expr e, .expr _, ⟨rfl, h1, h2⟩ => exact sim_expr ih hF hT h1 h2
    | .call b as me, .call _ as' me', ⟨rfl, h1, h2⟩ => exact sim_enter ih hF h1 h2
    | .loop b c, .loop _ _, ⟨rfl, rfl⟩ => exact sim_loop ih
    | .each q b i, .each _ _ _, ⟨rfl, rfl, rfl⟩ => exact sim_each ih

omit hT in
theorem globals_pair : Pair T N R (globals W) (globals W') := by
  have hn := hF.names
  simp only [names, Retold.names, List.cons_append, List.nil_append, List.forall_mem_cons] at hn
  obtain ⟨_, _, _, y, n, o, q, g, _⟩ := hn
  intro k hk
  have eq : ∀ {a b : List UInt8}, a ∈ N ∧ T.word a = b → (T.word k = b ↔ k = a) := fun h => by
    rw [← h.2]; exact ⟨hF.apart _ hk _ h.1, congrArg _⟩
  have e3 : T.word k ∈ W'.others ↔ k ∈ W.others := by
    rw [hF.others.1, List.mem_map]
    constructor
    · rintro ⟨o, ho, e⟩
      rw [← hF.apart _ (hF.others.2 o ho) _ hk e]; exact ho
    · exact fun h => ⟨k, h, rfl⟩
  simp only [globals, eq y, eq n, eq o, eq q, eq g, e3]
  have step : ∀ {c : Prop} [Decidable c] {v : V} {x x' : Option V}, Like R v v → Opt (Like R) x x' →
      Opt (Like R) (if c then some v else x) (if c then some v else x') := by
    intro c _ v x x' h1 h2
    by_cases hc : c
    · rw [if_pos hc, if_pos hc]; exact h1
    · rw [if_neg hc, if_neg hc]; exact h2
  exact step (v := .bool true) rfl (step (v := .bool false) rfl (step (v := .root) trivial (step (v := .list) trivial
    (step (v := .nothing) trivial (step (v := .other) trivial trivial)))))

/-- The translated program ends in the same way, with corresponding values and things. -/
theorem ends_retold {es : List Node} {r : Except Sig Unit} {f : Frame} {l : List Ob} (hu : usesAll N Q K es = true)
    (hy : saysAll L es = true) (h : Ends W es r f l) :
    ∃ r' f' l', Ends W' (trNodes T es) r' f' l' ∧ LikeRes (fun _ _ => True) R r r' ∧ Pair T N R f f' ∧
      Two (LikeOb T W W' N Q K R) l l' := by
  obtain ⟨n, x, st, e, rfl, ef, rfl⟩ := h
  obtain ⟨x', st', e2, l2, p2⟩ := sim_stmts (sim hF hT n) hu hy (start W) (start W')
    ⟨⟨globals_pair hF, trivial⟩, trivial, rfl, rfl⟩ _ _ e
  have hf := p2.frames
  rw [ef] at hf
  match h1 : st'.frames, hf with
  | [f'], hf =>
    refine ⟨x'.map fun _ => (), f', st'.store, ⟨n, x', st', e2, rfl, h1, rfl⟩, ?_, hf.1, ?_⟩
    · match x, x', l2 with
      | .ok _, .ok _, _ => trivial
      | .error _, .error _, l2 => exact l2
    · have : ∀ {l l' : List Ob}, Two (ObRel T W W' N Q L K R) l l' → Two (LikeOb T W W' N Q K R) l l' := by
        intro l
        induction l with
        | nil => intro l' h; cases l' <;> exact h
        | cons o l ih =>
          intro l' h
          cases l' with
          | nil => exact h
          | cons o' l' => exact ⟨h.1.1, ih h.2⟩
      exact this p2.store
  | _ :: _ :: _, hf => exact hf.2.elim
  | [], hf => exact hf.elim
end

/-! ## Texts put together from the texts of the program -/

/-- The ways of putting a text together from (images of) texts of `L`. -/
def splits (f : List UInt8 → List UInt8) (L : List (List UInt8)) : Nat → List UInt8 → List (List (List UInt8))
  | _, [] => [[]]
  | 0, _ :: _ => []
  | n + 1, c :: s => L.flatMap fun x =>
      if (f x).isPrefixOf (c :: s) then (splits f L n ((c :: s).drop (f x).length)).map (x :: ·) else []

theorem mem_splits {f : List UInt8 → List UInt8} {L : List (List UInt8)} (hf : ∀ x ∈ L, f x ≠ []) : ∀ (ts : List (List UInt8)) (n : Nat),
    (∀ x ∈ ts, x ∈ L) → (ts.map f).flatten.length ≤ n → ts ∈ splits f L n (ts.map f).flatten
  | [], n, _, _ => by cases n <;> simp [splits]
  | x :: ts, n, hx, hn => by
    have h0 := hf x (hx x (List.mem_cons_self ..))
    obtain ⟨c, r, hc⟩ := List.exists_cons_of_ne_nil h0
    have hl : (f x).length = r.length + 1 := by rw [hc]; rfl
    rw [List.map_cons, List.flatten_cons] at hn ⊢
    rw [List.length_append, hl] at hn
    obtain ⟨n, rfl⟩ : ∃ m, n = m + 1 := ⟨n - 1, by omega⟩
    have ih := mem_splits hf ts n (fun y hy => hx y (List.mem_cons_of_mem _ hy)) (by omega)
    have e : f x ++ (ts.map f).flatten = c :: (r ++ (ts.map f).flatten) := by rw [hc]; rfl
    rw [e, splits, List.mem_flatMap, ← e]
    refine ⟨x, hx x (List.mem_cons_self ..), ?_⟩
    rw [if_pos (List.isPrefixOf_iff_prefix.mpr (List.prefix_append ..)), List.drop_left]
    exact List.mem_map.mpr ⟨ts, ih, rfl⟩

/-- The texts that make up `s` make up `s'` in the other language, and the other way round. -/
def kept (T : Say) (L : List (List UInt8)) (s s' : List UInt8) : Bool :=
  (splits id L s.length s).all (fun ts => decide ((ts.map T.text).flatten = s')) &&
  (splits T.text L s'.length s').all fun ts => decide (ts.flatten = s)

theorem sent_all {P : List UInt8 → List UInt8 → Prop} (h1 : ∀ m ∈ Q, P m (T.word m))
    (h2 : ∀ ps ∈ K, P (selector W.toWords ps) (selector W'.toWords (T.msg ps))) (sel sel' : List UInt8) (h : Sent T W W' Q K sel sel') :
    P sel sel' := by
  rcases h with ⟨m, hm, e, e'⟩ | ⟨ps, hp, e, e'⟩
  · rw [e, e']; exact h1 m hm
  · rw [e, e']; exact h2 ps hp

/-- A criterion for programs that do not compare. -/
theorem texts_made (hne : ∀ x ∈ L, x ≠ [] ∧ T.text x ≠ []) (h1 : ∀ m ∈ Q, kept T L m (T.word m) = true ∧ m ≠ W.equal)
    (h2 : ∀ ps ∈ K, kept T L (selector W.toWords ps) (selector W'.toWords (T.msg ps)) = true ∧ selector W.toWords ps ≠ W.equal) :
    Texts T W W' L Q K (Made T L) := by
  have key := sent_all (T := T) (W := W) (W' := W') (Q := Q) (K := K) (P := fun a b => kept T L a b = true ∧ a ≠ W.equal) h1 h2
  refine ⟨fun t ht => ⟨[t], by simpa using ht, by simp, by simp⟩, ?_, ?_, Or.inl fun sel sel' h => (key sel sel' h).2⟩
  · rintro _ _ _ _ ⟨a, ha, rfl, rfl⟩ ⟨b, hb, rfl, rfl⟩
    refine ⟨a ++ b, fun x hx => ?_, by simp, by simp⟩
    rcases List.mem_append.mp hx with h | h
    · exact ha x h
    · exact hb x h
  · rintro sel sel' h _ _ ⟨ts, hts, rfl, rfl⟩
    have hk := (key sel sel' h).1
    unfold kept at hk
    obtain ⟨k1, k2⟩ := (Bool.and_eq_true _ _).mp hk
    constructor
    · rintro rfl
      exact (of_decide_eq_true (List.all_eq_true.mp k2 ts (mem_splits (fun x hx => (hne x hx).2) ts _ hts (Nat.le_refl _)))).symm
    · rintro rfl
      have := mem_splits (f := id) (fun x hx => (hne x hx).1) ts ts.flatten.length hts (by simp)
      rw [List.map_id] at this
      exact (of_decide_eq_true (List.all_eq_true.mp k1 ts this)).symm

end Verif.Spec.RetoldObjects
