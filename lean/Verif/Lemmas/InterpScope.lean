import Verif.Lemmas.Interp
import Verif.Spec.Interp

/-!
# Variable scopes: refinement to a stack of partial functions
-/

namespace Verif.Model.Interp

open Verif.Spec.Scope (Op Stack)

theorem getp_delp_ne (l : List (Name × Nat)) {k k' : Name} (h : k' ≠ k) :
    getp (delp l k) k' = getp l k' := by
  induction l with
  | nil => rfl
  | cons p l ih =>
    obtain ⟨a, v⟩ := p
    simp only [delp]
    split
    · rename_i e
      have : a ≠ k' := fun e' => h (by rw [← e', e])
      simp only [getp, if_neg this]
    · simp only [getp, ih]

theorem getp_setp (l : List (Name × Nat)) (k k' : Name) (v : Nat) :
    getp (setp l k v) k' = if k' = k then some v else getp l k' := by
  simp only [setp, getp]
  by_cases h : k' = k
  · simp [h]
  · rw [if_neg (fun e => h e.symm), if_neg h, getp_delp_ne l h]

/-- The bindings of one scope. -/
def bindings (obj : Nat → Obj) (c : Nat) : Nat → Option Nat := fun k => getp (obj c).props k

/-- What the state says about variables. -/
structure Rep (s : St) (w : Stack) : Prop where
  nodup : s.ctxs.Nodup
  old : ∀ c ∈ s.ctxs, c < s.fresh
  world : ∃ l, s.ctxs = l ++ [worldO]
  scopes : w.scopes = s.ctxs.map (bindings s.obj)
  pending : w.pending = s.flow.isSome

/-- Performs an operation of the specification with the functions of the model. -/
def scopeOp (s : St) : Op → Res (St × Nat)
  | .enter => do
    let s ← openCtx s
    .ok (s, nilO)
  | .leave => .ok (closeCtx s, nilO)
  | .declare k v => .ok (assignLocal s k v)
  | .assign k v => .ok (assignVar s k v)
  | .read k => .ok (find s k)
  | .caught => .ok ({ s with flow := none }, nilO)

/-- Performs a sequence of operations. -/
def scopeOps (s : St) : List Op → Res (St × List Nat)
  | [] => .ok (s, [])
  | o :: os => do
    let (s, a) ← scopeOp s o
    let (s, as) ← scopeOps s os
    .ok (s, a :: as)

theorem findIn_eq (obj : Nat → Obj) (l : List Nat) (k : Name) :
    findIn obj l k = Spec.Scope.lookup (l.map (bindings obj)) k := by
  induction l with
  | nil => rfl
  | cons c l ih =>
    have hb : bindings obj c k = getp (obj c).props k := rfl
    rw [findIn, List.map_cons, Spec.Scope.lookup, hb]
    generalize getp (obj c).props k = x
    cases x with
    | none => simpa using ih
    | some v => simp

theorem findIn_last {obj : Nat → Obj} {l : List Nat} {k : Name} {c : Nat}
    (h : findIn obj (l ++ [c]) k = none) : getp (obj c).props k = none := by
  induction l with
  | nil =>
    simp only [List.nil_append, findIn] at h
    split at h
    · cases h
    · rename_i h'; exact h'
  | cons a l ih =>
    simp only [List.cons_append, findIn] at h
    split at h
    · cases h
    · exact ih h

theorem ownerOf_none {obj : Nat → Obj} {l : List Nat} {k : Name} :
    ownerOf obj l k = none ↔ Spec.Scope.lookup (l.map (bindings obj)) k = none := by
  induction l with
  | nil => simp [ownerOf, Spec.Scope.lookup]
  | cons c l ih =>
    have hb : bindings obj c k = getp (obj c).props k := rfl
    rw [ownerOf, List.map_cons, Spec.Scope.lookup, hb]
    generalize getp (obj c).props k = x
    cases x with
    | none => simpa using ih
    | some v => simp

/-- Bindings after a change of one property of one object. -/
theorem bindings_setProp (s : St) (c : Nat) (k : Name) (v : Nat) (d : Nat) :
    bindings (setProp s c k v).obj d =
      if d = c then Spec.Scope.upd (bindings s.obj c) k v else bindings s.obj d := by
  funext k'
  unfold bindings setProp St.put
  dsimp only
  by_cases h : d = c
  · subst h
    simp only [if_true, getp_setp, Spec.Scope.upd]
  · simp only [if_neg h]

theorem map_setProp_other (s : St) (c : Nat) (k : Name) (v : Nat) (l : List Nat) (h : c ∉ l) :
    l.map (bindings (setProp s c k v).obj) = l.map (bindings s.obj) := by
  refine List.map_congr_left fun d hd => ?_
  rw [bindings_setProp, if_neg]
  intro e; subst e; exact h hd

theorem ownerOf_mem {obj : Nat → Obj} {l : List Nat} {k : Name} {c : Nat}
    (h : ownerOf obj l k = some c) : c ∈ l := by
  induction l with
  | nil => cases h
  | cons d l ih =>
    simp only [ownerOf] at h
    split at h
    · cases h; exact List.mem_cons_self
    · exact List.mem_cons_of_mem _ (ih h)

theorem ownerOf_assign (s : St) (k : Name) (v : Nat) : ∀ (l : List Nat), l.Nodup → ∀ c,
    ownerOf s.obj l k = some c →
      l.map (bindings (setProp s c k v).obj) = Spec.Scope.assignIn (l.map (bindings s.obj)) k v := by
  intro l
  induction l with
  | nil => intro _ c h; cases h
  | cons d l ih =>
    intro hn c h
    rw [List.nodup_cons] at hn
    simp only [ownerOf] at h
    simp only [List.map_cons, Spec.Scope.assignIn]
    by_cases hd : (getp (s.obj d).props k).isSome
    · rw [if_pos hd] at h
      cases h
      have hd' : (bindings s.obj d k).isSome := hd
      rw [if_pos hd', bindings_setProp, if_pos rfl, map_setProp_other _ _ _ _ _ hn.1]
    · rw [if_neg hd] at h
      have hd' : ¬ (bindings s.obj d k).isSome := hd
      have hc := ownerOf_mem h
      have hne : d ≠ c := fun e => hn.1 (e ▸ hc)
      rw [if_neg hd', bindings_setProp, if_neg hne, ih hn.2 c h]

/-- Objects that are not scopes stay as they are. -/
def Apart (s s' : St) : Prop :=
  s.fresh ≤ s'.fresh ∧ (∀ i, i < s.fresh → i ∉ s.ctxs → s'.obj i = s.obj i) ∧
    (∀ c ∈ s'.ctxs, c ∈ s.ctxs ∨ s.fresh ≤ c)

theorem apart_raise (s : St) (k : Name) : Apart s (raise s k) := by
  refine ⟨Nat.le_succ _, fun i hi _ => if_neg (Nat.ne_of_lt hi), fun _ hc => .inl hc⟩

theorem apart_setProp (s : St) (c : Nat) (k : Name) (v : Nat) (hc : c ∈ s.ctxs) :
    Apart s (setProp s c k v) := by
  refine ⟨Nat.le_refl _, fun i hi hn => ?_, fun _ hc => .inl hc⟩
  unfold setProp St.put
  dsimp only
  rw [if_neg]
  intro e; subst e; exact hn hc

theorem Apart.refl (s : St) : Apart s s := ⟨Nat.le_refl _, fun _ _ _ => rfl, fun _ hc => .inl hc⟩

theorem Apart.trans {a b c : St} (h : Apart a b) (k : Apart b c) : Apart a c := by
  refine ⟨Nat.le_trans h.1 k.1, fun i hi hn => ?_, fun x hx => ?_⟩
  · have : i ∉ b.ctxs := fun hb => by
      rcases h.2.2 i hb with h1 | h1
      · exact hn h1
      · omega
    rw [k.2.1 i (by have := h.1; omega) this, h.2.1 i hi hn]
  · rcases k.2.2 x hx with h1 | h1
    · exact h.2.2 x h1
    · right; have := h.1; omega

theorem rep_raise {s : St} {w : Stack} (h : Rep s w) (k : Name) :
    Rep (raise s k) { w with pending := true } := by
  refine ⟨h.nodup, fun c hc => Nat.lt_succ_of_lt (h.old c hc), h.world, ?_, rfl⟩
  rw [h.scopes]
  refine List.map_congr_left fun c hc => ?_
  funext k'
  unfold bindings raise newStr alloc
  dsimp only
  rw [if_neg (Nat.ne_of_lt (h.old c hc))]

theorem scopeOp_ok {s : St} {w : Stack} (h : Rep s w) (o : Op)
    (ho : o = .enter → w.scopes.length < 300) :
    ∃ (s' : St), scopeOp s o = .ok (s', (Spec.Scope.step w o).2.getD nilO) ∧
      Rep s' (Spec.Scope.step w o).1 ∧ Apart s s' := by
  have hlen : w.scopes.length = s.ctxs.length := by rw [h.scopes, List.length_map]
  have hworld := h.world
  cases o with
  | enter =>
    have hl := ho rfl
    rw [hlen] at hl
    have e1 : ¬ s.ctxs.length ≥ 301 := by omega
    have e2 : ¬ s.ctxs.length - 1 ≥ 299 := by
      obtain ⟨l, hl'⟩ := hworld
      rw [hl', List.length_append] at hl ⊢
      simp only [List.length_cons, List.length_nil] at hl ⊢
      omega
    refine ⟨{ (alloc s { val := .obj, link := some objectP }).1 with ctxs := s.fresh :: s.ctxs }, ?_, ?_, ?_⟩
    · simp only [scopeOp, openCtx, if_neg e1, if_neg e2, Spec.Scope.step, Option.getD]
      rfl
    · refine ⟨?_, ?_, ?_, ?_, h.pending⟩
      · refine List.nodup_cons.2 ⟨fun hm => ?_, h.nodup⟩
        exact absurd (h.old _ hm) (Nat.lt_irrefl _)
      · intro c hc
        rcases List.mem_cons.1 hc with hc | hc
        · rw [hc]; exact Nat.lt_succ_self _
        · exact Nat.lt_succ_of_lt (h.old c hc)
      · obtain ⟨l, hl'⟩ := hworld
        exact ⟨s.fresh :: l, by simp [hl']⟩
      · simp only [Spec.Scope.step, List.map_cons]
        congr 1
        · funext k
          simp [bindings, alloc, getp]
        · rw [h.scopes]
          refine List.map_congr_left fun c hc => ?_
          funext k
          simp only [bindings, alloc]
          rw [if_neg (Nat.ne_of_lt (h.old c hc))]
    · refine ⟨Nat.le_succ _, fun i hi _ => if_neg (Nat.ne_of_lt hi), fun c hc => ?_⟩
      rcases List.mem_cons.1 hc with hc | hc
      · right; rw [hc]; exact Nat.le_refl _
      · exact .inl hc
  | leave =>
    refine ⟨closeCtx s, ?_, ?_, ?_⟩
    · have : (Spec.Scope.step w Op.leave).2 = none := by
        simp only [Spec.Scope.step]; split <;> rfl
      rw [this]; rfl
    · simp only [Spec.Scope.step]
      rw [h.scopes]
      cases hc : s.ctxs with
      | nil => obtain ⟨l, hl'⟩ := hworld; rw [hc] at hl'; simp at hl'
      | cons a l =>
        cases l with
        | nil =>
          simp only [List.map_cons, List.map_nil]
          have : closeCtx s = s := by unfold closeCtx; rw [hc]
          rw [this]
          exact h
        | cons b l =>
          simp only [List.map_cons]
          have : closeCtx s = { s with ctxs := b :: l } := by unfold closeCtx; rw [hc]
          rw [this]
          have hn := h.nodup
          rw [hc] at hn
          refine ⟨(List.nodup_cons.1 hn).2, fun c hm => h.old c (by rw [hc]; exact List.mem_cons_of_mem _ hm),
            ?_, rfl, h.pending⟩
          obtain ⟨l', hl'⟩ := hworld
          rw [hc] at hl'
          cases l' with
          | nil => simp at hl'
          | cons x l' =>
            simp only [List.cons_append, List.cons.injEq] at hl'
            exact ⟨l', hl'.2⟩
    · refine ⟨?_, ?_, ?_⟩
      · unfold closeCtx; split <;> exact Nat.le_refl _
      · intro i _ _; unfold closeCtx; split <;> rfl
      · intro c hc
        left
        revert hc
        unfold closeCtx
        split
        · rename_i e
          rw [e]; exact fun hc => List.mem_cons_of_mem _ hc
        · exact id
  | caught =>
    exact ⟨{ s with flow := none }, rfl, ⟨h.nodup, h.old, h.world, h.scopes, rfl⟩,
      ⟨Nat.le_refl _, fun _ _ _ => rfl, fun _ hc => .inl hc⟩⟩
  | declare k v =>
    by_cases hp : s.flow.isSome
    · refine ⟨s, ?_, ?_, Apart.refl s⟩
      · simp only [scopeOp, assignLocal_pending hp, Spec.Scope.step, h.pending, hp, if_true, Option.getD]
      · simp only [Spec.Scope.step, h.pending, hp, if_true]; exact h
    · cases hc : s.ctxs with
      | nil => obtain ⟨l, hl'⟩ := hworld; rw [hc] at hl'; simp at hl'
      | cons a l =>
        have hn := h.nodup
        rw [hc] at hn
        have e1 : assignLocal s k v = (setProp s a k v, v) := by
          unfold assignLocal; rw [if_neg hp, hc]
        have hsc : w.scopes = bindings s.obj a :: l.map (bindings s.obj) := by
          rw [h.scopes, hc, List.map_cons]
        have e2 : Spec.Scope.step w (.declare k v) =
            ({ w with scopes := Spec.Scope.upd (bindings s.obj a) k v :: l.map (bindings s.obj) },
              some v) := by
          simp only [Spec.Scope.step, h.pending, if_neg hp, hsc]
        refine ⟨setProp s a k v, ?_, ?_, apart_setProp s a k v (by rw [hc]; exact List.mem_cons_self)⟩
        · simp only [scopeOp, e1, e2, Option.getD]
        · rw [e2]
          refine ⟨h.nodup, h.old, h.world, ?_, h.pending⟩
          show _ = List.map _ s.ctxs
          rw [hc, List.map_cons, bindings_setProp, if_pos rfl,
            map_setProp_other _ _ _ _ _ (List.nodup_cons.1 hn).1]
  | assign k v =>
    by_cases hp : s.flow.isSome
    · refine ⟨s, ?_, ?_, Apart.refl s⟩
      · simp only [scopeOp, assignVar_pending hp, Spec.Scope.step, h.pending, hp, if_true, Option.getD]
      · simp only [Spec.Scope.step, h.pending, hp, if_true]; exact h
    · cases hw : ownerOf s.obj s.ctxs k with
      | none =>
        have hl := ownerOf_none.1 hw
        rw [← h.scopes] at hl
        have e2 : Spec.Scope.step w (.assign k v) = ({ w with pending := true }, some v) := by
          simp [Spec.Scope.step, h.pending, hp, hl]
        refine ⟨raise s eAssign, ?_, ?_, apart_raise s _⟩
        · simp only [scopeOp, assignVar, if_neg hp, hw, e2, Option.getD]
        · rw [e2]; exact rep_raise h _
      | some c =>
        have hl : (Spec.Scope.lookup w.scopes k).isSome := by
          cases hx : Spec.Scope.lookup w.scopes k with
          | none =>
            rw [h.scopes] at hx
            rw [ownerOf_none.2 hx] at hw
            cases hw
          | some _ => rfl
        have e2 : Spec.Scope.step w (.assign k v) =
            ({ w with scopes := Spec.Scope.assignIn w.scopes k v }, some v) := by
          simp [Spec.Scope.step, h.pending, hp, hl]
        refine ⟨setProp s c k v, ?_, ?_, apart_setProp s c k v (ownerOf_mem hw)⟩
        · simp only [scopeOp, assignVar, if_neg hp, hw, e2, Option.getD]
        · rw [e2]
          refine ⟨h.nodup, h.old, h.world, ?_, h.pending⟩
          show Spec.Scope.assignIn w.scopes k v = List.map _ s.ctxs
          rw [ownerOf_assign s k v s.ctxs h.nodup c hw, h.scopes]
  | read k =>
    by_cases hp : s.flow.isSome
    · refine ⟨s, ?_, ?_, Apart.refl s⟩
      · simp only [scopeOp, find_pending hp, Spec.Scope.step, h.pending, hp, if_true, Option.getD]
      · simp only [Spec.Scope.step, h.pending, hp, if_true]; exact h
    · have hf := findIn_eq s.obj s.ctxs k
      rw [← h.scopes] at hf
      cases hw : findIn s.obj s.ctxs k with
      | none =>
        rw [hw] at hf
        have hg : getp (s.obj worldO).props k = none := by
          obtain ⟨l, hl'⟩ := hworld
          rw [hl'] at hw
          exact findIn_last hw
        have e2 : Spec.Scope.step w (.read k) = ({ w with pending := true }, none) := by
          simp [Spec.Scope.step, h.pending, hp, ← hf]
        refine ⟨raise s eKnf, ?_, ?_, apart_raise s _⟩
        · simp only [scopeOp, find, if_neg hp, hw, hg, e2, Option.getD]
        · rw [e2]; exact rep_raise h _
      | some v =>
        rw [hw] at hf
        have e2 : Spec.Scope.step w (.read k) = (w, some v) := by
          simp [Spec.Scope.step, h.pending, hp, ← hf]
        refine ⟨s, ?_, ?_, Apart.refl s⟩
        · simp only [scopeOp, find, if_neg hp, hw, e2, Option.getD]
        · rw [e2]; exact h

theorem scopeOps_ok : ∀ (os : List Op) {s : St} {w : Stack}, Rep s w → Spec.Scope.Shallow 300 w os →
    ∃ (s' : St), scopeOps s os = .ok (s', (Spec.Scope.run w os).2.map (·.getD nilO)) ∧
      Rep s' (Spec.Scope.run w os).1 ∧ Apart s s' := by
  intro os
  induction os with
  | nil => intro s w h _; exact ⟨s, rfl, h, Apart.refl s⟩
  | cons o os ih =>
    intro s w h hs
    have hs1 : (o = .enter → w.scopes.length < 300) ∧
        Spec.Scope.Shallow 300 (Spec.Scope.step w o).1 os := by
      cases o with
      | enter => exact ⟨fun _ => hs.1, hs.2⟩
      | leave => exact ⟨fun e => (by cases e), hs⟩
      | declare => exact ⟨fun e => (by cases e), hs⟩
      | assign => exact ⟨fun e => (by cases e), hs⟩
      | read => exact ⟨fun e => (by cases e), hs⟩
      | caught => exact ⟨fun e => (by cases e), hs⟩
    obtain ⟨s1, e1, r1, a1⟩ := scopeOp_ok h o hs1.1
    obtain ⟨s2, e2, r2, a2⟩ := ih r1 hs1.2
    refine ⟨s2, ?_, r2, a1.trans a2⟩
    simp only [scopeOps, e1, Res.ok_bind, e2]
    rfl

end Verif.Model.Interp
