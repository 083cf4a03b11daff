import Verif.Lemmas.TempSim

/-! Helper lemmas about intermediate values: runs in which nothing is ever freed. -/

namespace Verif.Model.Temp

open Verif.Model.GC
open Verif.Spec.GC (Reach)
open Verif.Spec.Temp

/-- The outcome is defined, and its value meets `P`. -/
def Safe {α : Type} (x : Out α) (P : α → Prop) : Prop :=
  match x with
  | .ok a => P a
  | .ub => False
  | .exit => True

theorem Safe.bind {α β : Type} {x : Out α} {f : α → Out β} {P : α → Prop} {Q : β → Prop} (h : Safe x P)
    (hf : ∀ a, P a → Safe (f a) Q) : Safe (x.bind f) Q := by
  cases x with
  | ok a => exact hf a h
  | ub => exact h.elim
  | exit => exact True.intro

theorem Safe.mono {α : Type} {x : Out α} {P Q : α → Prop} (h : Safe x P) (hpq : ∀ a, P a → Q a) : Safe x Q := by
  cases x with
  | ok a => exact hpq a h
  | ub => exact h.elim
  | exit => exact True.intro

theorem Safe.of_ok {α : Type} {x : Out α} {P : α → Prop} (h : Safe x P) {a : α} (e : x = .ok a) : P a := by
  rw [e] at h; exact h

/-- An existing value. -/
def Val (t : St) (v : Nat) : Prop := t.kind v = .value ∧ ∃ p, t.heap.mem v = some p

/-- The value of an own property or variable. -/
def propOf (s : St) (y n : Nat) : Option Nat :=
  match s.heap.mem y with
  | none => none
  | some o => (o.props.find? (isNamed s.kind (n + 1))).map (·.2)

/-- What a run leaves as it was: names not in `W`. -/
structure Keep (W : List Nat) (inner : Bool) (a b : St) : Prop where
  ok : Ok b
  ctxs : b.ctxs = a.ctxs
  kind : ∀ x, (∃ p, a.heap.mem x = some p) → (∃ p, b.heap.mem x = some p) ∧ b.kind x = a.kind x
  vars : ∀ n, n ∉ W → ∀ y, (∃ p, a.heap.mem y = some p) → (inner = true → ∀ c rest, a.ctxs = c :: rest → y ≠ c) →
    propOf b y n = propOf a y n

theorem Keep.refl {t : St} (h : Ok t) (W : List Nat) (i : Bool) : Keep W i t t := ⟨h, rfl, fun _ h => ⟨h, rfl⟩, fun _ _ _ _ _ => rfl⟩

theorem Keep.trans {W W' : List Nat} {i : Bool} {a b c : St} (h : Keep W i a b) (h' : Keep W' i b c) : Keep (W ++ W') i a c where
  ok := h'.ok
  ctxs := h'.ctxs.trans h.ctxs
  kind x hx := by
    obtain ⟨h1, h2⟩ := h.kind x hx
    obtain ⟨h3, h4⟩ := h'.kind x h1
    exact ⟨h3, h4.trans h2⟩
  vars n hn y hy hi := by
    rw [h'.vars n (fun hm => hn (List.mem_append.2 (.inr hm))) y (h.kind y hy).1 (fun e c rest hc => hi e c rest (h.ctxs ▸ hc)),
      h.vars n (fun hm => hn (List.mem_append.2 (.inl hm))) y hy hi]

theorem Keep.mono {W W' : List Nat} {i : Bool} {a b : St} (h : Keep W i a b) (hW : ∀ n ∈ W, n ∈ W') : Keep W' i a b :=
  ⟨h.ok, h.ctxs, h.kind, fun n hn => h.vars n (fun hm => hn (hW n hm))⟩

theorem Keep.weak {W : List Nat} {a b : St} (h : Keep W false a b) (i : Bool) : Keep W i a b :=
  ⟨h.ok, h.ctxs, h.kind, fun n hn y hy _ => h.vars n hn y hy (fun e => nomatch e)⟩

theorem Keep.val {W : List Nat} {i : Bool} {a b : St} (h : Keep W i a b) {v : Nat} (hv : Val a v) : Val b v := by
  obtain ⟨h1, h2⟩ := h.kind v hv.2
  exact ⟨h2.trans hv.1, h1⟩

theorem Ok.setMsg {t : St} (h : Ok t) (m : Nat) : Ok { t with inMsg := m } := ⟨h.lt, h.outs, h.keys, h.plain, h.ctx, h.nodup⟩

theorem keep_msg {W : List Nat} {i : Bool} {a b : St} (h : Keep W i a b) (m n : Nat) : Keep W i { a with inMsg := m } { b with inMsg := n } :=
  ⟨h.ok.setMsg n, h.ctxs, h.kind, h.vars⟩

theorem ok_make {t : St} (h : Ok t) (k : Kind) (a st : Bool) : Ok (make t k a st).1 := by
  have hmt : ∀ x, x ≠ t.heap.fresh → (create t.heap a st none).mem x = t.heap.mem x := fun x hx => upd_ne _ _ hx
  have hnt : (create t.heap a st none).mem t.heap.fresh = some ⟨a, [], 0, [], [], none, st, false, t.heap.first⟩ := upd_same _ _ _
  have hext : ∀ y, (∃ p, t.heap.mem y = some p) → y ≠ t.heap.fresh := by
    rintro y ⟨p, ep⟩ e
    have := h.lt y p ep
    omega
  have hk : ∀ y, y ≠ t.heap.fresh → (make t k a st).1.kind y = t.kind y := fun y hy => by simp [make, hy]
  have hex : ∀ y, (∃ p, t.heap.mem y = some p) → ∃ p, (make t k a st).1.heap.mem y = some p := by
    rintro y ⟨p, ep⟩
    exact ⟨p, by rw [← ep]; exact hmt y (hext y ⟨p, ep⟩)⟩
  constructor
  · intro y q eq
    simp only [make] at eq ⊢
    simp only [create]
    by_cases hy : y = t.heap.fresh
    · omega
    · rw [hmt y hy] at eq
      have := h.lt y q eq
      omega
  · intro y q eq z hz
    by_cases hy : y = t.heap.fresh
    · subst hy
      simp only [make] at eq
      rw [hnt] at eq
      cases eq
      simp [Obj.outs] at hz
    · simp only [make] at eq
      rw [hmt y hy] at eq
      obtain ⟨h1, h2⟩ := h.outs y q eq z hz
      exact ⟨by rw [hk z (hext z h2)]; exact h1, hex z h2⟩
  · intro y q eq z hz
    by_cases hy : y = t.heap.fresh
    · subst hy
      simp only [make] at eq
      rw [hnt] at eq
      cases eq
      simp [Obj.keys] at hz
    · simp only [make] at eq
      rw [hmt y hy] at eq
      obtain ⟨h1, h2⟩ := h.keys y q eq z hz
      exact ⟨by rw [hk z (hext z h2)]; exact h1, hex z h2⟩
  · intro y q n hkn eq
    by_cases hy : y = t.heap.fresh
    · subst hy
      simp only [make] at eq
      rw [hnt] at eq
      cases eq
      simp [Obj.outs, Obj.keys]
    · rw [hk y hy] at hkn
      simp only [make] at eq
      rw [hmt y hy] at eq
      exact h.plain y q n hkn eq
  · intro c hc
    obtain ⟨h1, h2⟩ := h.ctx c hc
    exact ⟨by rw [hk c (hext c h2)]; exact h1, hex c h2⟩
  · exact h.nodup

theorem find_congr {α : Type} {p q : α → Bool} : ∀ {l : List α}, (∀ a ∈ l, p a = q a) → l.find? p = l.find? q
  | [], _ => rfl
  | a :: l, h => by
    have ha := h a List.mem_cons_self
    have ih := find_congr (l := l) fun b hb => h b (List.mem_cons_of_mem _ hb)
    by_cases hp : p a = true
    · rw [List.find?_cons_of_pos hp, List.find?_cons_of_pos (by rw [← ha]; exact hp)]
    · rw [List.find?_cons_of_neg hp, List.find?_cons_of_neg (by rw [← ha]; exact hp), ih]

theorem propOf_eq {s : St} {y n : Nat} {o : Obj} (e : s.heap.mem y = some o) :
    propOf s y n = (o.props.find? (isNamed s.kind (n + 1))).map (·.2) := by unfold propOf; rw [e]

theorem keep_make {t : St} (h : Ok t) (k : Kind) (a st : Bool) : Keep [] false t (make t k a st).1 := by
  have f := frame_make h k a st
  refine ⟨ok_make h k a st, f.ctxs, f.kind, ?_⟩
  intro n _ y hy _
  obtain ⟨o, eo⟩ := hy
  have hne : y ≠ t.heap.fresh := by have := h.lt y o eo; omega
  have e2 : (make t k a st).1.heap.mem y = some o := by rw [← eo]; exact upd_ne _ _ hne
  rw [propOf_eq e2, propOf_eq eo]
  congr 1
  refine find_congr ?_
  intro q hq
  have : q.1 ∈ o.keys := by
    simp only [Obj.keys, List.mem_append]
    exact .inl (List.mem_map.2 ⟨q, hq, rfl⟩)
  obtain ⟨_, p, ep⟩ := h.keys y o eo _ this
  have : q.1 ≠ t.heap.fresh := by have := h.lt _ p ep; omega
  simp [isNamed, make, this]

/-- Changing an existing object that is no name. -/
theorem safe_change {t : St} (h : Ok t) {x : Nat} (hx : ∃ p, t.heap.mem x = some p) (hxn : ∀ n, t.kind x ≠ .name n) {f : Obj → Obj}
    (hnew : ∀ o y, t.heap.mem x = some o → (y ∈ (f o).outs → y ∈ o.outs ∨ Val t y) ∧
      (y ∈ (f o).keys → y ∈ o.keys ∨ ((∃ n, t.kind y = .name n) ∧ ∃ p, t.heap.mem y = some p)))
    {W : List Nat} {i : Bool}
    (hp : ∀ o, t.heap.mem x = some o → ∀ n, n ∉ W → (i = true → ∀ c rest, t.ctxs = c :: rest → x ≠ c) →
      (f o).props.find? (isNamed t.kind (n + 1)) = o.props.find? (isNamed t.kind (n + 1))) :
    Safe (change t x f) (Keep W i t) := by
  obtain ⟨o, eo⟩ := hx
  have e : change t x f = .ok { t with heap := { t.heap with mem := upd t.heap.mem x (some (f o)) } } := by
    unfold change GC.modify
    rw [eo]
    rfl
  rw [e]
  have hex : ∀ z, (∃ p, t.heap.mem z = some p) → ∃ p, upd t.heap.mem x (some (f o)) z = some p := by
    rintro z ⟨p, ep⟩
    by_cases hzx : z = x
    · exact ⟨_, by rw [hzx, upd_same]⟩
    · exact ⟨p, by rw [upd_ne _ _ hzx, ep]⟩
  refine ⟨?_, rfl, fun y hy => ⟨hex y hy, rfl⟩, ?_⟩
  · constructor
    · intro y q eq
      simp only at eq ⊢
      by_cases hy : y = x
      · subst hy; exact h.lt y o eo
      · rw [upd_ne _ _ hy] at eq; exact h.lt y q eq
    · intro y q eq z hz
      simp only at eq ⊢
      by_cases hy : y = x
      · subst hy
        rw [upd_same] at eq
        cases eq
        rcases (hnew o z eo).1 hz with hz | hz
        · exact ⟨(h.outs y o eo z hz).1, hex z (h.outs y o eo z hz).2⟩
        · exact ⟨hz.1, hex z hz.2⟩
      · rw [upd_ne _ _ hy] at eq
        have := h.outs y q eq z hz
        exact ⟨this.1, hex z this.2⟩
    · intro y q eq z hz
      simp only at eq ⊢
      by_cases hy : y = x
      · subst hy
        rw [upd_same] at eq
        cases eq
        rcases (hnew o z eo).2 hz with hz | hz
        · exact ⟨(h.keys y o eo z hz).1, hex z (h.keys y o eo z hz).2⟩
        · exact ⟨hz.1, hex z hz.2⟩
      · rw [upd_ne _ _ hy] at eq
        have := h.keys y q eq z hz
        exact ⟨this.1, hex z this.2⟩
    · intro y q n hk eq
      simp only at eq hk
      by_cases hy : y = x
      · subst hy; exact absurd hk (hxn n)
      · rw [upd_ne _ _ hy] at eq; exact h.plain y q n hk eq
    · intro c hc
      exact ⟨(h.ctx c hc).1, hex c (h.ctx c hc).2⟩
    · exact h.nodup
  · intro n hn y hy hi
    by_cases hyx : y = x
    · subst hyx
      rw [propOf_eq eo, propOf_eq (upd_same _ _ _), hp o eo n hn hi]
    · obtain ⟨q, eq⟩ := hy
      rw [propOf_eq eq]
      refine propOf_eq ?_
      simp only
      rw [upd_ne _ _ hyx, eq]

theorem find_eraseP_of_disjoint {α : Type} {p q : α → Bool} (h : ∀ a, q a = true → p a = false) :
    ∀ l : List α, (l.eraseP q).find? p = l.find? p
  | [] => rfl
  | a :: l => by
    by_cases hq : q a = true
    · rw [List.eraseP_cons_of_pos hq, List.find?_cons_of_neg (by rw [h a hq]; exact Bool.noConfusion)]
    · rw [List.eraseP_cons_of_neg hq]
      by_cases hp : p a = true
      · rw [List.find?_cons_of_pos hp, List.find?_cons_of_pos hp]
      · rw [List.find?_cons_of_neg hp, List.find?_cons_of_neg hp, find_eraseP_of_disjoint h l]

/-- The names an operation on a property of `x` writes. -/
def wr (n : Nat) : List Nat :=
  match n with
  | 0 => []
  | k + 1 => [k]

theorem safe_del {t : St} (h : Ok t) {m : Bool} {x n : Nat} (hx : ∃ p, t.heap.mem x = some p) (hxn : ∀ n, t.kind x ≠ .name n) :
    Safe (delProp t m x n) (Keep (wr n) false t) := by
  unfold delProp
  refine safe_change h hx hxn ?_ ?_
  · intro o y eo
    exact ⟨fun hy => .inl (drop_outs hy), fun hy => .inl (drop_keys hy)⟩
  · intro o _ k hk _
    unfold dropNamed
    split
    · rfl
    · simp only
      refine find_eraseP_of_disjoint ?_ _
      intro a ha
      simp only [isNamed, beq_iff_eq] at ha
      rw [isNamed, ha]
      cases n with
      | zero => simp
      | succ j =>
        simp only [wr, List.mem_singleton] at hk
        simp
        omega

theorem safe_add {t : St} (h : Ok t) {m : Bool} {x n v : Nat} (hx : ∃ p, t.heap.mem x = some p) (hxn : ∀ n, t.kind x ≠ .name n)
    (hv : Val t v) : Safe (addProp t m x n v) (Keep (wr n) false t) := by
  have k1 := keep_make h (.name n) false false
  have hx1 := k1.kind x hx
  have e : addProp t m x n v = change (make t (.name n) false false).1 x (addItem m t.heap.fresh v) := rfl
  rw [e]
  refine Safe.mono (safe_change (W := wr n) (i := false) k1.ok hx1.1 (by intro j; rw [hx1.2]; exact hxn j) ?_ ?_) fun a ha => ?_
  · intro o y eo
    constructor
    · intro hy
      rcases addItem_outs hy with hy | hy
      · exact .inl hy
      · rw [List.mem_singleton] at hy
        subst hy
        exact .inr (k1.val hv)
    · intro hy
      rcases addItem_keys hy with hy | hy
      · exact .inl hy
      · rw [List.mem_singleton] at hy
        subst hy
        exact .inr ⟨⟨n, by simp [make]⟩, _, upd_same _ _ _⟩
  · intro o _ k hk _
    unfold addItem
    split
    · rfl
    · simp only
      refine List.find?_cons_of_neg ?_
      simp only [isNamed, make, if_true, beq_iff_eq, Kind.name.injEq]
      cases n with
      | zero => simp
      | succ j =>
        simp only [wr, List.mem_singleton] at hk
        omega
  · exact (k1.trans ha).mono (by simp)

theorem safe_setProp {t : St} (h : Ok t) {m : Bool} {x n v : Nat} (hx : ∃ p, t.heap.mem x = some p) (hxn : ∀ n, t.kind x ≠ .name n)
    (hv : Val t v) : Safe (setProp t m x n v) (Keep (wr n) false t) := by
  unfold setProp
  refine (safe_del h hx hxn).bind fun a ha => ?_
  have hx1 := ha.kind x hx
  refine (safe_add ha.ok hx1.1 (by intro j; rw [hx1.2]; exact hxn j) (ha.val hv)).mono fun b hb => ?_
  exact (ha.trans hb).mono (by simp)

theorem Val.not_name {t : St} {v : Nat} (h : Val t v) (n : Nat) : t.kind v ≠ .name n := value_not_name h.1 n

theorem safe_pin {t : St} (h : Ok t) {c v : Nat} {rest : List Nat} (hc : t.ctxs = c :: rest) (hv : Val t v) :
    Safe (pin t v) (Keep [] false t) := by
  unfold pin
  rw [hc]
  have hm : c ∈ t.ctxs := by rw [hc]; exact List.mem_cons_self
  exact safe_add (n := 0) h (h.ctx c hm).2 (h.ctx_kind hm) hv

theorem safe_unpin {c : Nat} {rest : List Nat} : ∀ {k : Nat} {t : St}, Ok t → t.ctxs = c :: rest →
    Safe (unpin t k) (Keep [] false t)
  | 0, t, h, _ => Keep.refl h _ _
  | k + 1, t, h, hc => by
    unfold unpin
    rw [hc]
    have hm : c ∈ t.ctxs := by rw [hc]; exact List.mem_cons_self
    refine (safe_del (n := 0) h (h.ctx c hm).2 (h.ctx_kind hm)).bind fun a ha => ?_
    exact (safe_unpin ha.ok (by rw [ha.ctxs, hc])).mono fun b hb => (ha.trans hb).mono (by simp [wr])

theorem safe_obj {t : St} {x : Nat} (hx : ∃ p, t.heap.mem x = some p) : Safe (obj t x) (fun o => t.heap.mem x = some o) := by
  obtain ⟨p, e⟩ := hx
  unfold obj
  rw [e]
  exact rfl

theorem safe_findProp {t : St} (h : Ok t) {m : Bool} {x n : Nat} (hx : ∃ p, t.heap.mem x = some p) :
    Safe (findProp t m x n) (fun r => (∀ v, r = some v → Val t v) ∧ (m = false → ∀ k, n = k + 1 → r = propOf t x k)) := by
  unfold findProp
  refine (safe_obj hx).bind fun o eo => ?_
  unfold lookup
  have hk : ∀ p ∈ (if m then o.methods else o.props), p.1 ∈ o.keys ∧ p.2 ∈ o.outs := by
    intro p hp
    simp only [Obj.keys, Obj.outs, List.mem_append, List.mem_map]
    split at hp
    · exact ⟨.inr ⟨p, hp, rfl⟩, .inr ⟨p, hp, rfl⟩⟩
    · exact ⟨.inl ⟨p, hp, rfl⟩, .inl (.inr ⟨p, hp, rfl⟩)⟩
  cases hf : (if m then o.methods else o.props).find? (isNamed t.kind n) with
  | none =>
    refine ⟨(fun _ h => nomatch h), ?_⟩
    rintro rfl k rfl
    rw [propOf_eq eo]
    simp only [Bool.false_eq_true, if_false] at hf
    rw [hf]
    rfl
  | some p =>
    obtain ⟨k, v⟩ := p
    simp only
    obtain ⟨h1, h2⟩ := hk _ (List.mem_of_find?_eq_some hf)
    refine (safe_obj (h.keys x o eo _ h1).2).bind fun _ _ => ?_
    refine ⟨?_, ?_⟩
    · intro w hw
      cases hw
      exact h.outs x o eo _ h2
    · rintro rfl j rfl
      rw [propOf_eq eo]
      simp only [Bool.false_eq_true, if_false] at hf
      rw [hf]
      rfl

theorem safe_findIn {t : St} (h : Ok t) {n : Nat} : ∀ {l : List Nat}, (∀ c ∈ l, c ∈ t.ctxs) →
    Safe (findIn t n l) (fun r => (∀ v, r = some v → Val t v) ∧ ∀ v, r = some v → ∃ c ∈ l, propOf t c n = some v)
  | [], _ => ⟨(fun _ h => nomatch h), (fun _ h => nomatch h)⟩
  | c :: l, hl => by
    unfold findIn
    refine (safe_findProp h (h.ctx c (hl c List.mem_cons_self)).2).bind fun r hr => ?_
    cases r with
    | some v =>
      refine ⟨hr.1, ?_⟩
      intro w hw
      cases hw
      exact ⟨c, List.mem_cons_self, (hr.2 rfl n rfl).symm⟩
    | none =>
      refine (safe_findIn h (fun d hd => hl d (List.mem_cons_of_mem _ hd))).mono fun q hq => ⟨hq.1, ?_⟩
      intro v hv
      obtain ⟨d, hd, e⟩ := hq.2 v hv
      exact ⟨d, List.mem_cons_of_mem _ hd, e⟩

theorem safe_find {t : St} (h : Ok t) {n : Nat} :
    Safe (find t n) (fun r => (∀ v, r = some v → Val t v) ∧ ∀ v, r = some v → ∃ c ∈ t.ctxs, propOf t c n = some v) :=
  safe_findIn h (fun _ h => h)

theorem safe_ownerIn {t : St} (h : Ok t) {n : Nat} : ∀ {l : List Nat}, (∀ c ∈ l, c ∈ t.ctxs) →
    Safe (ownerIn t n l) (fun r => ∀ c, r = some c → c ∈ t.ctxs)
  | [], _ => (fun _ h => nomatch h)
  | c :: l, hl => by
    unfold ownerIn
    refine (safe_findProp h (h.ctx c (hl c List.mem_cons_self)).2).bind fun r hr => ?_
    cases r with
    | some v => intro d hd; cases hd; exact hl c List.mem_cons_self
    | none => exact safe_ownerIn h (fun d hd => hl d (List.mem_cons_of_mem _ hd))

theorem safe_setLocal {t : St} (h : Ok t) {c n v : Nat} {rest : List Nat} (hc : t.ctxs = c :: rest) (hv : Val t v) (i : Bool) :
    Safe (setLocal t n v) (Keep (if i then [] else [n]) i t) := by
  unfold setLocal
  rw [hc]
  have hm : c ∈ t.ctxs := by rw [hc]; exact List.mem_cons_self
  have base := safe_setProp (m := false) (n := n + 1) h (h.ctx c hm).2 (h.ctx_kind hm) hv
  cases i with
  | false => exact base
  | true =>
    -- only the innermost scope changes
    simp only
    cases e : setProp t false c (n + 1) v with
    | ub => rw [e] at base; exact base.elim
    | exit => exact True.intro
    | ok b =>
      rw [e] at base
      have base : Keep [n] false t b := base
      refine ⟨base.ok, base.ctxs, base.kind, ?_⟩
      intro k _ y hy hi
      by_cases hk : k = n
      · subst hk
        have hyc := hi rfl c rest hc
        -- the object of `y` is unchanged
        unfold setProp at e
        obtain ⟨a, e1, e2⟩ := of_bind e
        obtain ⟨o1, _, ha⟩ := change_ok e1
        have e3 := addProp_ok e2
        obtain ⟨o2, _, hb⟩ := change_ok e3
        obtain ⟨q, eq⟩ := hy
        have ea : a.heap.mem y = some q := by rw [ha, ← eq]; exact upd_ne _ _ hyc
        have k1 := (safe_del (m := false) (n := k + 1) h (h.ctx c hm).2 (h.ctx_kind hm)).of_ok e1
        have k2 := keep_make k1.ok (.name (k + 1)) false false
        have p1 : propOf a y k = propOf t y k := by
          rw [propOf_eq ea, propOf_eq eq, ha]
        have p2 := k2.vars k (by simp) y ⟨q, ea⟩ (fun h => nomatch h)
        have em : (make a (.name (k + 1)) false false).1.heap.mem y = some q := by
          rw [← ea]
          refine upd_ne _ _ ?_
          have := k1.ok.lt y q ea
          omega
        have p3 : propOf b y k = propOf (make a (.name (k + 1)) false false).1 y k := by
          have eb : b.heap.mem y = some q := by rw [hb, ← em]; exact upd_ne _ _ hyc
          rw [propOf_eq eb, propOf_eq em, hb]
        rw [p3, p2, p1]
      · exact base.vars k (by simpa using hk) y hy (fun h => nomatch h)

theorem safe_setVar {t : St} (h : Ok t) {n v : Nat} (hv : Val t v) : Safe (setVar t n v) (Keep [n] false t) := by
  unfold setVar
  refine (safe_ownerIn h (fun _ h => h)).bind fun r hr => ?_
  cases r with
  | none => exact Keep.refl h _ _
  | some c => exact safe_setProp (n := n + 1) h (h.ctx c (hr c rfl)).2 (h.ctx_kind (hr c rfl)) hv

theorem safe_setOwn {t : St} (h : Ok t) {n v : Nat} (hv : Val t v) : Safe (setOwn t n v) (Keep [n] false t) := by
  unfold setOwn
  refine (safe_find h).bind fun r hr => ?_
  cases r with
  | none => exact Keep.refl h _ _
  | some m => exact safe_setProp (n := n + 1) h (hr.1 m rfl).2 (hr.1 m rfl).not_name hv

/-- Held by names: a path of own properties and variables with names of `N`, from scopes of `R`. -/
def Path (t : St) (N R : List Nat) (x : Nat) : Prop := Reach (fun a b => ∃ n ∈ N, propOf t a n = some b) R x

theorem propOf_val {t : St} (h : Ok t) {x n v : Nat} (e : propOf t x n = some v) : Val t v := by
  unfold propOf at e
  cases eo : t.heap.mem x with
  | none => rw [eo] at e; cases e
  | some o =>
    rw [eo] at e
    simp only [Option.map_eq_some_iff] at e
    obtain ⟨p, hp, rfl⟩ := e
    refine h.outs x o eo _ ?_
    simp only [Obj.outs, List.mem_append]
    exact .inl (.inr (List.mem_map.2 ⟨p, List.mem_of_find?_eq_some hp, rfl⟩))

theorem propOf_next {t : St} {x n v : Nat} (e : propOf t x n = some v) : Next t.heap x v := by
  unfold propOf at e
  cases eo : t.heap.mem x with
  | none => rw [eo] at e; cases e
  | some o =>
    rw [eo] at e
    simp only [Option.map_eq_some_iff] at e
    obtain ⟨p, hp, rfl⟩ := e
    refine ⟨o, eo, .inl ?_⟩
    simp only [Obj.outs, List.mem_append]
    exact .inl (.inr (List.mem_map.2 ⟨p, List.mem_of_find?_eq_some hp, rfl⟩))

theorem Path.held {t : St} {N R G : List Nat} {x : Nat} (h : Path t N R x) (hR : ∀ c ∈ R, c ∈ t.ctxs) : Held t G x := by
  induction h with
  | root h => exact .root (List.mem_append.2 (.inl (hR _ h)))
  | step _ he ih =>
    obtain ⟨n, _, e⟩ := he
    exact .step ih (propOf_next e)

theorem Path.keep {W N R : List Nat} {i : Bool} {a b : St} {x : Nat} (h : Path a N R x) (ha : Ok a) (hk : Keep W i a b)
    (hR : ∀ c ∈ R, c ∈ a.ctxs ∧ (i = true → ∀ d rest, a.ctxs = d :: rest → c ≠ d)) (hN : ∀ n ∈ N, n ∉ W) : Path b N R x := by
  have : Path b N R x ∧ (∃ p, a.heap.mem x = some p) ∧ (i = true → ∀ d rest, a.ctxs = d :: rest → x ≠ d) := by
    induction h with
    | root h => exact ⟨.root h, (ha.ctx _ (hR _ h).1).2, (hR _ h).2⟩
    | step _ he ih =>
      obtain ⟨ih1, ih2, ih3⟩ := ih
      obtain ⟨n, hn, e⟩ := he
      have hv := propOf_val ha e
      refine ⟨.step ih1 ⟨n, hn, ?_⟩, hv.2, ?_⟩
      · rw [hk.vars n (hN n hn) _ ih2 ih3, e]
      · rintro _ d rest hd rfl
        exact value_not_ctx ha hv.1 (by rw [hd]; exact List.mem_cons_self)
  exact this.1

theorem safe_orNil {t : St} (h : Ok t) {r : Option Nat} {c : Nat} {rest : List Nat} (hc : t.ctxs = c :: rest)
    (hr : ∀ v, r = some v → Val t v) : Safe (orNil t r) (fun v => Val t v ∧ (r = some v ∨ Path t [nNil] t.ctxs v)) := by
  cases r with
  | some v => exact ⟨hr v rfl, .inl rfl⟩
  | none =>
    unfold orNil
    cases hw : t.ctxs.getLast? with
    | none =>
      rw [hc] at hw
      simp at hw
    | some w =>
      simp only
      have hm := List.mem_of_getLast? hw
      refine (safe_findProp h (h.ctx w hm).2).bind fun q hq => ?_
      cases q with
      | none => exact True.intro
      | some v =>
        refine ⟨hq.1 v rfl, .inr ?_⟩
        exact .step (.root hm) ⟨nNil, List.mem_cons_self, (hq.2 rfl nNil rfl).symm⟩

theorem safe_findOwn {t : St} (h : Ok t) {n : Nat} :
    Safe (findOwn t n) (fun r => (∀ v, r = some v → Val t v) ∧ ∀ v, r = some v → Path t [nMe, n] t.ctxs v) := by
  unfold findOwn
  refine (safe_find h).bind fun r hr => ?_
  cases r with
  | none => exact ⟨(fun _ h => nomatch h), (fun _ h => nomatch h)⟩
  | some m =>
    refine (safe_findProp h (hr.1 m rfl).2).mono fun q hq => ⟨hq.1, ?_⟩
    intro v hv
    obtain ⟨c, hc, e⟩ := hr.2 m rfl
    refine .step (.step (.root hc) ⟨nMe, List.mem_cons_self, e⟩) ⟨n, by simp, ?_⟩
    rw [← hv]
    exact (hq.2 rfl n rfl).symm

theorem Path.mono {t : St} {N N' R : List Nat} {x : Nat} (h : Path t N R x) (hN : ∀ n ∈ N, n ∈ N') : Path t N' R x := by
  induction h with
  | root h => exact .root h
  | step _ he ih =>
    obtain ⟨n, hn, e⟩ := he
    exact .step ih ⟨n, hN n hn, e⟩

/-- Changes that leave the properties alone. -/
theorem safe_same {t : St} (h : Ok t) {x : Nat} (hx : ∃ p, t.heap.mem x = some p) (hxn : ∀ n, t.kind x ≠ .name n) {f : Obj → Obj}
    (hp : ∀ o, (f o).props = o.props) (hm : ∀ o, (f o).methods = o.methods)
    (ho : ∀ o y, t.heap.mem x = some o → y ∈ (f o).outs → y ∈ o.outs ∨ Val t y) : Safe (change t x f) (Keep [] false t) := by
  refine safe_change h hx hxn ?_ ?_
  · intro o y eo
    refine ⟨ho o y eo, fun hy => .inl ?_⟩
    unfold Obj.keys at hy ⊢
    rw [hp, hm] at hy
    exact hy
  · intro o _ n _ _
    rw [hp]

theorem safe_hold {t : St} (h : Ok t) {r : Nat} (hr : Val t r) : Safe (hold t r) (fun p => Keep [] false t p.1) := by
  unfold hold
  refine (safe_obj hr.2).bind fun o _ => ?_
  refine (safe_same (f := fun o => { o with sticky := true }) h hr.2 hr.not_name (fun _ => rfl) (fun _ => rfl)
    (fun _ _ _ hy => .inl hy)).bind fun a ha => ?_
  exact ha

theorem safe_letGo {t : St} (h : Ok t) {r : Nat} {b : Bool} (hr : Val t r) : Safe (letGo t r b) (Keep [] false t) :=
  safe_same h hr.2 hr.not_name (fun _ => rfl) (fun _ => rfl) (fun _ _ _ hy => .inl hy)

theorem safe_var {regs : List Nat} {i : Nat} : Safe (var? regs i) (fun v => regs[i]? = some v) := by
  cases e : var? regs i with
  | ok v => exact var_ok.1 e
  | ub =>
    unfold var? at e
    split at e <;> cases e
  | exit => exact True.intro

theorem safe_seqAt {t : St} {x : Nat} (hx : ∃ p, t.heap.mem x = some p) :
    Safe (seqAt t x) (fun o => t.heap.mem x = some o ∧ o.isArray = true) := by
  unfold seqAt
  refine (safe_obj hx).bind fun o eo => ?_
  by_cases ha : o.isArray = true
  · rw [if_pos ha]; exact ⟨eo, ha⟩
  · rw [if_neg ha]; exact True.intro

/-- All C variables hold existing values. -/
def Vals (t : St) (regs : List Nat) : Prop := ∀ v ∈ regs, Val t v

theorem Vals.at {t : St} {regs : List Nat} (h : Vals t regs) {i v : Nat} (e : regs[i]? = some v) : Val t v := h v (List.mem_of_getElem? e)

theorem Vals.keep {W : List Nat} {i : Bool} {a b : St} {regs : List Nat} (h : Vals a regs) (hk : Keep W i a b) : Vals b regs :=
  fun v hv => hk.val (h v hv)

theorem Vals.snoc {t : St} {regs : List Nat} {v : Nat} (h : Vals t regs) (hv : Val t v) : Vals t (regs ++ [v]) := by
  intro w hw
  rcases List.mem_append.1 hw with hw | hw
  · exact h w hw
  · rw [List.mem_singleton] at hw
    subst hw
    exact hv

theorem safe_basic {t : St} (h : Ok t) {c : Nat} {rest regs : List Nat} (hc : t.ctxs = c :: rest) (hr : Vals t regs) (b : Basic) :
    Safe (basic t regs b) (fun p => Keep (writesOf b) false t p.1 ∧ Vals p.1 p.2 ∧ p.2.length = regs.length + grows b) := by
  cases b with
  | new a =>
    have k := keep_make h .value a false
    refine ⟨k, (hr.keep k).snoc ⟨by simp [make], _, upd_same _ _ _⟩, by simp [grows]⟩
  | elem i j =>
    simp only [basic]
    refine safe_var.bind fun x ex => (safe_seqAt (hr.at ex).2).bind fun o ho => ?_
    refine (safe_orNil h hc ?_).bind fun v hv => ⟨Keep.refl h _ _, hr.snoc hv.1, by simp [grows]⟩
    intro v hv
    refine h.outs x o ho.1 v ?_
    simp only [Obj.outs, List.mem_append]
    exact .inl (.inl (by rw [if_pos ho.2]; exact List.mem_of_getElem? hv))
  | get m i n =>
    simp only [basic]
    refine safe_var.bind fun x ex => (safe_findProp h (hr.at ex).2).bind fun q hq => ?_
    exact (safe_orNil h hc hq.1).bind fun v hv => ⟨Keep.refl h _ _, hr.snoc hv.1, by simp [grows]⟩
  | put m i n v =>
    simp only [basic]
    refine safe_var.bind fun x ex => safe_var.bind fun w ew => ?_
    refine (safe_setProp h (hr.at ex).2 (hr.at ex).not_name (hr.at ew)).bind fun a ha => ⟨ha.mono ?_, hr.keep ha, rfl⟩
    intro k hk
    cases n with
    | zero => cases hk
    | succ j => exact hk
  | del m i n =>
    simp only [basic]
    refine safe_var.bind fun x ex => ?_
    refine (safe_del h (hr.at ex).2 (hr.at ex).not_name).bind fun a ha => ⟨ha.mono ?_, hr.keep ha, rfl⟩
    intro k hk
    cases n with
    | zero => cases hk
    | succ j => exact hk
  | push i v =>
    simp only [basic]
    refine safe_var.bind fun x ex => safe_var.bind fun w ew => (safe_seqAt (hr.at ex).2).bind fun o ho => ?_
    refine (safe_same (f := arrayPush w) h (hr.at ex).2 (hr.at ex).not_name (fun _ => rfl) (fun _ => rfl) ?_).bind
      fun a ha => ⟨ha, hr.keep ha, rfl⟩
    intro q y _ hy
    unfold Obj.outs arrayPush at hy
    unfold Obj.outs
    simp only [List.mem_append] at hy ⊢
    rcases hy with (hy | hy) | hy
    · split at hy
      · rename_i hq
        rcases List.mem_append.1 hy with hy | hy
        · exact .inl (.inl (.inl (by rw [if_pos hq]; exact hy)))
        · rw [List.mem_singleton] at hy
          subst hy
          exact .inr (hr.at ew)
      · cases hy
    · exact .inl (.inl (.inr hy))
    · exact .inl (.inr hy)
  | pop i =>
    simp only [basic]
    refine safe_var.bind fun x ex => (safe_seqAt (hr.at ex).2).bind fun o ho => ?_
    refine (safe_same (f := arrayPop) h (hr.at ex).2 (hr.at ex).not_name (fun o => by unfold arrayPop; split <;> rfl)
      (fun o => by unfold arrayPop; split <;> rfl) ?_).bind fun a ha => ⟨ha, hr.keep ha, rfl⟩
    intro q y _ hy
    refine .inl (outs_elems (o := q) ?_ ?_ hy)
    · unfold arrayPop; split <;> exact ⟨rfl, rfl, rfl⟩
    · intro z hz
      unfold arrayPop at hz
      split at hz
      · exact hz
      · exact List.dropLast_subset _ hz
  | shift i =>
    simp only [basic]
    refine safe_var.bind fun x ex => (safe_seqAt (hr.at ex).2).bind fun o ho => ?_
    refine (safe_same (f := arrayShift) h (hr.at ex).2 (hr.at ex).not_name (fun o => by unfold arrayShift; split <;> rfl)
      (fun o => by unfold arrayShift; split <;> rfl) ?_).bind fun a ha => ⟨ha, hr.keep ha, rfl⟩
    intro q y _ hy
    refine .inl (outs_elems (o := q) ?_ ?_ hy)
    · unfold arrayShift; split <;> exact ⟨rfl, rfl, rfl⟩
    · intro z hz
      unfold arrayShift at hz
      split at hz <;> exact hz
  | pin i =>
    simp only [basic]
    refine safe_var.bind fun x ex => ?_
    exact (safe_pin h hc (hr.at ex)).bind fun a ha => ⟨ha, hr.keep ha, rfl⟩

theorem safe_bindParams {c : Nat} {rest regs : List Nat} : ∀ {ps : List (Nat × Nat)} {t : St}, Ok t → t.ctxs = c :: rest → Vals t regs →
    Safe (bindParams regs t ps) (Keep [] true t)
  | [], t, h, _, _ => Keep.refl h _ _
  | (n, i) :: ps, t, h, hc, hr => by
    unfold bindParams
    refine safe_var.bind fun v ev => (safe_setLocal h hc (hr.at ev) true).bind fun a ha => ?_
    exact (safe_bindParams ha.ok (by rw [ha.ctxs, hc]) (hr.keep ha)).mono fun b hb => (ha.trans hb).mono (by simp)

theorem safe_bindSelf {t : St} (h : Ok t) {c b : Nat} {rest : List Nat} {my : Option Nat} (hc : t.ctxs = c :: rest) (hb : Val t b)
    (hm : ∀ m, my = some m → Val t m) : Safe (bindSelf t b my) (Keep [] true t) := by
  unfold bindSelf
  cases my with
  | none =>
    rw [bind_ok]
    exact safe_setLocal h hc hb true
  | some m =>
    refine (safe_setLocal h hc (hm m rfl) true).bind fun a ha => ?_
    exact (safe_setLocal ha.ok (by rw [ha.ctxs, hc]) (ha.val hb) true).mono fun d hd => (ha.trans hd).mono (by simp)

theorem ok_open {t : St} (h : Ok t) : Ok (openScope t) := by
  have k := ok_make h .scope false true
  have hfr : t.heap.fresh ∉ t.ctxs := fun hc => by have := h.ctx_lt hc; omega
  refine ⟨k.lt, k.outs, k.keys, k.plain, ?_, List.nodup_cons.2 ⟨hfr, h.nodup⟩⟩
  intro c hc
  rcases List.mem_cons.1 hc with rfl | hc
  · exact ⟨by simp [openScope, make], _, upd_same _ _ _⟩
  · exact k.ctx c hc

/-- The end of a called block. -/
theorem safe_leave {a t : St} {b : Nat} {my answer : Option Nat} {W : List Nat} {c : Nat} {rest : List Nat} (ha : Ok a)
    (hc : a.ctxs = c :: rest) (hk : Keep W true (openScope a) t) (hv : Val t (answer.getD (my.getD b))) :
    Safe (leave t b my answer) (fun p => Keep W false a p.1 ∧ Val p.1 p.2) := by
  unfold leave
  simp only
  have hct : t.ctxs = a.heap.fresh :: a.ctxs := hk.ctxs
  have km := keep_make ha .scope false true
  have hm : a.heap.fresh ∈ t.ctxs := by rw [hct]; exact List.mem_cons_self
  have hclose : Safe (closeScope t) (fun u => Keep W false a u ∧ Val u (answer.getD (my.getD b))) := by
    unfold closeScope
    rw [hct]
    simp only
    refine (safe_same (f := fun o => { o with sticky := false }) hk.ok (hk.ok.ctx _ hm).2 (hk.ok.ctx_kind hm) (fun _ => rfl)
      (fun _ => rfl) (fun _ _ _ hy => .inl hy)).bind fun u hu => ?_
    have hnd := hk.ok.nodup
    rw [hct] at hnd
    obtain ⟨_, hndr⟩ := List.nodup_cons.1 hnd
    refine ⟨⟨⟨hu.ok.lt, hu.ok.outs, hu.ok.keys, hu.ok.plain, ?_, hndr⟩, rfl, ?_, ?_⟩, hu.val hv⟩
    · intro d hd
      exact hu.ok.ctx d (by rw [hu.ctxs, hct]; exact List.mem_cons_of_mem _ hd)
    · intro x hx
      obtain ⟨h1, h2⟩ := km.kind x hx
      obtain ⟨h3, h4⟩ := hk.kind x h1
      obtain ⟨h5, h6⟩ := hu.kind x h3
      exact ⟨h5, h6.trans (h4.trans h2)⟩
    · intro n hn y hy _
      have h1 := km.vars n (by simp) y hy (fun h => nomatch h)
      have hyn : y ≠ a.heap.fresh := by
        obtain ⟨p, ep⟩ := hy
        have := ha.lt y p ep
        omega
      have h2 := hk.vars n hn y (km.kind y hy).1 (by
        rintro _ d r hd rfl
        have : (openScope a).ctxs = a.heap.fresh :: a.ctxs := rfl
        rw [this] at hd
        cases hd
        exact hyn rfl)
      have h3 := hu.vars n (by simp) y (hk.kind y (km.kind y hy).1).1 (fun h => nomatch h)
      have h4 : propOf { u with ctxs := a.ctxs } y n = propOf u y n := rfl
      rw [h4, h3, h2]
      exact h1
  refine hclose.bind fun u hu => ?_
  by_cases hi : u.inMsg > 0
  · rw [if_pos hi]
    refine (safe_pin hu.1.ok (by rw [hu.1.ctxs, hc]) hu.2).bind fun w hw => ?_
    exact ⟨(hu.1.trans hw).mono (by simp), hw.val hu.2⟩
  · rw [if_neg hi]
    exact hu

theorem safe_varvar {regs : List Nat} {my : Option Nat} :
    Safe (var?? regs my) (fun me => ∀ m, me = some m → ∃ i, my = some i ∧ regs[i]? = some m) := by
  cases my with
  | none => exact fun m hm => nomatch hm
  | some i =>
    refine safe_var.bind fun m em => ?_
    intro w hw
    cases hw
    exact ⟨i, rfl, em⟩

mutual
theorem safe_eval {t : St} (h : Ok t) {c : Nat} {rest : List Nat} (hc : t.ctxs = c :: rest) (i : Bool) (x : Exp) :
    Safe (eval false t x) (fun p => Keep (writesExp i x) i t p.1 ∧ Val p.1 p.2) := by
  match x with
  | .lit =>
    rw [eval]
    exact ⟨(keep_make h _ _ _).weak i, by simp [make], _, upd_same _ _ _⟩
  | .ref n =>
    rw [eval]
    refine (safe_find h).bind fun r hr => (safe_orNil h hc hr.1).bind fun v hv => ?_
    exact ⟨Keep.refl h _ _, hv.1⟩
  | .own n =>
    rw [eval]
    refine (safe_findOwn h).bind fun r hr => (safe_orNil h hc hr.1).bind fun v hv => ?_
    exact ⟨Keep.refl h _ _, hv.1⟩
  | .loc n y =>
    rw [eval]
    refine (safe_eval h hc i y).bind fun p hp => ?_
    refine (safe_setLocal hp.1.ok (by rw [hp.1.ctxs, hc]) hp.2 i).bind fun a ha => ⟨(hp.1.trans ha).mono ?_, ha.val hp.2⟩
    intro k hk
    rw [writesExp]
    exact List.mem_append.2 (List.mem_append.1 hk).symm
  | .var n y =>
    rw [eval]
    refine (safe_eval h hc i y).bind fun p hp => ?_
    refine (safe_setVar hp.1.ok hp.2).bind fun a ha => ⟨(hp.1.trans (ha.weak i)).mono ?_, ha.val hp.2⟩
    intro k hk
    rw [writesExp]
    rcases List.mem_append.1 hk with hk | hk
    · exact List.mem_cons_of_mem _ hk
    · rw [List.mem_singleton] at hk
      subst hk
      exact List.mem_cons_self
  | .ownSet n y =>
    rw [eval]
    refine (safe_eval h hc i y).bind fun p hp => ?_
    refine (safe_setOwn hp.1.ok hp.2).bind fun a ha => ⟨(hp.1.trans (ha.weak i)).mono ?_, ha.val hp.2⟩
    intro k hk
    rw [writesExp]
    rcases List.mem_append.1 hk with hk | hk
    · exact List.mem_cons_of_mem _ hk
    · rw [List.mem_singleton] at hk
      subst hk
      exact List.mem_cons_self
  | .msg recv ms =>
    rw [eval]
    refine (safe_eval h hc i recv).bind fun p hp => ?_
    refine (safe_chain hp.1.ok (by rw [hp.1.ctxs, hc]) i hp.2 ms).mono fun q hq => ⟨(hp.1.trans hq.1).mono ?_, hq.2⟩
    intro k hk
    rw [writesExp]
    exact hk

theorem safe_chain {t : St} (h : Ok t) {c : Nat} {rest : List Nat} (hc : t.ctxs = c :: rest) (i : Bool) {r level : Nat} {lit : Bool}
    (hr : Val t r) (ms : List Msg) :
    Safe (chain false t level lit r ms) (fun p => Keep (writesMsgs i ms) i t p.1 ∧ Val p.1 p.2) := by
  match ms with
  | [] =>
    rw [chain]
    exact ⟨Keep.refl h _ _, hr⟩
  | .mk args steps res :: ms =>
    rw [chain]
    refine (safe_hold (h.setMsg level) hr).bind fun p1 k1 => ?_
    obtain ⟨t1, old⟩ := p1
    simp only at k1 ⊢
    have k1 : Keep [] false t t1 := ⟨k1.ok, k1.ctxs, k1.kind, k1.vars⟩
    have c1 : t1.ctxs = c :: rest := by rw [k1.ctxs]; exact hc
    have r1 : Val t1 r := k1.val hr
    have hp : Safe (if lit then pin t1 r else .ok t1) (Keep [] false t1) := by
      cases lit with
      | true => exact safe_pin k1.ok c1 r1
      | false => exact Keep.refl k1.ok _ _
    refine hp.bind fun t2 k2 => ?_
    have c2 : t2.ctxs = c :: rest := by rw [k2.ctxs, c1]
    have r2 := k2.val r1
    refine (safe_args k2.ok c2 i args).bind fun p3 hp3 => ?_
    obtain ⟨t3, vs⟩ := p3
    obtain ⟨k3, v3, _⟩ := hp3
    simp only at k3 v3 ⊢
    have c3 : t3.ctxs = c :: rest := by rw [k3.ctxs, c2]
    refine (safe_steps k3.ok c3 (regs := r :: vs) (by
      intro w hw
      rcases List.mem_cons.1 hw with rfl | hw
      · exact k3.val r2
      · exact v3 w hw) steps).bind fun p4 hp4 => ?_
    obtain ⟨t4, regs⟩ := p4
    obtain ⟨k4, v4⟩ := hp4
    simp only at k4 v4 ⊢
    refine safe_var.bind fun v ev => ?_
    have w4 := v4.at ev
    refine (safe_letGo k4.ok (k4.val (k3.val r2))).bind fun t5 k5 => ?_
    have c5 : t5.ctxs = c :: rest := by rw [k5.ctxs, k4.ctxs, c3]
    refine (safe_unpin k5.ok c5).bind fun t6 k6 => ?_
    have c6 : t6.ctxs = c :: rest := by rw [k6.ctxs, c5]
    refine (safe_chain k6.ok c6 i (k6.val (k5.val w4)) ms).bind fun p7 hp7 => ?_
    obtain ⟨t7, w⟩ := p7
    obtain ⟨k7, v7⟩ := hp7
    simp only at k7 v7 ⊢
    have kk := ((((((k1.weak i).trans (k2.weak i)).trans k3).trans (k4.weak i)).trans (k5.weak i)).trans (k6.weak i)).trans k7
    refine ⟨?_, v7⟩
    have := keep_msg kk t.inMsg level
    refine Keep.mono ⟨this.ok, this.ctxs, this.kind, this.vars⟩ ?_
    intro k hk
    rw [writesMsgs]
    simpa using hk

theorem safe_args {t : St} (h : Ok t) {c : Nat} {rest : List Nat} (hc : t.ctxs = c :: rest) (i : Bool) (args : List Exp) :
    Safe (evalArgs false t args) (fun p => Keep (writesArgs i args) i t p.1 ∧ Vals p.1 p.2 ∧ p.2.length = args.length) := by
  match args with
  | [] =>
    rw [evalArgs]
    exact ⟨Keep.refl h _ _, (fun _ h => nomatch h), rfl⟩
  | x :: xs =>
    rw [evalArgs]
    refine (safe_eval (h.setMsg (t.inMsg + 1)) hc i x).bind fun p1 hp1 => ?_
    obtain ⟨t1, v⟩ := p1
    obtain ⟨k1, v1⟩ := hp1
    simp only at k1 v1 ⊢
    have c1 : t1.ctxs = c :: rest := by rw [k1.ctxs]; exact hc
    refine (safe_pin (k1.ok.setMsg t.inMsg) c1 v1).bind fun t2 k2 => ?_
    have c2 : t2.ctxs = c :: rest := by rw [k2.ctxs]; exact c1
    refine (safe_args k2.ok c2 i xs).bind fun p3 hp3 => ?_
    obtain ⟨t3, vs⟩ := p3
    obtain ⟨k3, v3, l3⟩ := hp3
    simp only at k3 v3 l3 ⊢
    have ka := keep_msg k1 t.inMsg t.inMsg
    have ka : Keep (writesExp i x) i t { t1 with inMsg := t.inMsg } := ⟨ka.ok, ka.ctxs, ka.kind, ka.vars⟩
    refine ⟨((ka.trans (k2.weak i)).trans k3).mono ?_, ?_, by simp [l3]⟩
    · intro k hk
      rw [writesArgs]
      simpa using hk
    · intro w hw
      rcases List.mem_cons.1 hw with rfl | hw
      · exact k3.val (k2.val v1)
      · exact v3 w hw

theorem safe_steps {t : St} (h : Ok t) {c : Nat} {rest regs : List Nat} (hc : t.ctxs = c :: rest) (hr : Vals t regs) (steps : List Step) :
    Safe (native false t regs steps) (fun p => Keep (writesSteps steps) false t p.1 ∧ Vals p.1 p.2) := by
  match steps with
  | [] =>
    rw [native]
    exact ⟨Keep.refl h _ _, hr⟩
  | .basic b :: l =>
    rw [native]
    refine (safe_basic h hc hr b).bind fun p1 hp1 => ?_
    obtain ⟨t1, regs1⟩ := p1
    obtain ⟨k1, v1, _⟩ := hp1
    simp only at k1 v1 ⊢
    refine (safe_steps k1.ok (by rw [k1.ctxs, hc]) v1 l).mono fun q hq => ⟨(k1.trans hq.1).mono ?_, hq.2⟩
    intro k hk
    rw [writesSteps]
    exact hk
  | .clean :: l =>
    rw [native]
    refine (safe_steps h hc hr l).mono fun q hq => ⟨hq.1.mono ?_, hq.2⟩
    intro k hk
    rw [writesSteps]
    exact hk
  | .run b ps my body :: l =>
    rw [native]
    refine safe_var.bind fun blk eb => safe_varvar.bind fun me hme => (safe_obj (hr.at eb).2).bind fun _ _ => ?_
    have km := keep_make h .scope false true
    have ho := ok_open h
    have co : (openScope t).ctxs = t.heap.fresh :: t.ctxs := rfl
    have vo : Vals (openScope t) regs := fun v hv => km.val (hr v hv)
    have vme : ∀ m, me = some m → Val (openScope t) m := by
      intro m hm
      obtain ⟨j, _, ej⟩ := hme m hm
      exact vo.at ej
    refine (safe_bindParams ho co vo).bind fun t1 k1 => ?_
    refine (safe_bindSelf k1.ok (by rw [k1.ctxs, co]) (k1.val (vo.at eb)) (fun m hm => k1.val (vme m hm))).bind fun t2 k2 => ?_
    refine (safe_stmts k2.ok (by rw [k2.ctxs, k1.ctxs, co]) body).bind fun p3 hp3 => ?_
    obtain ⟨t3, answer⟩ := p3
    obtain ⟨k3, v3⟩ := hp3
    simp only at k3 v3 ⊢
    have kk : Keep (writesStmts body) true (openScope t) t3 := ((k1.trans k2).trans k3).mono (by simp)
    refine (safe_leave h hc kk (by
      cases answer with
      | some a => exact v3 a rfl
      | none =>
        cases me with
        | none => exact kk.val (vo.at eb)
        | some m => exact kk.val (vme m rfl))).bind fun p4 hp4 => ?_
    obtain ⟨t4, v⟩ := p4
    obtain ⟨k4, v4⟩ := hp4
    simp only at k4 v4 ⊢
    refine (safe_steps k4.ok (by rw [k4.ctxs, hc]) ((hr.keep k4).snoc v4) l).mono fun q hq => ⟨(k4.trans hq.1).mono ?_, hq.2⟩
    intro k hk
    rw [writesSteps]
    exact hk

theorem safe_stmts {t : St} (h : Ok t) {c : Nat} {rest : List Nat} (hc : t.ctxs = c :: rest) (ss : List Stmt) :
    Safe (stmts false t ss) (fun p => Keep (writesStmts ss) true t p.1 ∧ (∀ v, p.2 = some v → Val p.1 v)) := by
  match ss with
  | [] =>
    rw [stmts]
    exact ⟨Keep.refl h _ _, fun _ h => nomatch h⟩
  | .mk x ret gc :: ss =>
    rw [stmts]
    refine (safe_eval h hc true x).bind fun p1 hp1 => ?_
    obtain ⟨t1, v⟩ := p1
    obtain ⟨k1, v1⟩ := hp1
    simp only at k1 v1 ⊢
    cases ret with
    | true =>
      refine ⟨k1.mono ?_, ?_⟩
      · intro k hk
        rw [writesStmts]
        exact List.mem_append.2 (.inl hk)
      · intro w hw
        cases hw
        exact v1
    | false =>
      refine (safe_stmts k1.ok (by rw [k1.ctxs, hc]) ss).mono fun q hq => ⟨(k1.trans hq.1).mono ?_, hq.2⟩
      intro k hk
      rw [writesStmts]
      exact hk
end

end Verif.Model.Temp
