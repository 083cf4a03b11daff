import Verif.Lemmas.Temp

/-! Helper lemmas about intermediate values: the steps of the walker in both runs. -/

namespace Verif.Model.Temp

open Verif.Model.GC
open Verif.Spec.GC (Reach)

theorem filter_eraseP_of_disjoint {α : Type} {p q : α → Bool} (h : ∀ a, q a = true → p a = false) :
    ∀ l : List α, (l.eraseP q).filter p = l.filter p
  | [] => rfl
  | a :: l => by
    by_cases hq : q a = true
    · rw [List.eraseP_cons_of_pos hq, List.filter_cons_of_neg (by rw [h a hq]; exact Bool.noConfusion)]
    · rw [List.eraseP_cons_of_neg hq]
      by_cases hp : p a = true
      · rw [List.filter_cons_of_pos hp, List.filter_cons_of_pos hp, filter_eraseP_of_disjoint h l]
      · rw [List.filter_cons_of_neg hp, List.filter_cons_of_neg hp, filter_eraseP_of_disjoint h l]

theorem filter_eraseP_same {α : Type} {p : α → Bool} : ∀ l : List α, (l.eraseP p).filter p = (l.filter p).drop 1
  | [] => rfl
  | a :: l => by
    by_cases hp : p a = true
    · rw [List.eraseP_cons_of_pos hp, List.filter_cons_of_pos hp]; rfl
    · rw [List.eraseP_cons_of_neg hp, List.filter_cons_of_neg hp, List.filter_cons_of_neg hp, filter_eraseP_same l]

theorem pins_eq {t : St} {c : Nat} {o : Obj} (e : t.heap.mem c = some o) :
    pins t c = (o.props.filter (isNamed t.kind 0)).map (·.2) := by
  unfold pins; rw [e]

theorem frame_del {t t' : St} {m : Bool} {x n : Nat} (e : delProp t m x n = .ok t') (hn : x ∈ t.ctxs → n ≠ 0) : Frame t t' := by
  refine frame_change e (fun o hs => by rw [drop_sticky]; exact hs) ?_
  intro o eo hx
  rw [pins_eq eo]
  unfold dropNamed
  split
  · exact List.suffix_rfl
  · simp only
    rw [filter_eraseP_of_disjoint]
    · exact List.suffix_rfl
    · intro a ha
      simp only [isNamed, beq_iff_eq] at ha
      have := hn hx
      rw [isNamed, ha]
      simpa using this

theorem addProp_ok {t t' : St} {m : Bool} {x n v : Nat} (e : addProp t m x n v = .ok t') :
    change (make t (.name n) false false).1 x (addItem m t.heap.fresh v) = .ok t' := e

theorem frame_add {t t' : St} (h : Ok t) {m : Bool} {x n v : Nat} (e : addProp t m x n v = .ok t') : Frame t t' := by
  refine (frame_make h (.name n) false false).trans (frame_change (addProp_ok e) (fun o hs => by
    rw [(addItem_flags m _ v o).2.2]; exact hs) ?_)
  intro o eo _
  rw [pins_eq eo]
  unfold addItem
  split
  · exact List.suffix_rfl
  · simp only [List.filter_cons]
    split
    · exact List.suffix_cons _ _
    · exact List.suffix_rfl

theorem Sim.setProp {s t t' : St} {G : List Nat} (h : Sim s t G) {m : Bool} {x n v : Nat} (hx : Held t G x)
    (hxn : ∀ n, t.kind x ≠ .name n) (hv : v ∈ G) (hn : x ∈ t.ctxs → n ≠ 0) (e : Temp.setProp t m x n v = .ok t')
    (hxk : x ∈ t.ctxs ∨ x ∈ G) :
    ∃ s', Temp.setProp s m x n v = .ok s' ∧ Sim s' t' G ∧ Frame t t' := by
  unfold Temp.setProp at e ⊢
  obtain ⟨t1, e1, e2⟩ := of_bind e
  obtain ⟨s1, e3, h1⟩ := h.delProp hx hxn e1
  have f1 := frame_del e1 hn
  have hx1 : Held t1 G x := by
    refine .root ?_
    rw [f1.ctxs]
    exact List.mem_append.2 hxk
  have hk1 : ∀ y, (∃ p, t.heap.mem y = some p) → t1.kind y = t.kind y := fun y hy => (f1.kind y hy).2
  obtain ⟨s2, e4, h2⟩ := h1.addProp hx1 (by
    intro k
    rw [hk1 x (h.ok.held h.vals hx).1]
    exact hxn k) (.root (List.mem_append.2 (.inr hv))) (h1.vals v hv).1 e2
  exact ⟨s2, by rw [e3]; exact e4, h2, f1.trans (frame_add h1.ok e2)⟩

theorem pins_pin {t t' : St} {c v : Nat} {rest : List Nat} (h : Ok t) (hc : t.ctxs = c :: rest) (e : pin t v = .ok t') :
    pins t' c = v :: pins t c := by
  unfold pin at e
  rw [hc] at e
  have e := addProp_ok e
  obtain ⟨o, eo, _⟩ := change_ok e
  rw [pins_change_same eo e]
  have : (addItem false t.heap.fresh v o).props = (t.heap.fresh, v) :: o.props := rfl
  rw [this, List.filter_cons_of_pos (by simp [isNamed, make]), List.map_cons, ← pins_eq eo]
  rw [pins_make h _ _ _ (h.ctx_lt (by rw [hc]; exact List.mem_cons_self))]

/-- Scopes are not names. -/
theorem Ok.ctx_kind {t : St} (h : Ok t) {c : Nat} (hc : c ∈ t.ctxs) (n : Nat) : t.kind c ≠ .name n := by
  rw [(h.ctx c hc).1]
  exact Kind.noConfusion

theorem Sim.pin {s t t' : St} {G : List Nat} (h : Sim s t G) {v : Nat} (hv : v ∈ G) (e : Temp.pin t v = .ok t') :
    ∃ s', Temp.pin s v = .ok s' ∧ Sim s' t' G ∧ Frame t t' := by
  unfold Temp.pin at e ⊢
  rw [h.ctxs]
  cases hc : t.ctxs with
  | nil => rw [hc] at e; cases e
  | cons c rest =>
    rw [hc] at e
    simp only at e ⊢
    have hm : c ∈ t.ctxs := by rw [hc]; exact List.mem_cons_self
    obtain ⟨s', e1, h1⟩ := h.addProp (h.ctxHeld hm) (h.ok.ctx_kind hm) (.root (List.mem_append.2 (.inr hv))) (h.vals v hv).1 e
    exact ⟨s', e1, h1, frame_add h.ok e⟩

/-- Unpinning takes away the pins made last, in the innermost scope only. -/
theorem Sim.unpin {s t t' : St} {G : List Nat} : ∀ {k : Nat}, Sim s t G → Temp.unpin t k = .ok t' →
    ∃ s', Temp.unpin s k = .ok s' ∧ Sim s' t' G ∧ t'.ctxs = t.ctxs ∧
      (∀ x, (∃ p, t.heap.mem x = some p) → (∃ p, t'.heap.mem x = some p) ∧ t'.kind x = t.kind x) ∧
      (∀ c rest, t.ctxs = c :: rest → pins t' c = (pins t c).drop k ∧ ∀ d ∈ rest, pins t' d = pins t d)
  | 0, h, e => by
    cases e
    exact ⟨s, rfl, h, rfl, fun _ hx => ⟨hx, rfl⟩, fun _ _ _ => ⟨rfl, fun _ _ => rfl⟩⟩
  | k + 1, h, e => by
    unfold Temp.unpin at e ⊢
    rw [h.ctxs]
    cases hc : t.ctxs with
    | nil => rw [hc] at e; cases e
    | cons c rest =>
      rw [hc] at e
      simp only at e ⊢
      obtain ⟨t1, e1, e2⟩ := of_bind e
      have hm : c ∈ t.ctxs := by rw [hc]; exact List.mem_cons_self
      obtain ⟨s1, e3, h1⟩ := h.delProp (h.ctxHeld hm) (h.ok.ctx_kind hm) e1
      obtain ⟨o, eo, ht1⟩ := change_ok e1
      have hct : t1.ctxs = t.ctxs := by rw [ht1]
      obtain ⟨s2, e4, h2, c2, k2, p2⟩ := Sim.unpin h1 e2
      refine ⟨s2, by rw [e3]; exact e4, h2, by rw [c2, hct, hc], ?_, ?_⟩
      · intro x hx
        have : (∃ p, t1.heap.mem x = some p) ∧ t1.kind x = t.kind x := by
          rw [ht1]
          refine ⟨?_, rfl⟩
          by_cases hxc : x = c
          · exact ⟨_, by rw [hxc]; exact upd_same _ _ _⟩
          · obtain ⟨p, ep⟩ := hx
            exact ⟨p, by rw [← ep]; exact upd_ne _ _ hxc⟩
        obtain ⟨h3, h4⟩ := k2 x this.1
        exact ⟨h3, h4.trans this.2⟩
      · intro c' rest' he
        cases he
        obtain ⟨q1, q2⟩ := p2 c rest (by rw [hct, hc])
        constructor
        · rw [q1, pins_change_same eo e1]
          have : (dropNamed t.kind false 0 o).props = o.props.eraseP (isNamed t.kind 0) := rfl
          rw [this, filter_eraseP_same, List.map_drop, ← pins_eq eo, List.drop_drop]
          congr 1
          omega
        · intro d hd
          rw [q2 d hd]
          refine pins_change_ne e1 ?_
          rintro rfl
          have := h.ok.nodup
          rw [hc] at this
          exact (List.nodup_cons.1 this).1 hd

theorem Sim.lookup {s t : St} {G : List Nat} (h : Sim s t G) {n : Nat} {l : List (Nat × Nat)} {r : Option Nat}
    (hl : ∀ p ∈ l, Held t G p.1) (e : Temp.lookup t n l = .ok r) :
    Temp.lookup s n l = .ok r ∧ ∀ v, r = some v → ∃ p ∈ l, p.2 = v := by
  unfold Temp.lookup at e ⊢
  rw [h.kind]
  cases hf : l.find? (isNamed t.kind n) with
  | none =>
    rw [hf] at e
    cases e
    exact ⟨rfl, fun _ h => nomatch h⟩
  | some p =>
    obtain ⟨k, v⟩ := p
    rw [hf] at e
    simp only at e ⊢
    have hm := List.mem_of_find?_eq_some hf
    obtain ⟨o, eo, e2⟩ := of_bind e
    obtain ⟨o', eo', _⟩ := h.obj (hl _ hm) eo
    rw [eo']
    cases e2
    exact ⟨rfl, fun w hw => ⟨_, hm, by cases hw; rfl⟩⟩

theorem Sim.findProp {s t : St} {G : List Nat} (h : Sim s t G) {m : Bool} {x n : Nat} (hx : Held t G x) {r : Option Nat}
    (e : Temp.findProp t m x n = .ok r) :
    Temp.findProp s m x n = .ok r ∧ ∀ v, r = some v → Held t G v ∧ t.kind v = .value := by
  unfold Temp.findProp at e ⊢
  obtain ⟨o, eo, e2⟩ := of_bind e
  obtain ⟨o', eo', hl, em, em'⟩ := h.obj hx eo
  rw [eo', bind_ok]
  obtain ⟨p1, p2, _⟩ := Obj.Like.props hl
  rw [p1, p2]
  have hk : ∀ p ∈ (if m then o.methods else o.props), p.1 ∈ o.keys ∧ p.2 ∈ o.outs := by
    intro p hp
    simp only [Obj.keys, Obj.outs, List.mem_append, List.mem_map]
    split at hp
    · exact ⟨.inr ⟨p, hp, rfl⟩, .inr ⟨p, hp, rfl⟩⟩
    · exact ⟨.inl ⟨p, hp, rfl⟩, .inl (.inr ⟨p, hp, rfl⟩)⟩
  obtain ⟨h1, h2⟩ := h.lookup (fun p hp => .step hx ⟨o, em', .inr (hk p hp).1⟩) e2
  refine ⟨h1, ?_⟩
  intro v hv
  obtain ⟨p, hp, rfl⟩ := h2 v hv
  exact ⟨.step hx ⟨o, em', .inl (hk p hp).2⟩, (h.ok.outs x o em' _ (hk p hp).2).1⟩

theorem Sim.findIn {s t : St} {G : List Nat} (h : Sim s t G) {n : Nat} : ∀ {l : List Nat} {r : Option Nat},
    (∀ c ∈ l, c ∈ t.ctxs) → Temp.findIn t n l = .ok r →
    Temp.findIn s n l = .ok r ∧ ∀ v, r = some v → Held t G v ∧ t.kind v = .value
  | [], r, _, e => by
    cases e
    exact ⟨rfl, fun _ h => nomatch h⟩
  | c :: l, r, hl, e => by
    unfold Temp.findIn at e ⊢
    obtain ⟨q, e1, e2⟩ := of_bind e
    obtain ⟨h1, h2⟩ := h.findProp (h.ctxHeld (hl c List.mem_cons_self)) e1
    rw [h1, bind_ok]
    cases q with
    | some v => cases e2; exact ⟨rfl, h2⟩
    | none => exact h.findIn (fun d hd => hl d (List.mem_cons_of_mem _ hd)) e2

theorem Sim.find {s t : St} {G : List Nat} (h : Sim s t G) {n : Nat} {r : Option Nat} (e : Temp.find t n = .ok r) :
    Temp.find s n = .ok r ∧ ∀ v, r = some v → Held t G v ∧ t.kind v = .value := by
  unfold Temp.find at e ⊢
  rw [h.ctxs]
  exact h.findIn (fun _ h => h) e

theorem Sim.ownerIn {s t : St} {G : List Nat} (h : Sim s t G) {n : Nat} : ∀ {l : List Nat} {r : Option Nat},
    (∀ c ∈ l, c ∈ t.ctxs) → Temp.ownerIn t n l = .ok r →
    Temp.ownerIn s n l = .ok r ∧ ∀ c, r = some c → c ∈ t.ctxs
  | [], r, _, e => by
    cases e
    exact ⟨rfl, fun _ h => nomatch h⟩
  | c :: l, r, hl, e => by
    unfold Temp.ownerIn at e ⊢
    obtain ⟨q, e1, e2⟩ := of_bind e
    obtain ⟨h1, h2⟩ := h.findProp (h.ctxHeld (hl c List.mem_cons_self)) e1
    rw [h1, bind_ok]
    cases q with
    | some v => cases e2; exact ⟨rfl, fun d hd => by cases hd; exact hl c List.mem_cons_self⟩
    | none => exact h.ownerIn (fun d hd => hl d (List.mem_cons_of_mem _ hd)) e2

theorem Sim.setLocal {s t t' : St} {G : List Nat} (h : Sim s t G) {n v : Nat} (hv : v ∈ G) (e : Temp.setLocal t n v = .ok t') :
    ∃ s', Temp.setLocal s n v = .ok s' ∧ Sim s' t' G ∧ Frame t t' := by
  unfold Temp.setLocal at e ⊢
  rw [h.ctxs]
  cases hc : t.ctxs with
  | nil => rw [hc] at e; cases e
  | cons c rest =>
    rw [hc] at e
    simp only at e ⊢
    have hm : c ∈ t.ctxs := by rw [hc]; exact List.mem_cons_self
    exact h.setProp (h.ctxHeld hm) (h.ok.ctx_kind hm) hv (fun _ => by omega) e (.inl hm)

theorem Sim.setVar {s t t' : St} {G : List Nat} (h : Sim s t G) {n v : Nat} (hv : v ∈ G) (e : Temp.setVar t n v = .ok t') :
    ∃ s', Temp.setVar s n v = .ok s' ∧ Sim s' t' G ∧ Frame t t' := by
  unfold Temp.setVar at e ⊢
  obtain ⟨r, e1, e2⟩ := of_bind e
  obtain ⟨h1, h2⟩ := h.ownerIn (fun _ h => h) e1
  rw [h.ctxs, h1, bind_ok]
  cases r with
  | none => cases e2; exact ⟨s, rfl, h, Frame.refl _⟩
  | some c =>
    have hm := h2 c rfl
    exact h.setProp (h.ctxHeld hm) (h.ok.ctx_kind hm) hv (fun _ => by omega) e2 (.inl hm)

theorem value_not_ctx {t : St} (h : Ok t) {x : Nat} (hx : t.kind x = .value) : x ∉ t.ctxs := by
  intro hc
  rw [(h.ctx x hc).1] at hx
  cases hx

theorem value_not_name {t : St} {x : Nat} (hx : t.kind x = .value) (n : Nat) : t.kind x ≠ .name n := by
  rw [hx]
  exact Kind.noConfusion

theorem Sim.more {s t : St} {G : List Nat} (h : Sim s t G) {x : Nat} (hx : Held t G x) (hk : t.kind x = .value) : Sim s t (x :: G) :=
  h.weaken fun y hy => by
    rcases List.mem_cons.1 hy with rfl | hy
    · exact ⟨hk, hx⟩
    · exact ⟨(h.vals y hy).1, .root (List.mem_append.2 (.inr hy))⟩

theorem Sim.setOwn {s t t' : St} {G : List Nat} (h : Sim s t G) {n v : Nat} (hv : v ∈ G) (e : Temp.setOwn t n v = .ok t') :
    ∃ s', Temp.setOwn s n v = .ok s' ∧ Sim s' t' G ∧ Frame t t' := by
  unfold Temp.setOwn at e ⊢
  obtain ⟨r, e1, e2⟩ := of_bind e
  obtain ⟨h1, h2⟩ := h.find e1
  rw [h1, bind_ok]
  cases r with
  | none => cases e2; exact ⟨s, rfl, h, Frame.refl _⟩
  | some m =>
    obtain ⟨hh, hk⟩ := h2 m rfl
    obtain ⟨s', e3, h3, f3⟩ := (h.more hh hk).setProp (.root (List.mem_append.2 (.inr List.mem_cons_self))) (value_not_name hk)
      (List.mem_cons_of_mem _ hv) (fun _ => by omega) e2 (.inr List.mem_cons_self)
    exact ⟨s', e3, h3.sub fun y hy => List.mem_cons_of_mem _ hy, f3⟩

theorem Sim.orNil {s t : St} {G : List Nat} (h : Sim s t G) {r : Option Nat} {v : Nat}
    (hr : ∀ v, r = some v → Held t G v ∧ t.kind v = .value) (e : Temp.orNil t r = .ok v) :
    Temp.orNil s r = .ok v ∧ Sim s t (v :: G) := by
  cases r with
  | some w =>
    cases e
    obtain ⟨h1, h2⟩ := hr _ rfl
    exact ⟨rfl, h.more h1 h2⟩
  | none =>
    unfold Temp.orNil at e ⊢
    simp only at e ⊢
    rw [h.ctxs]
    cases hw : t.ctxs.getLast? with
    | none => rw [hw] at e; cases e
    | some w =>
      rw [hw] at e
      simp only at e ⊢
      obtain ⟨q, e1, e2⟩ := of_bind e
      obtain ⟨h1, h2⟩ := h.findProp (h.ctxHeld (List.mem_of_getLast? hw)) e1
      rw [h1, bind_ok]
      cases q with
      | none => cases e2
      | some u =>
        cases e2
        exact ⟨rfl, h.more (h2 _ rfl).1 (h2 _ rfl).2⟩

theorem Sim.findOwn {s t : St} {G : List Nat} (h : Sim s t G) {n : Nat} {r : Option Nat} (e : Temp.findOwn t n = .ok r) :
    Temp.findOwn s n = .ok r ∧ ∀ v, r = some v → Held t G v ∧ t.kind v = .value := by
  unfold Temp.findOwn at e ⊢
  obtain ⟨q, e1, e2⟩ := of_bind e
  obtain ⟨h1, h2⟩ := h.find e1
  rw [h1, bind_ok]
  cases q with
  | none => cases e2; exact ⟨rfl, fun _ h => nomatch h⟩
  | some m => exact h.findProp (h2 m rfl).1 e2

/-- Making the receiver sticky. -/
theorem Sim.holdR {s t t' : St} {G : List Nat} (h : Sim s t G) {r : Nat} (hr : r ∈ G) {b : Bool} (e : Temp.hold t r = .ok (t', b)) :
    ∃ s', Temp.hold s r = .ok (s', b) ∧ Sim s' t' G ∧ Frame t t' ∧ (∃ o, t'.heap.mem r = some o ∧ o.sticky = true) ∧
      (∀ o, t.heap.mem r = some o → o.sticky = b) := by
  unfold Temp.hold at e ⊢
  obtain ⟨o, eo, e2⟩ := of_bind e
  obtain ⟨t1, e3, e4⟩ := of_bind e2
  cases e4
  have hk := (h.vals r hr).1
  obtain ⟨o', eo', hl, _, em⟩ := h.obj (.root (List.mem_append.2 (.inr hr))) eo
  obtain ⟨s', e1, h1⟩ := h.change (.root (List.mem_append.2 (.inr hr))) (value_not_name hk) (tame_sticky true)
    (fun _ hc => absurd hc (value_not_ctx h.ok hk))
    (fun o y eo => ⟨fun hy => ⟨(h.ok.outs r o eo y hy).1, .inl hy⟩, fun hy => ⟨(h.ok.keys r o eo y hy).1, .inl hy⟩⟩) e3
  refine ⟨s', by rw [eo', bind_ok, e1, bind_ok, (Obj.Like.props hl).2.2.2.2.2], h1,
    frame_change e3 (fun _ _ => rfl) fun o eo _ => by rw [pins_eq eo]; exact List.suffix_rfl, ?_, ?_⟩
  · obtain ⟨q, _, rfl⟩ := change_ok e3
    exact ⟨_, upd_same _ _ _, rfl⟩
  · intro q eq
    rw [em] at eq
    cases eq
    rfl

/-- Letting go of a receiver that is still sticky, whether the program holds it or not. -/
theorem Sim.letGoR {s t t' : St} {G : List Nat} (h : Sim s t G) {r : Nat} (hk : t.kind r = .value) {b : Bool}
    (hr : ∃ o, t.heap.mem r = some o ∧ o.sticky = true) (e : Temp.letGo t r b = .ok t') :
    ∃ s', Temp.letGo s r b = .ok s' ∧ Sim s' t' G ∧ t'.ctxs = t.ctxs ∧ t'.kind = t.kind ∧ (∀ c, pins t' c = pins t c) ∧
      (∀ x, x ≠ r → t'.heap.mem x = t.heap.mem x) ∧ (∃ o, t'.heap.mem r = some o ∧ o.sticky = b) := by
  unfold Temp.letGo at e ⊢
  obtain ⟨o', eo', ht⟩ := change_ok e
  obtain ⟨q, eq, hq⟩ := hr
  rw [eo'] at eq
  cases eq
  obtain ⟨o, eo, hs⟩ := h.stick r o' eo' hq
  have hrc := value_not_ctx h.ok hk
  refine ⟨{ s with heap := { s.heap with mem := upd s.heap.mem r (some { o with sticky := b }) } },
    by rw [Temp.change, GC.modify, eo]; rfl, ?_, ?_⟩
  · subst ht
    have hsub : ∀ y, Held { t with heap := { t.heap with mem := upd t.heap.mem r (some { o' with sticky := b }) } } G y →
        Held t G y := by
      intro y hy
      induction hy with
      | root hy => exact .root hy
      | @step c d _ he ih =>
        obtain ⟨q, eq, hb⟩ := he
        simp only at eq
        by_cases hc : c = r
        · subst hc
          rw [upd_same] at eq
          cases eq
          exact .step ih ⟨o', eo', hb⟩
        · rw [upd_ne _ _ hc] at eq
          exact .step ih ⟨q, eq, hb⟩
    have hex : ∀ y, (∃ p, t.heap.mem y = some p) → ∃ p, upd t.heap.mem r (some { o' with sticky := b }) y = some p := by
      rintro y ⟨p, ep⟩
      by_cases hyx : y = r
      · exact ⟨_, by rw [hyx, upd_same]⟩
      · exact ⟨p, by rw [upd_ne _ _ hyx, ep]⟩
    have hold : ∀ y q, upd t.heap.mem r (some { o' with sticky := b }) y = some q →
        ∃ p, t.heap.mem y = some p ∧ p.outs = q.outs ∧ p.keys = q.keys := by
      intro y q eq
      by_cases hyx : y = r
      · subst hyx
        rw [upd_same] at eq
        cases eq
        exact ⟨o', eo', rfl, rfl⟩
      · rw [upd_ne _ _ hyx] at eq
        exact ⟨q, eq, rfl, rfl⟩
    constructor
    · constructor
      · intro y q eq
        obtain ⟨p, ep, _⟩ := hold y q eq
        exact h.ok.lt y p ep
      · intro y q eq z hz
        obtain ⟨p, ep, h1, _⟩ := hold y q eq
        obtain ⟨h3, h4⟩ := h.ok.outs y p ep z (h1 ▸ hz)
        exact ⟨h3, hex z h4⟩
      · intro y q eq z hz
        obtain ⟨p, ep, _, h1⟩ := hold y q eq
        obtain ⟨h3, h4⟩ := h.ok.keys y p ep z (h1 ▸ hz)
        exact ⟨h3, hex z h4⟩
      · intro y q n hn eq
        obtain ⟨p, ep, h1, h2⟩ := hold y q eq
        rw [← h1, ← h2]
        exact h.ok.plain y p n hn ep
      · intro c hc
        exact ⟨(h.ok.ctx c hc).1, hex c (h.ok.ctx c hc).2⟩
      · exact h.ok.nodup
    · intro y hy
      exact ⟨(h.vals y hy).1, hex y (h.vals y hy).2⟩
    · exact h.ctxs
    · exact h.kind
    · exact h.msg
    · exact h.fresh
    · obtain ⟨l, hw⟩ := h.wf
      exact ⟨l, hw.set eo rfl⟩
    · intro y q eq
      simp only at eq
      by_cases hy : y = r
      · subst hy
        rw [upd_same] at eq
        cases eq
        exact h.un y o eo
      · rw [upd_ne _ _ hy] at eq; exact h.un y q eq
    · intro c hc
      obtain ⟨q, eq, hs⟩ := h.sticky c hc
      have : c ≠ r := by rintro rfl; exact hrc hc
      exact ⟨q, by simp only; rw [upd_ne _ _ this, eq], hs⟩
    · intro y q eq hq
      simp only at eq ⊢
      by_cases hy : y = r
      · subst hy
        rw [upd_same] at eq
        cases eq
        exact ⟨_, upd_same _ _ _, hq⟩
      · rw [upd_ne _ _ hy] at eq ⊢
        exact h.stick y q eq hq
    · intro y hy
      obtain ⟨p, p', e1, e2, hl⟩ := h.like y (hsub y hy)
      simp only
      by_cases hyr : y = r
      · subst hyr
        rw [eo] at e1
        cases e1
        rw [eo'] at e2
        cases e2
        exact ⟨_, _, upd_same _ _ _, upd_same _ _ _, (tame_sticky b).like _ _ hl⟩
      · rw [upd_ne _ _ hyr, upd_ne _ _ hyr]
        exact ⟨p, p', e1, e2, hl⟩
  · refine ⟨by rw [ht], by rw [ht], ?_, ?_, ?_⟩
    · intro c
      by_cases hc : c = r
      · subst hc
        rw [pins_change_same eo' e, pins_eq eo']
      · exact pins_change_ne e hc
    · intro x hx
      rw [ht]
      exact upd_ne _ _ hx
    · rw [ht]
      exact ⟨_, upd_same _ _ _, rfl⟩

/-- Opening a scope. -/
theorem Sim.openScope {s t : St} {G : List Nat} (h : Sim s t G) :
    Sim (Temp.openScope s) (Temp.openScope t) G ∧ (Temp.openScope t).ctxs = t.heap.fresh :: t.ctxs := by
  refine ⟨?_, rfl⟩
  obtain ⟨e1, h1, hk, ⟨o, o', eo, eo', hl, ho, hks, hst⟩, hold⟩ := h.make .scope false true
  have hfr : t.heap.fresh ∉ t.ctxs := fun hc => by have := h.ok.ctx_lt hc; omega
  have hs : (Temp.openScope s).ctxs = t.heap.fresh :: t.ctxs := by
    show s.heap.fresh :: s.ctxs = _
    rw [h.fresh, h.ctxs]
  constructor
  · refine ⟨h1.ok.lt, h1.ok.outs, h1.ok.keys, h1.ok.plain, ?_, List.nodup_cons.2 ⟨hfr, h.ok.nodup⟩⟩
    intro c hc
    rcases List.mem_cons.1 hc with rfl | hc
    · exact ⟨hk, _, eo'⟩
    · exact h1.ok.ctx c hc
  · exact h1.vals
  · exact hs
  · exact h1.kind
  · exact h1.msg
  · exact h1.fresh
  · exact h1.wf
  · exact h1.un
  · intro c hc
    rcases List.mem_cons.1 hc with rfl | hc
    · exact ⟨o, eo, hst⟩
    · exact h1.sticky c hc
  · exact h1.stick
  · intro y hy
    have : y = t.heap.fresh ∨ Held (Temp.make t .scope false true).1 G y := by
      induction hy with
      | @root y hy =>
        rcases List.mem_append.1 hy with hy | hy
        · rcases List.mem_cons.1 hy with rfl | hy
          · exact .inl rfl
          · exact .inr (.root (List.mem_append.2 (.inl hy)))
        · exact .inr (.root (List.mem_append.2 (.inr hy)))
      | step _ he ih =>
        rcases ih with rfl | ih
        · obtain ⟨q, eq, hb⟩ := he
          have : (Temp.openScope t).heap.mem t.heap.fresh = some o' := eo'
          rw [this] at eq
          cases eq
          rw [ho, hks] at hb
          simp at hb
        · exact .inr (.step ih he)
    rcases this with rfl | hy
    · exact ⟨o, o', eo, eo', hl⟩
    · exact h1.like y hy

/-- Closing a scope. -/
theorem Sim.closeScope {s t t' : St} {G : List Nat} (h : Sim s t G) {c : Nat} {rest : List Nat} (hc : t.ctxs = c :: rest)
    (e : Temp.closeScope t = .ok t') :
    ∃ s', Temp.closeScope s = .ok s' ∧ Sim s' t' G ∧ t'.ctxs = rest ∧ t'.kind = t.kind ∧ (∀ d, pins t' d = pins t d) ∧
      (∀ x, x ≠ c → t'.heap.mem x = t.heap.mem x) ∧ t'.inMsg = t.inMsg := by
  unfold Temp.closeScope at e ⊢
  rw [h.ctxs]
  rw [hc] at e ⊢
  simp only at e ⊢
  obtain ⟨t1, e1, e2⟩ := of_bind e
  cases e2
  have hm : c ∈ t.ctxs := by rw [hc]; exact List.mem_cons_self
  have hnd := h.ok.nodup
  rw [hc] at hnd
  obtain ⟨hcr, hndr⟩ := List.nodup_cons.1 hnd
  obtain ⟨o', eo', ht⟩ := change_ok e1
  obtain ⟨o, eo, _⟩ := h.sticky c hm
  refine ⟨{ s with heap := { s.heap with mem := upd s.heap.mem c (some { o with sticky := false }) }, ctxs := rest },
    by rw [Temp.change, GC.modify, eo]; rfl, ?_, rfl, by rw [ht], ?_, ?_, by rw [ht]⟩
  · have hsub : ∀ y, Held { t1 with ctxs := rest } G y → Held t G y ∧ y ≠ c := by
      intro y hy
      induction hy with
      | @root y hy =>
        rcases List.mem_append.1 hy with hy | hy
        · exact ⟨.root (List.mem_append.2 (.inl (by rw [hc]; exact List.mem_cons_of_mem _ hy))), by rintro rfl; exact hcr hy⟩
        · refine ⟨.root (List.mem_append.2 (.inr hy)), ?_⟩
          rintro rfl
          exact value_not_ctx h.ok (h.vals y hy).1 hm
      | @step a b _ he ih =>
        obtain ⟨q, eq, hb⟩ := he
        rw [ht] at eq
        simp only at eq
        rw [upd_ne _ _ ih.2] at eq
        refine ⟨.step ih.1 ⟨q, eq, hb⟩, ?_⟩
        rintro rfl
        have hsc := (h.ok.ctx b hm).1
        rcases hb with hb | hb
        · have := (h.ok.outs a q eq b hb).1
          rw [hsc] at this
          cases this
        · obtain ⟨n, hn⟩ := (h.ok.keys a q eq b hb).1
          rw [hsc] at hn
          cases hn
    have hex : ∀ y, (∃ p, t.heap.mem y = some p) → ∃ p, t1.heap.mem y = some p := by
      rintro y ⟨p, ep⟩
      rw [ht]
      by_cases hyx : y = c
      · exact ⟨_, by rw [hyx]; exact upd_same _ _ _⟩
      · exact ⟨p, by rw [← ep]; exact upd_ne _ _ hyx⟩
    have hold : ∀ y q, t1.heap.mem y = some q → ∃ p, t.heap.mem y = some p ∧ p.outs = q.outs ∧ p.keys = q.keys := by
      intro y q eq
      rw [ht] at eq
      simp only at eq
      by_cases hyx : y = c
      · subst hyx
        rw [upd_same] at eq
        cases eq
        exact ⟨o', eo', rfl, rfl⟩
      · rw [upd_ne _ _ hyx] at eq
        exact ⟨q, eq, rfl, rfl⟩
    have hkd : t1.kind = t.kind := by rw [ht]
    constructor
    · constructor
      · intro y q eq
        obtain ⟨p, ep, _⟩ := hold y q eq
        rw [ht]
        exact h.ok.lt y p ep
      · intro y q eq z hz
        obtain ⟨p, ep, h1, _⟩ := hold y q eq
        obtain ⟨h3, h4⟩ := h.ok.outs y p ep z (h1 ▸ hz)
        exact ⟨by simp only; rw [hkd]; exact h3, hex z h4⟩
      · intro y q eq z hz
        obtain ⟨p, ep, _, h1⟩ := hold y q eq
        obtain ⟨h3, h4⟩ := h.ok.keys y p ep z (h1 ▸ hz)
        exact ⟨by simp only; rw [hkd]; exact h3, hex z h4⟩
      · intro y q n hn eq
        obtain ⟨p, ep, h1, h2⟩ := hold y q eq
        rw [← h1, ← h2]
        exact h.ok.plain y p n (by rw [← hkd]; exact hn) ep
      · intro d hd
        have := h.ok.ctx d (by rw [hc]; exact List.mem_cons_of_mem _ hd)
        exact ⟨by simp only; rw [hkd]; exact this.1, hex d this.2⟩
      · exact hndr
    · intro y hy
      exact ⟨by simp only; rw [hkd]; exact (h.vals y hy).1, hex y (h.vals y hy).2⟩
    · rfl
    · simp only; rw [hkd]; exact h.kind
    · simp only; rw [ht]; exact h.msg
    · simp only; rw [ht]; exact h.fresh
    · obtain ⟨l, hw⟩ := h.wf
      exact ⟨l, hw.set eo rfl⟩
    · intro y q eq
      simp only at eq
      by_cases hy : y = c
      · subst hy
        rw [upd_same] at eq
        cases eq
        exact h.un y o eo
      · rw [upd_ne _ _ hy] at eq; exact h.un y q eq
    · intro d hd
      simp only at hd
      obtain ⟨q, eq, hs⟩ := h.sticky d (by rw [hc]; exact List.mem_cons_of_mem _ hd)
      have : d ≠ c := by rintro rfl; exact hcr hd
      exact ⟨q, by simp only; rw [upd_ne _ _ this, eq], hs⟩
    · intro y q eq hq
      rw [ht] at eq
      simp only at eq ⊢
      by_cases hy : y = c
      · subst hy
        rw [upd_same] at eq
        cases eq
        cases hq
      · rw [upd_ne _ _ hy] at eq ⊢
        exact h.stick y q eq hq
    · intro y hy
      obtain ⟨hy', hne⟩ := hsub y hy
      obtain ⟨p, p', h1, h2, hl⟩ := h.like y hy'
      refine ⟨p, p', ?_, ?_, hl⟩
      · simp only; rw [upd_ne _ _ hne, h1]
      · rw [ht]; simp only; rw [upd_ne _ _ hne, h2]
  · intro d
    show pins t1 d = pins t d
    by_cases hd : d = c
    · subst hd
      rw [pins_change_same eo' e1, pins_eq eo']
    · exact pins_change_ne e1 hd
  · intro x hx
    rw [ht]
    exact upd_ne _ _ hx

end Verif.Model.Temp
