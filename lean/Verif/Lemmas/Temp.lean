import Verif.Model.Temp
import Verif.Lemmas.GC

/-! Helper lemmas about intermediate values: a run with the collector against the same run without it. -/

namespace Verif.Model.Temp

open Verif.Model.GC
open Verif.Spec.GC (Reach)

theorem bind_ok {x : α} {f : α → Out β} : (Out.ok x).bind f = f x := rfl

theorem of_bind {x : Out α} {f : α → Out β} {b : β} (h : x.bind f = .ok b) : ∃ a, x = .ok a ∧ f a = .ok b := by
  cases x with
  | ok a => exact ⟨a, rfl, h⟩
  | ub => cases h
  | exit => cases h

/-- What the program can get hold of, from the open scopes and the C variables `G`. -/
abbrev Held (s : St) (G : List Nat) : Nat → Prop := Reach (Next s.heap) (s.ctxs ++ G)

/-- The state of a run in which nothing was ever freed. -/
structure Ok (s : St) : Prop where
  lt : ∀ x o, s.heap.mem x = some o → x < s.heap.fresh
  outs : ∀ x o, s.heap.mem x = some o → ∀ y ∈ o.outs, s.kind y = .value ∧ ∃ p, s.heap.mem y = some p
  keys : ∀ x o, s.heap.mem x = some o → ∀ y ∈ o.keys, (∃ n, s.kind y = .name n) ∧ ∃ p, s.heap.mem y = some p
  plain : ∀ x o n, s.kind x = .name n → s.heap.mem x = some o → o.outs = [] ∧ o.keys = []
  ctx : ∀ c ∈ s.ctxs, s.kind c = .scope ∧ ∃ p, s.heap.mem c = some p
  nodup : s.ctxs.Nodup

/-- A run with the collector (`s`) next to the same run without it (`t`): what is held is the same in both. -/
structure Sim (s t : St) (G : List Nat) : Prop where
  ok : Ok t
  vals : ∀ x ∈ G, t.kind x = .value ∧ ∃ p, t.heap.mem x = some p
  ctxs : s.ctxs = t.ctxs
  kind : s.kind = t.kind
  msg : s.inMsg = t.inMsg
  fresh : s.heap.fresh = t.heap.fresh
  wf : ∃ l, Wf s.heap l
  un : ∀ x o, s.heap.mem x = some o → o.mark = false
  sticky : ∀ c ∈ t.ctxs, ∃ o, s.heap.mem c = some o ∧ o.sticky = true
  stick : ∀ x o', t.heap.mem x = some o' → o'.sticky = true → ∃ o, s.heap.mem x = some o ∧ o.sticky = true
  like : ∀ x, Held t G x → ∃ o o', s.heap.mem x = some o ∧ t.heap.mem x = some o' ∧ o'.Like o

theorem Ok.held {t : St} (h : Ok t) {G : List Nat} (hG : ∀ x ∈ G, t.kind x = .value ∧ ∃ p, t.heap.mem x = some p) {x : Nat}
    (hx : Held t G x) : (∃ p, t.heap.mem x = some p) ∧ (t.kind x = .scope → x ∈ t.ctxs) := by
  cases hx with
  | root hx =>
    rcases List.mem_append.1 hx with hx | hx
    · exact ⟨(h.ctx x hx).2, fun _ => hx⟩
    · exact ⟨(hG x hx).2, fun e => by rw [(hG x hx).1] at e; cases e⟩
  | step _ he =>
    obtain ⟨o, e, hy | hy⟩ := he
    · have := h.outs _ o e _ hy
      exact ⟨this.2, fun e' => by rw [this.1] at e'; cases e'⟩
    · have := h.keys _ o e _ hy
      obtain ⟨n, hn⟩ := this.1
      exact ⟨this.2, fun e' => by rw [hn] at e'; cases e'⟩

theorem Sim.weaken {s t : St} {G G' : List Nat} (h : Sim s t G) (hG : ∀ x ∈ G', t.kind x = .value ∧ Held t G x) :
    Sim s t G' where
  ok := h.ok
  vals x hx := ⟨(hG x hx).1, (h.ok.held h.vals (hG x hx).2).1⟩
  ctxs := h.ctxs
  kind := h.kind
  msg := h.msg
  fresh := h.fresh
  wf := h.wf
  un := h.un
  sticky := h.sticky
  stick := h.stick
  like x hx := by
    refine h.like x ?_
    induction hx with
    | root hx =>
      rcases List.mem_append.1 hx with hx | hx
      · exact .root (List.mem_append.2 (.inl hx))
      · exact (hG _ hx).2
    | step _ he ih => exact .step ih he

theorem Sim.sub {s t : St} {G G' : List Nat} (h : Sim s t G) (hG : ∀ x ∈ G', x ∈ G) : Sim s t G' :=
  h.weaken fun x hx => ⟨(h.vals x (hG x hx)).1, .root (List.mem_append.2 (.inr (hG x hx)))⟩

theorem Sim.obj {s t : St} {G : List Nat} (h : Sim s t G) {x : Nat} (hx : Held t G x) {o' : Obj}
    (e : Temp.obj t x = .ok o') : ∃ o, Temp.obj s x = .ok o ∧ o'.Like o ∧ s.heap.mem x = some o ∧ t.heap.mem x = some o' := by
  obtain ⟨o, p, e1, e2, hl⟩ := h.like x hx
  unfold Temp.obj at e ⊢
  rw [e2] at e
  cases e
  exact ⟨o, by rw [e1], hl, e1, e2⟩

theorem Obj.Like.symm {o o' : Obj} (h : o.Like o') : o'.Like o := Eq.symm h

theorem Obj.Like.props {o o' : Obj} (h : o.Like o') : o'.props = o.props ∧ o'.methods = o.methods ∧ o'.elems = o.elems ∧
    o'.isArray = o.isArray ∧ o'.tail = o.tail ∧ o'.sticky = o.sticky := by
  unfold Obj.Like at h
  simp only [Obj.mk.injEq] at h
  exact ⟨h.2.2.2.1.symm, h.2.2.2.2.1.symm, h.2.1.symm, h.1.symm, h.2.2.1.symm, h.2.2.2.2.2.2.1.symm⟩

/-- Changes of one object that leave the bookkeeping of the collector alone. -/
structure Tame (f : Obj → Obj) : Prop where
  mark : ∀ o, (f o).mark = o.mark
  gnext : ∀ o, (f o).gnext = o.gnext
  like : ∀ o o' : Obj, o.Like o' → (f o).Like (f o')

theorem _root_.Verif.Model.GC.Wf.set {h : Heap} {l : List Nat} (hw : Wf h l) {x : Nat} {o p : Obj} (e : h.mem x = some o)
    (hg : p.gnext = o.gnext) : Wf { h with mem := upd h.mem x (some p) } l where
  chain := by
    refine chain_congr ?_ hw.chain
    intro y _ q hq
    by_cases hy : y = x
    · subst hy
      rw [e] at hq
      cases hq
      exact ⟨p, by simp, hg⟩
    · exact ⟨q, by simp only [upd_ne _ _ hy, hq], rfl⟩
  nodup := hw.nodup
  all y := by
    by_cases hy : y = x
    · subst hy
      have := hw.all y
      rw [e] at this
      simpa using this
    · simp only [upd_ne _ _ hy]
      exact hw.all y
  lt := hw.lt

/-- Changing an object that is held, so that it refers to nothing new but objects that are held or new. -/
theorem Sim.change {s t t' : St} {G : List Nat} (h : Sim s t G) {x : Nat} (hx : Held t G x) (hxn : ∀ n, t.kind x ≠ .name n)
    {f : Obj → Obj} (hf : Tame f) (hst : ∀ o, x ∈ t.ctxs → o.sticky = true → (f o).sticky = true)
    (hnew : ∀ o y, t.heap.mem x = some o → (y ∈ (f o).outs → t.kind y = .value ∧ (y ∈ o.outs ∨ Held t G y)) ∧
      (y ∈ (f o).keys → (∃ n, t.kind y = .name n) ∧ (y ∈ o.keys ∨
        ∃ p p', s.heap.mem y = some p ∧ t.heap.mem y = some p' ∧ p'.Like p)))
    (e : Temp.change t x f = .ok t') :
    ∃ s', Temp.change s x f = .ok s' ∧ Sim s' t' G := by
  obtain ⟨o, o', e1, e2, hl⟩ := h.like x hx
  unfold Temp.change GC.modify at e ⊢
  rw [e2, bind_ok] at e
  rw [e1, bind_ok]
  cases e
  refine ⟨_, rfl, ?_⟩
  have hsub : ∀ y, Held { t with heap := { t.heap with mem := upd t.heap.mem x (some (f o')) } } G y →
      Held t G y ∨ ∃ p p', s.heap.mem y = some p ∧ t.heap.mem y = some p' ∧ p'.Like p ∧ ∃ n, t.kind y = .name n := by
    intro y hy
    induction hy with
    | root hy => exact .inl (.root hy)
    | @step a b _ he ih =>
      obtain ⟨q, eq, hb⟩ := he
      simp only at eq
      by_cases hax : a = x
      · subst hax
        rw [upd_same] at eq
        cases eq
        rcases hb with hb | hb
        · rcases ((hnew o' b e2).1 hb).2 with hb | hb
          · exact .inl (.step hx ⟨o', e2, .inl hb⟩)
          · exact .inl hb
        · obtain ⟨hn, hb⟩ := (hnew o' b e2).2 hb
          rcases hb with hb | ⟨p, p', h1, h2, h3⟩
          · exact .inl (.step hx ⟨o', e2, .inr hb⟩)
          · exact .inr ⟨p, p', h1, h2, h3, hn⟩
      · rw [upd_ne _ _ hax] at eq
        rcases ih with ih | ⟨p, p', h1, h2, h3, n, hn⟩
        · exact .inl (.step ih ⟨q, eq, hb⟩)
        · have := h.ok.plain a q n hn eq
          rw [this.1, this.2] at hb
          simp at hb
  constructor
  · constructor
    · intro y q eq
      simp only at eq ⊢
      by_cases hy : y = x
      · subst hy; exact h.ok.lt y o' e2
      · rw [upd_ne _ _ hy] at eq; exact h.ok.lt y q eq
    · intro y q eq z hz
      have hex : (∃ p, t.heap.mem z = some p) → ∃ p, upd t.heap.mem x (some (f o')) z = some p := by
        rintro ⟨p, ep⟩
        by_cases hzx : z = x
        · exact ⟨_, by rw [hzx, upd_same]⟩
        · exact ⟨p, by rw [upd_ne _ _ hzx, ep]⟩
      simp only at eq ⊢
      by_cases hy : y = x
      · subst hy
        rw [upd_same] at eq
        cases eq
        have := (hnew o' z e2).1 hz
        refine ⟨this.1, hex ?_⟩
        rcases this.2 with hz | hz
        · exact (h.ok.outs y o' e2 z hz).2
        · exact (h.ok.held h.vals hz).1
      · rw [upd_ne _ _ hy] at eq
        have := h.ok.outs y q eq z hz
        exact ⟨this.1, hex this.2⟩
    · intro y q eq z hz
      have hex : (∃ p, t.heap.mem z = some p) → ∃ p, upd t.heap.mem x (some (f o')) z = some p := by
        rintro ⟨p, ep⟩
        by_cases hzx : z = x
        · exact ⟨_, by rw [hzx, upd_same]⟩
        · exact ⟨p, by rw [upd_ne _ _ hzx, ep]⟩
      simp only at eq ⊢
      by_cases hy : y = x
      · subst hy
        rw [upd_same] at eq
        cases eq
        have := (hnew o' z e2).2 hz
        refine ⟨this.1, hex ?_⟩
        rcases this.2 with hz | ⟨p, p', _, h2, _⟩
        · exact (h.ok.keys y o' e2 z hz).2
        · exact ⟨p', h2⟩
      · rw [upd_ne _ _ hy] at eq
        have := h.ok.keys y q eq z hz
        exact ⟨this.1, hex this.2⟩
    · intro y q n hk eq
      simp only at eq hk
      by_cases hy : y = x
      · subst hy; exact absurd hk (hxn n)
      · rw [upd_ne _ _ hy] at eq; exact h.ok.plain y q n hk eq
    · intro c hc
      simp only at hc ⊢
      refine ⟨(h.ok.ctx c hc).1, ?_⟩
      by_cases hcx : c = x
      · exact ⟨_, by rw [hcx, upd_same]⟩
      · rw [upd_ne _ _ hcx]; exact (h.ok.ctx c hc).2
    · exact h.ok.nodup
  · intro y hy
    simp only
    refine ⟨(h.vals y hy).1, ?_⟩
    by_cases hyx : y = x
    · exact ⟨_, by rw [hyx, upd_same]⟩
    · rw [upd_ne _ _ hyx]; exact (h.vals y hy).2
  · exact h.ctxs
  · exact h.kind
  · exact h.msg
  · exact h.fresh
  · obtain ⟨l, hw⟩ := h.wf
    exact ⟨l, hw.set e1 (hf.gnext o)⟩
  · intro y q eq
    simp only at eq
    by_cases hy : y = x
    · subst hy
      rw [upd_same] at eq
      cases eq
      rw [hf.mark]
      exact h.un y o e1
    · rw [upd_ne _ _ hy] at eq; exact h.un y q eq
  · intro c hc
    simp only at hc ⊢
    obtain ⟨q, eq, hs⟩ := h.sticky c hc
    by_cases hcx : c = x
    · subst hcx
      rw [e1] at eq
      cases eq
      exact ⟨_, upd_same _ _ _, hst _ hc hs⟩
    · exact ⟨q, by rw [upd_ne _ _ hcx, eq], hs⟩
  · intro y q eq hs
    simp only at eq ⊢
    by_cases hyx : y = x
    · subst hyx
      rw [upd_same] at eq
      cases eq
      refine ⟨_, upd_same _ _ _, ?_⟩
      rw [(Obj.Like.props (hf.like _ _ hl)).2.2.2.2.2]
      exact hs
    · rw [upd_ne _ _ hyx] at eq ⊢
      exact h.stick y q eq hs
  · intro y hy
    simp only
    by_cases hyx : y = x
    · subst hyx
      exact ⟨_, _, upd_same _ _ _, upd_same _ _ _, hf.like _ _ hl⟩
    · rw [upd_ne _ _ hyx, upd_ne _ _ hyx]
      rcases hsub y hy with hy | ⟨p, p', h1, h2, h3, _⟩
      · exact h.like y hy
      · exact ⟨p, p', h1, h2, h3⟩

/-- A new object exists in both runs; it refers to nothing and nothing refers to it. -/
theorem Sim.make {s t : St} {G : List Nat} (h : Sim s t G) (k : Kind) (a st : Bool) :
    (Temp.make s k a st).2 = (Temp.make t k a st).2 ∧ Sim (Temp.make s k a st).1 (Temp.make t k a st).1 G ∧
    (Temp.make t k a st).1.kind (Temp.make t k a st).2 = k ∧
    (∃ o o', (Temp.make s k a st).1.heap.mem (Temp.make t k a st).2 = some o ∧
      (Temp.make t k a st).1.heap.mem (Temp.make t k a st).2 = some o' ∧ o'.Like o ∧ o'.outs = [] ∧ o'.keys = [] ∧ o.sticky = st) ∧
    (∀ x, x ≠ t.heap.fresh → (Temp.make t k a st).1.kind x = t.kind x ∧ (Temp.make t k a st).1.heap.mem x = t.heap.mem x) := by
  have hn : t.heap.mem t.heap.fresh = none := by
    cases e : t.heap.mem t.heap.fresh with
    | none => rfl
    | some o => have := h.ok.lt _ o e; omega
  obtain ⟨l, hw⟩ := h.wf
  have hn' : s.heap.mem t.heap.fresh = none := by
    cases e : s.heap.mem t.heap.fresh with
    | none => rfl
    | some o =>
      have := hw.lt _ ((hw.all t.heap.fresh).1 (by rw [e]; rfl))
      rw [h.fresh] at this
      omega
  have hmt : ∀ x, x ≠ t.heap.fresh → (create t.heap a st none).mem x = t.heap.mem x := fun x hx => upd_ne _ _ hx
  have hms : ∀ x, x ≠ t.heap.fresh → (create s.heap a st none).mem x = s.heap.mem x := fun x hx =>
    upd_ne _ _ (by rw [h.fresh]; exact hx)
  have hnt : (create t.heap a st none).mem t.heap.fresh = some ⟨a, [], 0, [], [], none, st, false, t.heap.first⟩ := upd_same _ _ _
  have hns : (create s.heap a st none).mem t.heap.fresh = some ⟨a, [], 0, [], [], none, st, false, s.heap.first⟩ := by
    rw [← h.fresh]; exact upd_same _ _ _
  have hext : ∀ y, (∃ p, t.heap.mem y = some p) → y ≠ t.heap.fresh := by
    rintro y ⟨p, ep⟩ e
    rw [e, hn] at ep
    cases ep
  refine ⟨h.fresh, ?_, by simp [Temp.make], ⟨_, _, hns, hnt, rfl, by simp [Obj.outs], by simp [Obj.keys], rfl⟩, ?_⟩
  · have hheld : ∀ y, Held (Temp.make t k a st).1 G y → Held t G y := by
      intro y hy
      induction hy with
      | root hy => exact .root hy
      | @step c d _ he ih =>
        obtain ⟨q, eq, hb⟩ := he
        have hc := hext c (h.ok.held h.vals ih).1
        simp only [Temp.make] at eq
        rw [hmt c hc] at eq
        exact .step ih ⟨q, eq, hb⟩
    have hk : ∀ y, y ≠ t.heap.fresh → (Temp.make t k a st).1.kind y = t.kind y := fun y hy => by simp [Temp.make, hy]
    have hex : ∀ y, (∃ p, t.heap.mem y = some p) → ∃ p, (Temp.make t k a st).1.heap.mem y = some p := by
      rintro y ⟨p, ep⟩
      exact ⟨p, by rw [← ep]; exact hmt y (hext y ⟨p, ep⟩)⟩
    constructor
    · constructor
      · intro y q eq
        simp only [Temp.make] at eq ⊢
        simp only [create]
        by_cases hy : y = t.heap.fresh
        · omega
        · rw [hmt y hy] at eq
          have := h.ok.lt y q eq
          omega
      · intro y q eq z hz
        by_cases hy : y = t.heap.fresh
        · subst hy
          simp only [Temp.make] at eq
          rw [hnt] at eq
          cases eq
          simp [Obj.outs] at hz
        · simp only [Temp.make] at eq
          rw [hmt y hy] at eq
          obtain ⟨h1, h2⟩ := h.ok.outs y q eq z hz
          exact ⟨by rw [hk z (hext z h2)]; exact h1, hex z h2⟩
      · intro y q eq z hz
        by_cases hy : y = t.heap.fresh
        · subst hy
          simp only [Temp.make] at eq
          rw [hnt] at eq
          cases eq
          simp [Obj.keys] at hz
        · simp only [Temp.make] at eq
          rw [hmt y hy] at eq
          obtain ⟨h1, h2⟩ := h.ok.keys y q eq z hz
          exact ⟨by rw [hk z (hext z h2)]; exact h1, hex z h2⟩
      · intro y q n hkn eq
        by_cases hy : y = t.heap.fresh
        · subst hy
          simp only [Temp.make] at eq
          rw [hnt] at eq
          cases eq
          simp [Obj.outs, Obj.keys]
        · rw [hk y hy] at hkn
          simp only [Temp.make] at eq
          rw [hmt y hy] at eq
          exact h.ok.plain y q n hkn eq
      · intro c hc
        obtain ⟨h1, h2⟩ := h.ok.ctx c hc
        exact ⟨by rw [hk c (hext c h2)]; exact h1, hex c h2⟩
      · exact h.ok.nodup
    · intro y hy
      obtain ⟨h1, h2⟩ := h.vals y hy
      exact ⟨by rw [hk y (hext y h2)]; exact h1, hex y h2⟩
    · exact h.ctxs
    · simp only [Temp.make, h.kind, h.fresh]
    · exact h.msg
    · simp only [Temp.make, create, h.fresh]
    · refine ⟨t.heap.fresh :: l, ?_, ?_, ?_, ?_⟩
      · refine ⟨by simp [Temp.make, create, h.fresh], _, hns, ?_⟩
        refine chain_congr ?_ hw.chain
        intro y hy p ep
        have : y ≠ t.heap.fresh := by rintro rfl; rw [hn'] at ep; cases ep
        exact ⟨p, by simp only [Temp.make]; rw [hms y this, ep], rfl⟩
      · refine List.nodup_cons.2 ⟨?_, hw.nodup⟩
        intro hm
        have := (hw.all _).2 hm
        rw [hn'] at this
        cases this
      · intro y
        by_cases hy : y = t.heap.fresh
        · subst hy
          simp only [Temp.make]
          rw [hns]
          simp
        · simp only [Temp.make]
          rw [hms y hy, hw.all y]
          simp [hy]
      · intro y hy
        simp only [Temp.make, create, h.fresh]
        rcases List.mem_cons.1 hy with rfl | hy
        · omega
        · have := hw.lt y hy
          rw [h.fresh] at this
          omega
    · intro y q eq
      simp only [Temp.make] at eq
      by_cases hy : y = t.heap.fresh
      · subst hy
        rw [hns] at eq
        cases eq
        rfl
      · rw [hms y hy] at eq
        exact h.un y q eq
    · intro c hc
      obtain ⟨q, eq, hs⟩ := h.sticky c hc
      refine ⟨q, ?_, hs⟩
      simp only [Temp.make]
      rw [hms c (hext c (h.ok.ctx c hc).2), eq]
    · intro y q eq hs
      simp only [Temp.make] at eq ⊢
      by_cases hy : y = t.heap.fresh
      · subst hy
        rw [hnt] at eq
        cases eq
        exact ⟨_, hns, hs⟩
      · rw [hmt y hy] at eq
        rw [hms y hy]
        exact h.stick y q eq hs
    · intro y hy
      have hy' := hheld y hy
      have hne := hext y (h.ok.held h.vals hy').1
      obtain ⟨o, o', h1, h2, h3⟩ := h.like y hy'
      refine ⟨o, o', ?_, ?_, h3⟩
      · simp only [Temp.make]; rw [hms y hne, h1]
      · simp only [Temp.make]; rw [hmt y hne, h2]
  · intro x hx
    exact ⟨by simp [Temp.make, hx], hmt x hx⟩

/-- A new value can be held by a C variable. -/
theorem Sim.hold {s t : St} {G : List Nat} (h : Sim s t G) {y : Nat} (hk : t.kind y = .value)
    (hy : ∃ o o', s.heap.mem y = some o ∧ t.heap.mem y = some o' ∧ o'.Like o ∧ o'.outs = [] ∧ o'.keys = []) :
    Sim s t (y :: G) := by
  obtain ⟨o, o', e1, e2, hl, ho, hks⟩ := hy
  refine ⟨h.ok, ?_, h.ctxs, h.kind, h.msg, h.fresh, h.wf, h.un, h.sticky, h.stick, ?_⟩
  · intro x hx
    rcases List.mem_cons.1 hx with rfl | hx
    · exact ⟨hk, _, e2⟩
    · exact h.vals x hx
  · intro x hx
    have : x = y ∨ Held t G x := by
      induction hx with
      | @root x hx =>
        simp only [List.mem_append, List.mem_cons] at hx
        rcases hx with hx | rfl | hx
        · exact .inr (.root (List.mem_append.2 (.inl hx)))
        · exact .inl rfl
        · exact .inr (.root (List.mem_append.2 (.inr hx)))
      | step _ he ih =>
        rcases ih with rfl | ih
        · obtain ⟨q, eq, hb⟩ := he
          rw [e2] at eq
          cases eq
          rw [ho, hks] at hb
          simp at hb
        · exact .inr (.step ih he)
    rcases this with rfl | hx
    · exact ⟨o, o', e1, e2, hl⟩
    · exact h.like x hx

/-- A new value. -/
theorem Sim.makeValue {s t : St} {G : List Nat} (h : Sim s t G) (a : Bool) :
    (Temp.make s .value a false).2 = (Temp.make t .value a false).2 ∧
    Sim (Temp.make s .value a false).1 (Temp.make t .value a false).1 ((Temp.make t .value a false).2 :: G) := by
  obtain ⟨h1, h2, h3, ⟨o, o', h4, h5, h6, h7, h8, _⟩, _⟩ := h.make .value a false
  exact ⟨h1, h2.hold h3 ⟨o, o', h4, h5, h6, h7, h8⟩⟩

/-- A collection keeps what the open scopes hold. -/
theorem Sim.cleanUp {s t : St} {G : List Nat} (h : Sim s t G) :
    ∃ s', Temp.cleanUp s true = .ok s' ∧ Sim s' t [] := by
  have h0 : Sim s t [] := h.sub (by simp)
  have hnext : ∀ x, Held t [] x → ∀ y, Next s.heap x y ↔ Next t.heap x y := by
    intro x hx y
    obtain ⟨o, o', e1, e2, hl⟩ := h0.like x hx
    constructor
    · rintro ⟨q, eq, hy⟩
      rw [e1] at eq
      cases eq
      refine ⟨o', e2, ?_⟩
      rw [hl.outs, hl.keys] at hy
      exact hy
    · rintro ⟨q, eq, hy⟩
      rw [e2] at eq
      cases eq
      refine ⟨o, e1, ?_⟩
      rw [hl.outs, hl.keys]
      exact hy
  have hfound : ∀ x, Found s.heap s.ctxs x → Held t [] x := by
    intro x hx
    induction hx with
    | root hx => rw [h.ctxs] at hx; exact .root (by simpa using hx)
    | step _ he ih => exact .step ih ((hnext _ ih _).1 he)
  have hheld : ∀ x, Held t [] x → Found s.heap s.ctxs x := by
    intro x hx
    induction hx with
    | root hx => rw [Found]; exact .root (by rw [h.ctxs]; simpa using hx)
    | step hx he ih => exact .step ih ((hnext _ hx _).2 he)
  obtain ⟨l, hw⟩ := h.wf
  have hc : Closed s.heap (Held t []) (fun k => ∃ n, t.kind k = .name n) := by
    constructor
    · intro x hx
      obtain ⟨o, o', e1, _⟩ := h0.like x hx
      exact ⟨o, e1⟩
    · intro x hx
      obtain ⟨o, o', e1, _⟩ := h0.like x hx
      exact hw.lt x ((hw.all x).1 (by rw [e1]; rfl))
    · intro x o hx e y hy
      exact .step hx ((hnext x hx y).1 ⟨o, e, .inl hy⟩)
    · intro x o hx e y hy
      have := (hnext x hx y).1 ⟨o, e, .inr hy⟩
      refine ⟨.step hx this, ?_⟩
      obtain ⟨o2, o', e1, e2, hl⟩ := h0.like x hx
      rw [e] at e1
      cases e1
      rw [hl.keys] at hy
      exact (h.ok.keys x o' e2 y hy).1
  obtain ⟨h', M, e, hw', hfr, hM1, hM2, hkeep, hfree, hno⟩ := collect_ok (plain := fun k => ∃ n, t.kind k = .name n) (ctx := s.ctxs) hw
    (by rintro x ⟨o, e, hm⟩; rw [h.un x o e] at hm; cases hm) hc
    (by intro c hc; rw [h.ctxs] at hc; exact .root (by simpa using hc))
    (by
      rintro k hk ⟨n, hn⟩ z hz
      obtain ⟨q, eq, hz⟩ := (hnext k hk z).1 hz
      have := h.ok.plain k q n hn eq
      rw [this.1, this.2] at hz
      simp at hz)
  refine ⟨{ s with heap := h' }, by simp only [Temp.cleanUp, if_true]; rw [e]; rfl, ?_⟩
  have hany : ∀ x o', h'.mem x = some o' → ∃ o g, s.heap.mem x = some o ∧ o' = { o with gnext := g } := by
    intro x o' e'
    cases eo : s.heap.mem x with
    | none => rw [hno x eo] at e'; cases e'
    | some o =>
      by_cases hk : M x ∨ o.sticky = true
      · obtain ⟨g, eg⟩ := hkeep x o eo hk
        rw [e'] at eg
        cases eg
        exact ⟨o, g, rfl, rfl⟩
      · have := hfree x o eo (fun hm => hk (.inl hm)) (by
          cases hs : o.sticky with
          | false => rfl
          | true => exact absurd (.inr hs) hk)
        rw [this] at e'
        cases e'
  refine ⟨h.ok, by simp, h.ctxs, h.kind, h.msg, by rw [← h.fresh]; exact hfr, ⟨_, hw'⟩, ?_, ?_, ?_, ?_⟩
  · intro x o' e'
    obtain ⟨o, g, eo, rfl⟩ := hany x o' e'
    exact h.un x o eo
  · intro c hc
    obtain ⟨o, eo, hs⟩ := h.sticky c hc
    obtain ⟨g, eg⟩ := hkeep c o eo (.inr hs)
    exact ⟨_, eg, hs⟩
  · intro y q eq hq
    obtain ⟨o, eo, hs⟩ := h.stick y q eq hq
    obtain ⟨g, eg⟩ := hkeep y o eo (.inr hs)
    exact ⟨_, eg, hs⟩
  · intro x hx
    obtain ⟨o, o', e1, e2, hl⟩ := h0.like x hx
    have : M x ∨ o.sticky = true := by
      rcases hM2 x (hheld x hx) with hc | hm
      · rw [h.ctxs] at hc
        obtain ⟨q, eq, hs⟩ := h.sticky x hc
        rw [e1] at eq
        cases eq
        exact .inr hs
      · exact .inl hm
    obtain ⟨g, eg⟩ := hkeep x o e1 this
    exact ⟨_, o', eg, e2, hl⟩

theorem Sim.setMsg {s t : St} {G : List Nat} (h : Sim s t G) (n : Nat) : Sim { s with inMsg := n } { t with inMsg := n } G :=
  ⟨⟨h.ok.lt, h.ok.outs, h.ok.keys, h.ok.plain, h.ok.ctx, h.ok.nodup⟩, h.vals, h.ctxs, h.kind, rfl, h.fresh, h.wf, h.un,
    h.sticky, h.stick, h.like⟩

/-! ### Pins -/

/-- The values pinned in an object. -/
def pins (s : St) (c : Nat) : List Nat :=
  match s.heap.mem c with
  | none => []
  | some o => (o.props.filter (isNamed s.kind 0)).map (·.2)

/-- What running something leaves as it was, and what it may only add to. -/
structure Frame (a b : St) : Prop where
  ctxs : b.ctxs = a.ctxs
  pins : ∀ c ∈ a.ctxs, Temp.pins a c <:+ Temp.pins b c
  kind : ∀ x, (∃ p, a.heap.mem x = some p) → (∃ p, b.heap.mem x = some p) ∧ b.kind x = a.kind x
  stick : ∀ x o, a.heap.mem x = some o → o.sticky = true → ∃ o', b.heap.mem x = some o' ∧ o'.sticky = true

theorem Frame.refl (a : St) : Frame a a := ⟨rfl, fun _ _ => List.suffix_rfl, fun _ h => ⟨h, rfl⟩, fun _ o h h' => ⟨o, h, h'⟩⟩

theorem Frame.trans {a b c : St} (h : Frame a b) (h' : Frame b c) : Frame a c where
  ctxs := h'.ctxs.trans h.ctxs
  pins x hx := (h.pins x hx).trans (h'.pins x (h.ctxs ▸ hx))
  kind x hx := by
    obtain ⟨h1, h2⟩ := h.kind x hx
    obtain ⟨h3, h4⟩ := h'.kind x h1
    exact ⟨h3, h4.trans h2⟩
  stick x o e hs := by
    obtain ⟨o', e', hs'⟩ := h.stick x o e hs
    exact h'.stick x o' e' hs'

theorem Frame.setMsg {a b : St} (h : Frame a b) (m n : Nat) : Frame { a with inMsg := m } { b with inMsg := n } :=
  ⟨h.ctxs, h.pins, h.kind, h.stick⟩

theorem pins_held {t : St} {c v : Nat} {G : List Nat} (hc : c ∈ t.ctxs) (hv : v ∈ pins t c) : Held t G v := by
  unfold pins at hv
  cases e : t.heap.mem c with
  | none => rw [e] at hv; cases hv
  | some o =>
    rw [e] at hv
    obtain ⟨p, hp, rfl⟩ := List.mem_map.1 hv
    refine .step (.root (List.mem_append.2 (.inl hc))) ⟨o, e, .inl ?_⟩
    simp only [Obj.outs, List.mem_append]
    exact .inl (.inr (List.mem_map.2 ⟨p, (List.mem_filter.1 hp).1, rfl⟩))

/-- Pins of an existing object do not change when an object is made. -/
theorem pins_make {t : St} (h : Ok t) (k : Kind) (a st : Bool) {c : Nat} (hc : c < t.heap.fresh) :
    pins (make t k a st).1 c = pins t c := by
  have hne : c ≠ t.heap.fresh := by omega
  unfold pins
  have e : (make t k a st).1.heap.mem c = t.heap.mem c := upd_ne _ _ hne
  rw [e]
  cases eo : t.heap.mem c with
  | none => rfl
  | some o =>
    simp only
    congr 1
    refine List.filter_congr ?_
    intro q hq
    have : q.1 ∈ o.keys := by
      simp only [Obj.keys, List.mem_append]
      exact .inl (List.mem_map.2 ⟨q, hq, rfl⟩)
    obtain ⟨_, p, ep⟩ := h.keys c o eo _ this
    have : q.1 ≠ t.heap.fresh := by have := h.lt _ p ep; omega
    simp [isNamed, make, this]

theorem Ok.ctx_lt {t : St} (h : Ok t) {c : Nat} (hc : c ∈ t.ctxs) : c < t.heap.fresh := by
  obtain ⟨_, p, ep⟩ := h.ctx c hc
  exact h.lt c p ep

theorem frame_make {t : St} (h : Ok t) (k : Kind) (a st : Bool) : Frame t (make t k a st).1 where
  ctxs := rfl
  pins c hc := by rw [pins_make h k a st (h.ctx_lt hc)]; exact List.suffix_rfl
  kind x hx := by
    obtain ⟨p, ep⟩ := hx
    have hne : x ≠ t.heap.fresh := by have := h.lt x p ep; omega
    exact ⟨⟨p, by rw [← ep]; exact upd_ne _ _ hne⟩, by simp [make, hne]⟩
  stick x o e hs := ⟨o, by rw [← e]; exact upd_ne _ _ (by have := h.lt x o e; omega), hs⟩

theorem change_ok {t t' : St} {x : Nat} {f : Obj → Obj} (e : change t x f = .ok t') :
    ∃ o, t.heap.mem x = some o ∧ t' = { t with heap := { t.heap with mem := upd t.heap.mem x (some (f o)) } } := by
  unfold change GC.modify at e
  cases eo : t.heap.mem x with
  | none => rw [eo] at e; cases e
  | some o => rw [eo, bind_ok] at e; cases e; exact ⟨o, rfl, rfl⟩

theorem pins_change_ne {t t' : St} {x : Nat} {f : Obj → Obj} (e : change t x f = .ok t') {c : Nat} (hc : c ≠ x) :
    pins t' c = pins t c := by
  obtain ⟨o, _, rfl⟩ := change_ok e
  simp only [pins, upd_ne _ _ hc]

theorem pins_change_same {t t' : St} {x : Nat} {f : Obj → Obj} {o : Obj} (eo : t.heap.mem x = some o)
    (e : change t x f = .ok t') : pins t' x = ((f o).props.filter (isNamed t.kind 0)).map (·.2) := by
  obtain ⟨o', eo', rfl⟩ := change_ok e
  rw [eo] at eo'
  cases eo'
  simp only [pins, upd_same]

theorem frame_change {t t' : St} {x : Nat} {f : Obj → Obj} (e : change t x f = .ok t')
    (hs : ∀ o, o.sticky = true → (f o).sticky = true)
    (hp : ∀ o, t.heap.mem x = some o → x ∈ t.ctxs → pins t x <:+ ((f o).props.filter (isNamed t.kind 0)).map (·.2)) :
    Frame t t' := by
  obtain ⟨o, eo, he⟩ := change_ok e
  refine ⟨by rw [he], ?_, ?_, ?_⟩
  · intro c hc
    by_cases hcx : c = x
    · subst hcx
      rw [pins_change_same eo e]
      exact hp o eo hc
    · rw [pins_change_ne e hcx]
      exact List.suffix_rfl
  · intro y hy
    rw [he]
    simp only
    refine ⟨?_, trivial⟩
    by_cases hyx : y = x
    · exact ⟨_, by rw [hyx, upd_same]⟩
    · rw [upd_ne _ _ hyx]; exact hy
  · intro y q eq hq
    rw [he]
    simp only
    by_cases hyx : y = x
    · subst hyx
      rw [eo] at eq
      cases eq
      exact ⟨_, upd_same _ _ _, hs _ hq⟩
    · exact ⟨q, by rw [upd_ne _ _ hyx, eq], hq⟩

/-! ### Operations in both runs -/

theorem tame_drop (kind : Nat → Kind) (m : Bool) (n : Nat) : Tame (dropNamed kind m n) := by
  constructor
  · intro o; unfold dropNamed; split <;> rfl
  · intro o; unfold dropNamed; split <;> rfl
  · intro o o' h
    unfold Obj.Like at h ⊢
    simp only [Obj.mk.injEq] at h
    unfold dropNamed
    split <;> simp only [h]

theorem tame_add (m : Bool) (k v : Nat) : Tame (addItem m k v) := by
  constructor
  · intro o; unfold addItem; split <;> rfl
  · intro o; unfold addItem; split <;> rfl
  · intro o o' h
    unfold Obj.Like at h ⊢
    simp only [Obj.mk.injEq] at h
    unfold addItem
    split <;> simp only [h]

theorem tame_push (v : Nat) : Tame (arrayPush v) := by
  constructor
  · intro o; rfl
  · intro o; rfl
  · intro o o' h
    unfold Obj.Like at h ⊢
    simp only [Obj.mk.injEq] at h
    simp only [arrayPush, h]

theorem tame_pop : Tame arrayPop := by
  constructor
  · intro o; unfold arrayPop; split <;> rfl
  · intro o; unfold arrayPop; split <;> rfl
  · intro o o' h
    unfold Obj.Like at h ⊢
    simp only [Obj.mk.injEq] at h
    unfold arrayPop
    rw [h.2.1, h.2.2.1]
    split <;> simp only [h]

theorem tame_shift : Tame arrayShift := by
  constructor
  · intro o; unfold arrayShift; split <;> rfl
  · intro o; unfold arrayShift; split <;> rfl
  · intro o o' h
    unfold Obj.Like at h ⊢
    simp only [Obj.mk.injEq] at h
    unfold arrayShift
    rw [h.2.1, h.2.2.1]
    split <;> simp only [h]

theorem tame_sticky (b : Bool) : Tame (fun o => { o with sticky := b }) := by
  constructor
  · intro o; rfl
  · intro o; rfl
  · intro o o' h
    unfold Obj.Like at h ⊢
    simp only [Obj.mk.injEq] at h
    simp only [h]

theorem drop_outs {kind : Nat → Kind} {m : Bool} {n y : Nat} {o : Obj} (h : y ∈ (dropNamed kind m n o).outs) : y ∈ o.outs := by
  unfold dropNamed at h
  simp only [Obj.outs, List.mem_append, List.mem_map] at h ⊢
  split at h
  · rcases h with h | ⟨p, hp, e⟩
    · exact .inl h
    · exact .inr ⟨p, List.mem_of_mem_eraseP hp, e⟩
  · rcases h with (h | ⟨p, hp, e⟩) | h
    · exact .inl (.inl h)
    · exact .inl (.inr ⟨p, List.mem_of_mem_eraseP hp, e⟩)
    · exact .inr h

theorem drop_keys {kind : Nat → Kind} {m : Bool} {n y : Nat} {o : Obj} (h : y ∈ (dropNamed kind m n o).keys) : y ∈ o.keys := by
  unfold dropNamed at h
  simp only [Obj.keys, List.mem_append, List.mem_map] at h ⊢
  split at h
  · rcases h with h | ⟨p, hp, e⟩
    · exact .inl h
    · exact .inr ⟨p, List.mem_of_mem_eraseP hp, e⟩
  · rcases h with ⟨p, hp, e⟩ | h
    · exact .inl ⟨p, List.mem_of_mem_eraseP hp, e⟩
    · exact .inr h

theorem drop_sticky (kind : Nat → Kind) (m : Bool) (n : Nat) (o : Obj) : (dropNamed kind m n o).sticky = o.sticky := by
  unfold dropNamed; split <;> rfl

theorem Sim.ctxHeld {s t : St} {G : List Nat} (_ : Sim s t G) {c : Nat} (hc : c ∈ t.ctxs) : Held t G c :=
  .root (List.mem_append.2 (.inl hc))

theorem Sim.delProp {s t t' : St} {G : List Nat} (h : Sim s t G) {m : Bool} {x n : Nat} (hx : Held t G x)
    (hxn : ∀ n, t.kind x ≠ .name n) (e : Temp.delProp t m x n = .ok t') :
    ∃ s', Temp.delProp s m x n = .ok s' ∧ Sim s' t' G := by
  unfold Temp.delProp at e ⊢
  rw [h.kind]
  refine h.change hx hxn (tame_drop _ _ _) (fun o _ hs => by rw [drop_sticky]; exact hs) ?_ e
  intro o y eo
  exact ⟨fun hy => ⟨(h.ok.outs x o eo y (drop_outs hy)).1, .inl (drop_outs hy)⟩,
    fun hy => ⟨(h.ok.keys x o eo y (drop_keys hy)).1, .inl (drop_keys hy)⟩⟩

theorem Sim.addProp {s t t' : St} {G : List Nat} (h : Sim s t G) {m : Bool} {x n v : Nat} (hx : Held t G x)
    (hxn : ∀ n, t.kind x ≠ .name n) (hv : Held t G v) (hvk : t.kind v = .value) (e : Temp.addProp t m x n v = .ok t') :
    ∃ s', Temp.addProp s m x n v = .ok s' ∧ Sim s' t' G := by
  obtain ⟨e1, h1, hk, ⟨o, o', eo, eo', hl, _, _, _⟩, hold⟩ := h.make (.name n) false false
  have hlift : ∀ y, Held t G y → Held (Temp.make t (.name n) false false).1 G y := by
    intro y hy
    induction hy with
    | root hy => exact .root hy
    | step hy he ih =>
      obtain ⟨q, eq, hb⟩ := he
      refine .step ih ⟨q, ?_, hb⟩
      rw [(hold _ _).2, eq]
      have := h.ok.lt _ q eq
      omega
  have hne : ∀ y, Held t G y → y ≠ t.heap.fresh := by
    intro y hy
    obtain ⟨p, ep⟩ := (h.ok.held h.vals hy).1
    have := h.ok.lt y p ep
    omega
  unfold Temp.addProp at e ⊢
  have hs : Temp.make s (.name n) false false = ((Temp.make s (.name n) false false).1, (Temp.make t (.name n) false false).2) := by
    rw [← e1]
  rw [hs]
  refine h1.change (hlift x hx) ?_ (tame_add _ _ _) (fun o _ hs => by rw [(addItem_flags m _ v o).2.2]; exact hs) ?_ e
  · intro n'
    rw [(hold x (hne x hx)).1]
    exact hxn n'
  · intro q y eq
    constructor
    · intro hy
      rcases addItem_outs hy with hy | hy
      · exact ⟨(h1.ok.outs x q eq y hy).1, .inl hy⟩
      · rw [List.mem_singleton] at hy
        subst hy
        exact ⟨by rw [(hold y (hne y hv)).1]; exact hvk, .inr (hlift y hv)⟩
    · intro hy
      rcases addItem_keys hy with hy | hy
      · exact ⟨(h1.ok.keys x q eq y hy).1, .inl hy⟩
      · rw [List.mem_singleton] at hy
        subst hy
        exact ⟨⟨n, hk⟩, .inr ⟨o, o', eo, eo', hl⟩⟩

end Verif.Model.Temp
