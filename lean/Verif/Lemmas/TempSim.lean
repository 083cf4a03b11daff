import Verif.Lemmas.TempRun
import Verif.Spec.Temp

/-! Helper lemmas about intermediate values: the simulation. -/

namespace Verif.Model.Temp

open Verif.Model.GC
open Verif.Spec.GC (Reach)
open Verif.Spec.Temp

theorem refers_iff {s : St} {x y : Nat} : Refers s x y ↔ Next s.heap x y := by
  unfold Refers Next Obj.outs Obj.keys
  constructor
  · rintro ⟨o, e, h⟩
    refine ⟨o, e, ?_⟩
    simp only [List.mem_append, List.mem_map]
    rcases h with ⟨h1, h2⟩ | ⟨p, hp, rfl | rfl⟩ | ⟨p, hp, rfl | rfl⟩
    · exact .inl (.inl (.inl (by rw [if_pos h1]; exact h2)))
    · exact .inl (.inl (.inr ⟨p, hp, rfl⟩))
    · exact .inr (.inl ⟨p, hp, rfl⟩)
    · exact .inl (.inr ⟨p, hp, rfl⟩)
    · exact .inr (.inr ⟨p, hp, rfl⟩)
  · rintro ⟨o, e, h⟩
    refine ⟨o, e, ?_⟩
    simp only [List.mem_append, List.mem_map] at h
    rcases h with ((h | ⟨p, hp, rfl⟩) | ⟨p, hp, rfl⟩) | ⟨p, hp, rfl⟩ | ⟨p, hp, rfl⟩
    · by_cases ha : o.isArray = true
      · rw [if_pos ha] at h; exact .inl ⟨ha, h⟩
      · rw [if_neg ha] at h; cases h
    · exact .inr (.inl ⟨p, hp, .inl rfl⟩)
    · exact .inr (.inr ⟨p, hp, .inl rfl⟩)
    · exact .inr (.inl ⟨p, hp, .inr rfl⟩)
    · exact .inr (.inr ⟨p, hp, .inr rfl⟩)

theorem reaches_iff {s : St} {G : List Nat} {x : Nat} : Reaches s G x ↔ Held s G x := by
  constructor
  · intro h
    induction h with
    | root h => exact .root h
    | step _ he ih => exact .step ih (refers_iff.1 he)
  · intro h
    induction h with
    | root h => exact .root h
    | step _ he ih => exact .step ih (refers_iff.2 he)

theorem var_ok {regs : List Nat} {i v : Nat} : var? regs i = .ok v ↔ regs[i]? = some v := by
  unfold var?
  cases regs[i]? with
  | none => exact ⟨(fun h => nomatch h), (fun h => nomatch h)⟩
  | some w => exact ⟨fun h => by cases h; rfl, fun h => by cases h; rfl⟩

/-- The values of some C variables. -/
def live (regs U : List Nat) : List Nat := U.filterMap (fun i => regs[i]?)

theorem mem_live {regs U : List Nat} {v : Nat} : v ∈ live regs U ↔ ∃ i ∈ U, regs[i]? = some v := List.mem_filterMap

theorem Frame.held_pin {a b : St} {c v : Nat} {G : List Nat} (h : Frame a b) (hc : c ∈ a.ctxs) (hv : v ∈ Temp.pins a c) : Held b G v :=
  pins_held (h.ctxs ▸ hc) ((h.pins c hc).subset hv)

theorem Frame.vals {a b : St} (h : Frame a b) {v : Nat} (hv : a.kind v = .value ∧ ∃ p, a.heap.mem v = some p) :
    b.kind v = .value ∧ ∃ p, b.heap.mem v = some p := by
  obtain ⟨h1, h2⟩ := h.kind v hv.2
  exact ⟨h2.trans hv.1, h1⟩

theorem Sim.seqAt {s t : St} {G : List Nat} (h : Sim s t G) {x : Nat} (hx : x ∈ G) {o : Obj} (e : Temp.seqAt t x = .ok o) :
    t.heap.mem x = some o ∧ o.isArray = true ∧ ∃ o', Temp.seqAt s x = .ok o' ∧ o.Like o' := by
  unfold Temp.seqAt at e ⊢
  obtain ⟨q, eq, e2⟩ := of_bind e
  obtain ⟨o', eo', hl, _, em⟩ := h.obj (.root (List.mem_append.2 (.inr hx))) eq
  by_cases ha : q.isArray = true
  · rw [if_pos ha] at e2
    cases e2
    refine ⟨em, ha, o', ?_, hl⟩
    rw [eo', bind_ok, if_pos (by rw [(Obj.Like.props hl).2.2.2.1]; exact ha)]
  · rw [if_neg ha] at e2; cases e2

/-- Steps that change a sequence. -/
theorem Sim.changeSeq {s t t' : St} {G : List Nat} (h : Sim s t G) {x : Nat} (hx : x ∈ G) {f : Obj → Obj} (hf : Tame f)
    (hk : ∀ o, (f o).props = o.props ∧ (f o).methods = o.methods ∧ (f o).sticky = o.sticky)
    (ho : ∀ o y, t.heap.mem x = some o → y ∈ (f o).outs → y ∈ o.outs ∨ y ∈ G) (e : Temp.change t x f = .ok t') :
    ∃ s', Temp.change s x f = .ok s' ∧ Sim s' t' G ∧ Frame t t' := by
  have hkv := (h.vals x hx).1
  obtain ⟨s', e1, h1⟩ := h.change (.root (List.mem_append.2 (.inr hx))) (value_not_name hkv) hf
    (fun _ hc => absurd hc (value_not_ctx h.ok hkv))
    (fun o y eo => ⟨fun hy => by
      rcases ho o y eo hy with hy | hy
      · exact ⟨(h.ok.outs x o eo y hy).1, .inl hy⟩
      · exact ⟨(h.vals y hy).1, .inr (.root (List.mem_append.2 (.inr hy)))⟩,
     fun hy => by
      have : (f o).keys = o.keys := by unfold Obj.keys; rw [(hk o).1, (hk o).2.1]
      rw [this] at hy
      exact ⟨(h.ok.keys x o eo y hy).1, .inl hy⟩⟩) e
  exact ⟨s', e1, h1, frame_change e (fun o hs => by rw [(hk o).2.2]; exact hs)
    fun o _ hc => absurd hc (value_not_ctx h.ok hkv)⟩

theorem outs_elems {o o' : Obj} {y : Nat} (hp : o'.props = o.props ∧ o'.methods = o.methods ∧ o'.isArray = o.isArray)
    (he : ∀ y ∈ o'.elems, y ∈ o.elems) (h : y ∈ o'.outs) : y ∈ o.outs := by
  unfold Obj.outs at h ⊢
  rw [hp.1, hp.2.1, hp.2.2] at h
  simp only [List.mem_append] at h ⊢
  rcases h with (h | h) | h
  · refine .inl (.inl ?_)
    split at h
    · rename_i ha
      rw [if_pos ha]
      exact he y h
    · cases h
  · exact .inl (.inr h)
  · exact .inr h

theorem Sim.basic {s t t' : St} {G regs regs' : List Nat} (h : Sim s t G) {b : Basic}
    (hu : ∀ i ∈ readsOf b, ∀ v, regs[i]? = some v → v ∈ G) (e : Temp.basic t regs b = .ok (t', regs')) :
    ∃ s' new, Temp.basic s regs b = .ok (s', regs') ∧ regs' = regs ++ new ∧ Sim s' t' (new ++ G) ∧ Frame t t' := by
  cases b with
  | new a =>
    cases e
    obtain ⟨h1, h2⟩ := h.makeValue a
    refine ⟨(Temp.make s .value a false).1, [t.heap.fresh], ?_, rfl, h2, frame_make h.ok _ _ _⟩
    show Out.ok (_, regs ++ [(Temp.make s .value a false).2]) = _
    rw [h1]
    rfl
  | elem i j =>
    simp only [Temp.basic] at e ⊢
    obtain ⟨x, e1, e2⟩ := of_bind e
    obtain ⟨o, e3, e4⟩ := of_bind e2
    have hx := hu i List.mem_cons_self x (var_ok.1 e1)
    obtain ⟨em, ha, o', eo', hl⟩ := h.seqAt hx e3
    obtain ⟨v, e5, e4⟩ := of_bind e4
    cases e4
    obtain ⟨e6, h6⟩ := h.orNil (r := o.elems[o.tail + j]?) (by
      intro w hw
      have hm : w ∈ o.outs := by
        simp only [Obj.outs, List.mem_append]
        exact .inl (.inl (by rw [if_pos ha]; exact List.mem_of_getElem? hw))
      exact ⟨.step (.root (List.mem_append.2 (.inr hx))) ⟨o, em, .inl hm⟩, (h.ok.outs x o em w hm).1⟩) e5
    refine ⟨s, [v], ?_, rfl, h6, Frame.refl _⟩
    rw [e1, bind_ok, eo', bind_ok, (Obj.Like.props hl).2.2.1, (Obj.Like.props hl).2.2.2.2.1, e6, bind_ok]
  | get m i n =>
    simp only [Temp.basic] at e ⊢
    obtain ⟨x, e1, e2⟩ := of_bind e
    obtain ⟨r, e3, e4⟩ := of_bind e2
    have hx := hu i List.mem_cons_self x (var_ok.1 e1)
    obtain ⟨h1, h2⟩ := h.findProp (.root (List.mem_append.2 (.inr hx))) e3
    obtain ⟨v, e5, e4⟩ := of_bind e4
    cases e4
    obtain ⟨e6, h6⟩ := h.orNil h2 e5
    exact ⟨s, [v], by rw [e1, bind_ok, h1, bind_ok, e6, bind_ok], rfl, h6, Frame.refl _⟩
  | put m i n v =>
    simp only [Temp.basic] at e ⊢
    obtain ⟨x, e1, e2⟩ := of_bind e
    obtain ⟨w, e3, e4⟩ := of_bind e2
    obtain ⟨t1, e5, e6⟩ := of_bind e4
    cases e6
    have hx := hu i List.mem_cons_self x (var_ok.1 e1)
    have hw := hu v (List.mem_cons_of_mem _ List.mem_cons_self) w (var_ok.1 e3)
    have hk := (h.vals x hx).1
    obtain ⟨s1, e7, h7, f7⟩ := h.setProp (.root (List.mem_append.2 (.inr hx))) (value_not_name hk) hw
      (fun hc => absurd hc (value_not_ctx h.ok hk)) e5 (.inr hx)
    exact ⟨s1, [], by rw [e1, bind_ok, e3, bind_ok, e7, bind_ok], by rw [List.append_nil], h7, f7⟩
  | del m i n =>
    simp only [Temp.basic] at e ⊢
    obtain ⟨x, e1, e2⟩ := of_bind e
    obtain ⟨t1, e3, e4⟩ := of_bind e2
    cases e4
    have hx := hu i List.mem_cons_self x (var_ok.1 e1)
    have hk := (h.vals x hx).1
    obtain ⟨s1, e5, h5⟩ := h.delProp (.root (List.mem_append.2 (.inr hx))) (value_not_name hk) e3
    exact ⟨s1, [], by rw [e1, bind_ok, e5, bind_ok], by rw [List.append_nil], h5,
      frame_del e3 fun hc => absurd hc (value_not_ctx h.ok hk)⟩
  | push i v =>
    simp only [Temp.basic] at e ⊢
    obtain ⟨x, e1, e2⟩ := of_bind e
    obtain ⟨w, e3, e4⟩ := of_bind e2
    obtain ⟨o, e5, e6⟩ := of_bind e4
    obtain ⟨t1, e7, e8⟩ := of_bind e6
    cases e8
    have hx := hu i List.mem_cons_self x (var_ok.1 e1)
    have hw := hu v (List.mem_cons_of_mem _ List.mem_cons_self) w (var_ok.1 e3)
    obtain ⟨_, _, o', eo', _⟩ := h.seqAt hx e5
    obtain ⟨s1, e9, h9, f9⟩ := h.changeSeq hx (tame_push w) (fun _ => ⟨rfl, rfl, rfl⟩) (by
      intro q y _ hy
      unfold Obj.outs arrayPush at hy
      unfold Obj.outs
      simp only [List.mem_append] at hy ⊢
      rcases hy with (hy | hy) | hy
      · split at hy
        · rename_i hq
          rcases List.mem_append.1 hy with hy | hy
          · exact .inl (.inl (.inl (by rw [if_pos hq]; exact hy)))
          · rw [List.mem_singleton] at hy
            subst hy
            exact .inr hw
        · cases hy
      · exact .inl (.inl (.inr hy))
      · exact .inl (.inr hy)) e7
    exact ⟨s1, [], by rw [e1, bind_ok, e3, bind_ok, eo', bind_ok, e9, bind_ok], by rw [List.append_nil], h9, f9⟩
  | pop i =>
    simp only [Temp.basic] at e ⊢
    obtain ⟨x, e1, e4⟩ := of_bind e
    obtain ⟨o, e5, e6⟩ := of_bind e4
    obtain ⟨t1, e7, e8⟩ := of_bind e6
    cases e8
    have hx := hu i List.mem_cons_self x (var_ok.1 e1)
    obtain ⟨_, _, o', eo', _⟩ := h.seqAt hx e5
    obtain ⟨s1, e9, h9, f9⟩ := h.changeSeq hx tame_pop (fun o => by unfold arrayPop; split <;> exact ⟨rfl, rfl, rfl⟩) (by
      intro q y _ hy
      refine .inl (outs_elems (o := q) ?_ ?_ hy)
      · unfold arrayPop; split <;> exact ⟨rfl, rfl, rfl⟩
      · intro z hz
        unfold arrayPop at hz
        split at hz
        · exact hz
        · exact List.dropLast_subset _ hz) e7
    exact ⟨s1, [], by rw [e1, bind_ok, eo', bind_ok, e9, bind_ok], by rw [List.append_nil], h9, f9⟩
  | shift i =>
    simp only [Temp.basic] at e ⊢
    obtain ⟨x, e1, e4⟩ := of_bind e
    obtain ⟨o, e5, e6⟩ := of_bind e4
    obtain ⟨t1, e7, e8⟩ := of_bind e6
    cases e8
    have hx := hu i List.mem_cons_self x (var_ok.1 e1)
    obtain ⟨_, _, o', eo', _⟩ := h.seqAt hx e5
    obtain ⟨s1, e9, h9, f9⟩ := h.changeSeq hx tame_shift (fun o => by unfold arrayShift; split <;> exact ⟨rfl, rfl, rfl⟩) (by
      intro q y _ hy
      refine .inl (outs_elems (o := q) ?_ ?_ hy)
      · unfold arrayShift; split <;> exact ⟨rfl, rfl, rfl⟩
      · intro z hz
        unfold arrayShift at hz
        split at hz <;> exact hz) e7
    exact ⟨s1, [], by rw [e1, bind_ok, eo', bind_ok, e9, bind_ok], by rw [List.append_nil], h9, f9⟩
  | pin i =>
    simp only [Temp.basic] at e ⊢
    obtain ⟨x, e1, e2⟩ := of_bind e
    obtain ⟨t1, e3, e4⟩ := of_bind e2
    cases e4
    have hx := hu i List.mem_cons_self x (var_ok.1 e1)
    obtain ⟨s1, e5, h5, f5⟩ := h.pin hx e3
    exact ⟨s1, [], by rw [e1, bind_ok, e5, bind_ok], by rw [List.append_nil], h5, f5⟩

theorem Sim.bindParams {G regs : List Nat} : ∀ {ps : List (Nat × Nat)} {s t t' : St}, Sim s t G →
    (∀ i ∈ ps.map (·.2), ∀ v, regs[i]? = some v → v ∈ G) → Temp.bindParams regs t ps = .ok t' →
    ∃ s', Temp.bindParams regs s ps = .ok s' ∧ Sim s' t' G ∧ Frame t t'
  | [], s, t, t', h, _, e => by
    cases e
    exact ⟨s, rfl, h, Frame.refl _⟩
  | (n, i) :: ps, s, t, t', h, hu, e => by
    unfold Temp.bindParams at e ⊢
    obtain ⟨v, e1, e2⟩ := of_bind e
    obtain ⟨t1, e3, e4⟩ := of_bind e2
    obtain ⟨s1, e5, h5, f5⟩ := h.setLocal (hu i List.mem_cons_self v (var_ok.1 e1)) e3
    obtain ⟨s2, e6, h6, f6⟩ := Sim.bindParams h5 (fun j hj => hu j (List.mem_cons_of_mem _ hj)) e4
    exact ⟨s2, by rw [e1, bind_ok, e5, bind_ok, e6], h6, f5.trans f6⟩

theorem Sim.bindSelf {s t t' : St} {G : List Nat} (h : Sim s t G) {b : Nat} {my : Option Nat} (hb : b ∈ G) (hm : ∀ m, my = some m → m ∈ G)
    (e : Temp.bindSelf t b my = .ok t') : ∃ s', Temp.bindSelf s b my = .ok s' ∧ Sim s' t' G ∧ Frame t t' := by
  unfold Temp.bindSelf at e ⊢
  cases my with
  | none =>
    rw [bind_ok] at e ⊢
    exact h.setLocal hb e
  | some m =>
    simp only at e ⊢
    obtain ⟨t1, e1, e2⟩ := of_bind e
    obtain ⟨s1, e3, h3, f3⟩ := h.setLocal (hm m rfl) e1
    obtain ⟨s2, e4, h4, f4⟩ := h3.setLocal hb e2
    exact ⟨s2, by rw [e3, bind_ok, e4], h4, f3.trans f4⟩

/-- The end of a block: what it answers is held, and the scopes and pins outside are as before or more. -/
theorem Sim.leave {s t a t' : St} {b v : Nat} {my answer : Option Nat}
    (h : Sim s t [answer.getD (my.getD b)]) (ha : Ok a) (hf : Frame (Temp.openScope a) t)
    (e : Temp.leave t b my answer = .ok (t', v)) :
    ∃ s', Temp.leave s b my answer = .ok (s', v) ∧ Sim s' t' [v] ∧ Frame a t' := by
  unfold Temp.leave at e ⊢
  simp only at e ⊢
  obtain ⟨t1, e1, e2⟩ := of_bind e
  have hc1 : t.ctxs = a.heap.fresh :: a.ctxs := hf.ctxs
  obtain ⟨s1, e3, h3, c3, k3, p3, m3, i3⟩ := h.closeScope hc1 e1
  have f1 : Frame a t1 := by
    have fm := frame_make ha .scope false true
    refine ⟨c3, ?_, ?_, ?_⟩
    · intro d hd
      rw [p3 d]
      refine List.IsSuffix.trans ?_ (hf.pins d (List.mem_cons_of_mem _ hd))
      have := fm.pins d hd
      exact this
    · intro x hx
      obtain ⟨h1, h2⟩ := fm.kind x hx
      obtain ⟨h4, h5⟩ := hf.kind x h1
      obtain ⟨p, ep⟩ := hx
      have hne : x ≠ a.heap.fresh := by have := ha.lt x p ep; omega
      rw [m3 x hne, k3]
      exact ⟨h4, h5.trans h2⟩
    · intro x o eo hs
      have hne : x ≠ a.heap.fresh := by have := ha.lt x o eo; omega
      rw [m3 x hne]
      obtain ⟨o1, eo1, hs1⟩ := fm.stick x o eo hs
      exact hf.stick x o1 eo1 hs1
  rw [e3, bind_ok, h3.msg]
  by_cases hi : t1.inMsg > 0
  · rw [if_pos hi] at e2 ⊢
    obtain ⟨t2, e4, e5⟩ := of_bind e2
    cases e5
    obtain ⟨s2, e6, h6, f6⟩ := h3.pin List.mem_cons_self e4
    exact ⟨s2, by rw [e6, bind_ok], h6, f1.trans f6⟩
  · rw [if_neg hi] at e2 ⊢
    cases e2
    exact ⟨s1, rfl, h3, f1⟩

theorem varvar_ok {regs : List Nat} {my : Option Nat} {me : Option Nat} (e : var?? regs my = .ok me) :
    (my = none ∧ me = none) ∨ ∃ i m, my = some i ∧ me = some m ∧ regs[i]? = some m := by
  cases my with
  | none => cases e; exact .inl ⟨rfl, rfl⟩
  | some i =>
    unfold var?? at e
    obtain ⟨m, e1, e2⟩ := of_bind e
    cases e2
    exact .inr ⟨i, m, rfl, rfl, var_ok.1 e1⟩

/-- C variables that are pinned in the innermost scope. -/
def Guarded (t : St) (c : Nat) (safe regs : List Nat) : Prop := ∀ i ∈ safe, ∃ v, regs[i]? = some v ∧ v ∈ pins t c

theorem Guarded.frame {a b : St} {c : Nat} {safe regs new : List Nat} (h : Guarded a c safe regs) (hc : c ∈ a.ctxs) (hf : Frame a b) :
    Guarded b c safe (regs ++ new) := by
  intro i hi
  obtain ⟨v, e, hv⟩ := h i hi
  refine ⟨v, ?_, (hf.pins c hc).subset hv⟩
  have : i < regs.length := by
    rcases Nat.lt_or_ge i regs.length with h | h
    · exact h
    · rw [List.getElem?_eq_none h] at e; cases e
  rw [List.getElem?_append_left this, e]

theorem guarded_pin {t t' : St} {c i v : Nat} {rest safe regs : List Nat} (ht : Ok t) (hc : t.ctxs = c :: rest)
    (h : Guarded t' c safe regs) (hi : regs[i]? = some v) (e : pin t v = .ok t') : Guarded t' c (i :: safe) regs := by
  intro j hj
  rcases List.mem_cons.1 hj with rfl | hj
  · exact ⟨v, hi, by rw [pins_pin ht hc e]; exact List.mem_cons_self⟩
  · exact h j hj

theorem unpin_stick : ∀ {k : Nat} {t t' : St}, unpin t k = .ok t' → ∀ {x : Nat} {o : Obj}, t.heap.mem x = some o → o.sticky = true →
    ∃ o', t'.heap.mem x = some o' ∧ o'.sticky = true
  | 0, _, _, e, x, o, eo, hs => by cases e; exact ⟨o, eo, hs⟩
  | k + 1, t, t', e, x, o, eo, hs => by
    unfold unpin at e
    cases hc : t.ctxs with
    | nil => rw [hc] at e; cases e
    | cons c rest =>
      rw [hc] at e
      simp only at e
      obtain ⟨t1, e1, e2⟩ := of_bind e
      obtain ⟨q, eq, ht⟩ := change_ok e1
      have : ∃ o1, t1.heap.mem x = some o1 ∧ o1.sticky = true := by
        rw [ht]
        by_cases hx : x = c
        · subst hx
          rw [eo] at eq
          cases eq
          exact ⟨_, upd_same _ _ _, by rw [drop_sticky]; exact hs⟩
        · exact ⟨o, by rw [← eo]; exact upd_ne _ _ hx, hs⟩
      obtain ⟨o1, eo1, hs1⟩ := this
      exact unpin_stick e2 eo1 hs1

/-- The C variables that are read later are held after a call or a collection. -/
theorem Sim.relive {s t a : St} {c : Nat} {rest safe regs new U : List Nat} (h : Sim s t new) (hf : Frame a t) (hc : a.ctxs = c :: rest)
    (hg : Guarded a c safe regs) (hv : ∀ v ∈ live regs U, a.kind v = .value ∧ ∃ p, a.heap.mem v = some p)
    (hU : ∀ i ∈ U, i ∈ safe ∨ ∀ w, regs[i]? = some w → Held t new w) :
    Sim s t (live (regs ++ new) U) := by
  refine h.weaken ?_
  intro w hw
  obtain ⟨i, hi, e⟩ := mem_live.1 hw
  rcases Nat.lt_or_ge i regs.length with hlt | hge
  · rw [List.getElem?_append_left hlt] at e
    refine ⟨(hf.vals (hv w (mem_live.2 ⟨i, hi, e⟩))).1, ?_⟩
    rcases hU i hi with hs | hs
    · obtain ⟨v, ev, hvp⟩ := hg i hs
      rw [e] at ev
      cases ev
      exact hf.held_pin (by rw [hc]; exact List.mem_cons_self) hvp
    · exact hs w e
  · rw [List.getElem?_append_right hge] at e
    have hm := List.mem_of_getElem? e
    exact ⟨(h.vals w hm).1, .root (List.mem_append.2 (.inr hm))⟩

theorem not_mem_range {i n : Nat} (h : i ∈ List.range' 1 n) : 1 ≤ i ∧ i < 1 + n := by
  have := List.mem_range'_1.1 h
  exact this

mutual
theorem sim_eval {s t : St} {G : List Nat} {c : Nat} {rest : List Nat} (h : Sim s t G) (hc : t.ctxs = c :: rest) (x : Exp)
    (hq : CalmExp t x) {t' : St} {v : Nat} (e : eval false t x = .ok (t', v)) :
    ∃ s', eval true s x = .ok (s', v) ∧ Sim s' t' [v] ∧ Frame t t' := by
  match x with
  | .lit =>
    rw [eval] at e ⊢
    cases e
    obtain ⟨h1, h2⟩ := h.makeValue false
    refine ⟨(make s .value false false).1, ?_, h2.sub (by simp [make]), frame_make h.ok _ _ _⟩
    rw [← Prod.eta (make s .value false false), h1]
    rfl
  | .ref n =>
    rw [eval] at e ⊢
    obtain ⟨r, e1, e2⟩ := of_bind e
    obtain ⟨h1, h2⟩ := h.find e1
    obtain ⟨w, e2, e4⟩ := of_bind e2
    cases e4
    obtain ⟨e3, h3⟩ := h.orNil h2 e2
    exact ⟨s, by rw [h1, bind_ok, e3, bind_ok], h3.sub (by simp), Frame.refl _⟩
  | .own n =>
    rw [eval] at e ⊢
    obtain ⟨r, e1, e2⟩ := of_bind e
    obtain ⟨h1, h2⟩ := h.findOwn e1
    obtain ⟨w, e2, e4⟩ := of_bind e2
    cases e4
    obtain ⟨e3, h3⟩ := h.orNil h2 e2
    exact ⟨s, by rw [h1, bind_ok, e3, bind_ok], h3.sub (by simp), Frame.refl _⟩
  | .loc n y =>
    rw [eval] at e ⊢
    obtain ⟨⟨t1, w⟩, e1, e2⟩ := of_bind e
    obtain ⟨t2, e3, e4⟩ := of_bind e2
    cases e4
    rw [CalmExp] at hq
    obtain ⟨s1, e5, h5, f5⟩ := sim_eval h hc y hq e1
    obtain ⟨s2, e6, h6, f6⟩ := h5.setLocal List.mem_cons_self e3
    exact ⟨s2, by rw [e5, bind_ok]; simp only; rw [e6, bind_ok], h6, f5.trans f6⟩
  | .var n y =>
    rw [eval] at e ⊢
    obtain ⟨⟨t1, w⟩, e1, e2⟩ := of_bind e
    obtain ⟨t2, e3, e4⟩ := of_bind e2
    cases e4
    rw [CalmExp] at hq
    obtain ⟨s1, e5, h5, f5⟩ := sim_eval h hc y hq e1
    obtain ⟨s2, e6, h6, f6⟩ := h5.setVar List.mem_cons_self e3
    exact ⟨s2, by rw [e5, bind_ok]; simp only; rw [e6, bind_ok], h6, f5.trans f6⟩
  | .ownSet n y =>
    rw [eval] at e ⊢
    obtain ⟨⟨t1, w⟩, e1, e2⟩ := of_bind e
    obtain ⟨t2, e3, e4⟩ := of_bind e2
    cases e4
    rw [CalmExp] at hq
    obtain ⟨s1, e5, h5, f5⟩ := sim_eval h hc y hq e1
    obtain ⟨s2, e6, h6, f6⟩ := h5.setOwn List.mem_cons_self e3
    exact ⟨s2, by rw [e5, bind_ok]; simp only; rw [e6, bind_ok], h6, f5.trans f6⟩
  | .msg recv ms =>
    rw [eval] at e ⊢
    obtain ⟨⟨t1, w⟩, e1, e2⟩ := of_bind e
    rw [CalmExp] at hq
    obtain ⟨s1, e5, h5, f5⟩ := sim_eval h hc recv hq.1 e1
    obtain ⟨s2, e6, h6, f6⟩ := sim_chain h5 (by rw [f5.ctxs, hc]) ms (hq.2 _ _ e1) e2
    refine ⟨s2, ?_, h6, f5.trans f6⟩
    rw [e5, bind_ok]
    simp only
    rw [h5.msg, e6]

theorem sim_chain {s t : St} {c : Nat} {rest : List Nat} {r level : Nat} {lit : Bool} (h : Sim s t [r]) (hc : t.ctxs = c :: rest)
    (ms : List Msg) (hq : CalmChain t level lit r ms) {t' : St} {v : Nat} (e : chain false t level lit r ms = .ok (t', v)) :
    ∃ s', chain true s level lit r ms = .ok (s', v) ∧ Sim s' t' [v] ∧ Frame t t' := by
  match ms with
  | [] =>
    rw [chain] at e ⊢
    cases e
    exact ⟨s, rfl, h, Frame.refl _⟩
  | .mk args steps res :: ms =>
    rw [chain] at e ⊢
    rw [CalmChain] at hq
    obtain ⟨⟨t1, old⟩, e1, e⟩ := of_bind e
    simp only at e
    obtain ⟨t2, e2, e⟩ := of_bind e
    obtain ⟨⟨t3, vs⟩, e3, e⟩ := of_bind e
    simp only at e
    obtain ⟨⟨t4, regs⟩, e4, e⟩ := of_bind e
    simp only at e
    obtain ⟨w, e5, e⟩ := of_bind e
    obtain ⟨t5, e6, e⟩ := of_bind e
    obtain ⟨t6, e7, e⟩ := of_bind e
    obtain ⟨⟨t7, u⟩, e8, e⟩ := of_bind e
    cases e
    obtain ⟨hqa, hq⟩ := hq t1 old e1 t2 e2
    obtain ⟨hqr, hqs, hq⟩ := hq t3 vs e3
    have hq := hq t4 regs e4 w e5 t5 e6 t6 e7
    -- the receiver is held
    obtain ⟨s1, g1, h1, f1, st1, old1⟩ := (h.setMsg level).holdR List.mem_cons_self e1
    have c1 : t1.ctxs = c :: rest := by rw [f1.ctxs]; exact hc
    have hpin : ∃ s2, (if lit then pin s1 r else .ok s1) = .ok s2 ∧ Sim s2 t2 [r] ∧ Frame t1 t2 ∧
        (lit = true → pins t2 c = r :: pins t1 c) := by
      cases lit with
      | true =>
        obtain ⟨s2, g2, h2, f2⟩ := h1.pin List.mem_cons_self e2
        exact ⟨s2, g2, h2, f2, fun _ => pins_pin h1.ok c1 e2⟩
      | false =>
        cases e2
        exact ⟨s1, rfl, h1, Frame.refl _, fun h => nomatch h⟩
    obtain ⟨s2, g2, h2, f2, p2⟩ := hpin
    have c2 : t2.ctxs = c :: rest := by rw [f2.ctxs, c1]
    have hm2 : c ∈ t2.ctxs := by rw [c2]; exact List.mem_cons_self
    -- arguments
    obtain ⟨s3, g3, h3, f3, ⟨ex, x1, x2, x3⟩, k3⟩ := sim_args h2 c2 args hqa e3
    have c3 : t3.ctxs = c :: rest := by rw [f3.ctxs, c2]
    have hm3 : c ∈ t3.ctxs := by rw [c3]; exact List.mem_cons_self
    have kr2 := h2.vals r List.mem_cons_self
    have kr3 := f3.vals kr2
    have hlive : Sim s3 t3 (live (r :: vs) (reads steps ++ [res])) := by
      refine h3.weaken ?_
      intro y hy
      obtain ⟨i, hi, ei⟩ := mem_live.1 hy
      cases i with
      | zero =>
        cases ei
        refine ⟨kr3.1, ?_⟩
        rcases hqr with hl | ha | hn | hr
        · refine pins_held hm3 ?_
          rw [x1, p2 hl]
          exact List.mem_append.2 (.inr List.mem_cons_self)
        · subst ha
          exact .root (List.mem_append.2 (.inr (by rw [if_pos rfl]; exact List.mem_cons_self)))
        · exact absurd hi hn
        · have := reaches_iff.1 hr
          exact Spec.GC.Reach.rec (motive := fun z _ => Reach (Next t3.heap) (t3.ctxs ++ (if args = [] then [r] else [])) z)
            (fun {z} hz => .root (by
              rw [List.append_nil] at hz
              exact List.mem_append.2 (.inl hz))) (fun _ he ih => .step ih he) this
      | succ i =>
        have hv : y ∈ vs := List.mem_of_getElem? (by simpa using ei)
        refine ⟨(k3 y hv).1, pins_held hm3 ?_⟩
        rw [x1]
        exact List.mem_append.2 (.inl (x3 y hv))
    have hguard : Guarded t3 c ((if lit then [0] else []) ++ List.range' 1 vs.length) (r :: vs) := by
      intro i hi
      rcases List.mem_append.1 hi with hi | hi
      · cases lit with
        | false => simp at hi
        | true =>
          simp only [if_true, List.mem_singleton] at hi
          subst hi
          refine ⟨r, rfl, ?_⟩
          rw [x1, p2 rfl]
          exact List.mem_append.2 (.inr List.mem_cons_self)
      · obtain ⟨i1, i2⟩ := not_mem_range hi
        obtain ⟨j, rfl⟩ : ∃ j, i = j + 1 := ⟨i - 1, by omega⟩
        have hj : j < vs.length := by omega
        refine ⟨vs[j], by simp [hj], ?_⟩
        rw [x1]
        exact List.mem_append.2 (.inl (x3 _ (List.getElem_mem hj)))
    -- the operation
    obtain ⟨s4, g4, h4, f4⟩ := sim_steps hlive c3 hguard steps rfl hqs e4
    have c4 : t4.ctxs = c :: rest := by rw [f4.ctxs, c3]
    have hw : w ∈ live regs [res] := mem_live.2 ⟨res, List.mem_cons_self, var_ok.1 e5⟩
    have h4w : Sim s4 t4 [w] := h4.sub (by
      intro y hy
      rw [List.mem_singleton] at hy
      subst hy
      exact hw)
    have f24 := f3.trans f4
    have f14 := f2.trans f24
    obtain ⟨o1, so1, ss1⟩ := st1
    have kr4 := f24.vals kr2
    obtain ⟨s5, g5, h5, c5, k5, p5, m5, r5⟩ := h4w.letGoR kr4.1 (f14.stick r o1 so1 ss1) e6
    obtain ⟨s6, g6, h6, c6, k6, p6⟩ := h5.unpin e7
    obtain ⟨p6a, p6b⟩ := p6 c rest (by rw [c5, c4])
    have c6' : t6.ctxs = c :: rest := by rw [c6, c5, c4]
    -- the messages that follow
    obtain ⟨s7, g7, h7, f7⟩ := sim_chain h6 c6' ms hq e8
    refine ⟨{ s7 with inMsg := level }, ?_, h7.setMsg level, ?_⟩
    · rw [g1, bind_ok]
      simp only
      rw [g2, bind_ok, g3, bind_ok]
      simp only
      rw [g4, bind_ok]
      simp only
      rw [e5, bind_ok, g5, bind_ok, g6, bind_ok, g7, bind_ok]
    · have f06 : Frame t t6 := by
        refine ⟨by rw [c6', hc], ?_, ?_, ?_⟩
        · intro d hd
          rw [hc] at hd
          have hd1 : d ∈ t1.ctxs := by rw [c1]; exact hd
          have hd0 : d ∈ t.ctxs := by rw [hc]; exact hd
          have a1 : pins t d <:+ pins t1 d := f1.pins d hd0
          rcases List.mem_cons.1 hd with rfl | hd
          · rw [p6a, p5]
            have a4 : pins t3 d <:+ pins t4 d := f4.pins d hm3
            obtain ⟨z, hz⟩ := a4
            rw [← hz, x1]
            cases lit with
            | true =>
              rw [p2 rfl]
              refine a1.trans ?_
              have : (z ++ (ex ++ r :: pins t1 d)).drop (vs.length + if true then 1 else 0) =
                  (z ++ (ex ++ [r])).drop (vs.length + 1) ++ pins t1 d := by
                have : z ++ (ex ++ r :: pins t1 d) = (z ++ (ex ++ [r])) ++ pins t1 d := by simp
                rw [this, if_pos rfl, List.drop_append_of_le_length]
                simp
                omega
              rw [this]
              exact List.suffix_append _ _
            | false =>
              refine (a1.trans (f2.pins d hd1)).trans ?_
              have : (z ++ (ex ++ pins t2 d)).drop (vs.length + if false then 1 else 0) =
                  (z ++ ex).drop vs.length ++ pins t2 d := by
                rw [← List.append_assoc, if_neg (by simp), List.drop_append_of_le_length]
                · rfl
                · simp
                  omega
              rw [this]
              exact List.suffix_append _ _
          · rw [p6b d hd, p5]
            exact a1.trans (f14.pins d hd1)
        · intro x hx
          obtain ⟨a1, a2⟩ := (f1.kind x hx)
          obtain ⟨a3, a4⟩ := f14.kind x a1
          have a5 : ∃ p, t5.heap.mem x = some p := by
            by_cases hxr : x = r
            · subst hxr
              obtain ⟨o, eo, _⟩ := r5
              exact ⟨o, eo⟩
            · rw [m5 x hxr]; exact a3
          obtain ⟨a6, a7⟩ := k6 x a5
          refine ⟨a6, a7.trans ?_⟩
          rw [k5]
          exact a4.trans a2
        · intro x o eo hs
          have : ∃ o', t5.heap.mem x = some o' ∧ o'.sticky = true := by
            by_cases hxr : x = r
            · subst hxr
              obtain ⟨o5, eo5, hs5⟩ := r5
              exact ⟨o5, eo5, by rw [hs5, ← old1 o eo]; exact hs⟩
            · obtain ⟨o1, eo1, hs1⟩ := f1.stick x o eo hs
              obtain ⟨o4, eo4, hs4⟩ := f14.stick x o1 eo1 hs1
              exact ⟨o4, by rw [m5 x hxr]; exact eo4, hs4⟩
          obtain ⟨o5, eo5, hs5⟩ := this
          exact unpin_stick e7 eo5 hs5
      exact (f06.trans f7).setMsg _ _

theorem sim_args {s t : St} {G : List Nat} {c : Nat} {rest : List Nat} (h : Sim s t G) (hc : t.ctxs = c :: rest) (args : List Exp)
    (hq : CalmArgs t args) {t' : St} {vs : List Nat} (e : evalArgs false t args = .ok (t', vs)) :
    ∃ s', evalArgs true s args = .ok (s', vs) ∧ Sim s' t' (if args = [] then G else []) ∧ Frame t t' ∧
      (∃ ex, pins t' c = ex ++ pins t c ∧ vs.length ≤ ex.length ∧ ∀ v ∈ vs, v ∈ ex) ∧
      ∀ v ∈ vs, t'.kind v = .value ∧ ∃ p, t'.heap.mem v = some p := by
  match args with
  | [] =>
    rw [evalArgs] at e ⊢
    cases e
    exact ⟨s, rfl, h, Frame.refl _, ⟨[], rfl, Nat.le_refl _, by simp⟩, by simp⟩
  | x :: xs =>
    rw [evalArgs] at e ⊢
    rw [CalmArgs] at hq
    obtain ⟨⟨t1, v⟩, e1, e⟩ := of_bind e
    simp only at e
    obtain ⟨t2, e2, e⟩ := of_bind e
    obtain ⟨⟨t3, ws⟩, e3, e⟩ := of_bind e
    cases e
    have hm : ({ t with inMsg := t.inMsg + 1 } : St).ctxs = c :: rest := hc
    obtain ⟨s1, g1, h1, f1⟩ := sim_eval (h.setMsg (t.inMsg + 1)) hm x hq.1 e1
    have c1 : t1.ctxs = c :: rest := by rw [f1.ctxs]; exact hc
    obtain ⟨s2, g2, h2, f2⟩ := (h1.setMsg t.inMsg).pin List.mem_cons_self e2
    have p2 : pins t2 c = v :: pins { t1 with inMsg := t.inMsg } c := pins_pin (h1.setMsg t.inMsg).ok c1 e2
    have p2 : pins t2 c = v :: pins t1 c := p2
    have c2 : t2.ctxs = c :: rest := by rw [f2.ctxs]; exact c1
    obtain ⟨s3, g3, h3, f3, ⟨ex, x1, x2, x3⟩, k3⟩ := sim_args h2 c2 xs (hq.2 _ _ e1 _ e2) e3
    refine ⟨s3, ?_, ?_, ?_, ?_, ?_⟩
    · rw [h.msg, g1, bind_ok]
      simp only
      rw [g2, bind_ok, g3, bind_ok]
    · rw [if_neg (by simp)]
      exact h3.sub (by simp)
    · exact ((f1.setMsg t.inMsg t.inMsg).trans f2).trans f3
    · obtain ⟨z, hz⟩ : pins t c <:+ pins t1 c := f1.pins c (by rw [hm]; exact List.mem_cons_self)
      refine ⟨ex ++ v :: z, by rw [x1, p2, ← hz]; simp, by simp; omega, ?_⟩
      intro w hw
      rcases List.mem_cons.1 hw with rfl | hw
      · simp
      · exact List.mem_append.2 (.inl (x3 w hw))
    · intro w hw
      rcases List.mem_cons.1 hw with rfl | hw
      · exact f3.vals (h2.vals w List.mem_cons_self)
      · exact k3 w hw

theorem sim_steps {s t : St} {c : Nat} {rest safe regs : List Nat} {res : Nat} {steps : List Step}
    (h : Sim s t (live regs (reads steps ++ [res]))) (hc : t.ctxs = c :: rest) (hg : Guarded t c safe regs) (steps' : List Step)
    (hs : steps = steps') (hq : CalmSteps t safe regs res steps') {t' : St} {regs' : List Nat}
    (e : native false t regs steps' = .ok (t', regs')) :
    ∃ s', native true s regs steps' = .ok (s', regs') ∧ Sim s' t' (live regs' [res]) ∧ Frame t t' := by
  have hm : c ∈ t.ctxs := by rw [hc]; exact List.mem_cons_self
  match steps' with
  | [] =>
    subst hs
    rw [native] at e ⊢
    cases e
    exact ⟨s, rfl, h, Frame.refl _⟩
  | .basic b :: l =>
    subst hs
    rw [native] at e ⊢
    rw [CalmSteps] at hq
    obtain ⟨⟨t1, regs1⟩, e1, e⟩ := of_bind e
    simp only at e
    rw [reads] at h
    obtain ⟨s1, new, g1, hr, h1, f1⟩ := h.basic (fun i hi v hv => mem_live.2 ⟨i, by simp [hi], hv⟩) e1
    have h1' : Sim s1 t1 (live regs1 (reads l ++ [res])) := h1.sub (by
      intro v hv
      obtain ⟨i, hi, ev⟩ := mem_live.1 hv
      rw [hr] at ev
      rcases Nat.lt_or_ge i regs.length with hlt | hge
      · rw [List.getElem?_append_left hlt] at ev
        refine List.mem_append.2 (.inr (mem_live.2 ⟨i, ?_, ev⟩))
        rw [List.append_assoc]
        exact List.mem_append.2 (.inr hi)
      · rw [List.getElem?_append_right hge] at ev
        exact List.mem_append.2 (.inl (List.mem_of_getElem? ev)))
    have hg1 : Guarded t1 c (pinned safe b) regs1 := by
      have base : Guarded t1 c safe regs1 := by rw [hr]; exact hg.frame hm f1
      cases b with
      | pin i =>
        simp only [basic] at e1
        obtain ⟨x, e2, e3⟩ := of_bind e1
        obtain ⟨t2, e4, e5⟩ := of_bind e3
        cases e5
        exact guarded_pin h.ok hc base (var_ok.1 e2) e4
      | _ => exact base
    obtain ⟨s2, g2, h2, f2⟩ := sim_steps h1' (by rw [f1.ctxs, hc]) hg1 l rfl (hq _ _ e1) e
    refine ⟨s2, ?_, h2, f1.trans f2⟩
    rw [g1, bind_ok]
    exact g2
  | .clean :: l =>
    subst hs
    rw [native] at e ⊢
    rw [CalmSteps] at hq
    obtain ⟨s1, g1, h1⟩ := h.cleanUp
    have e : native false t regs l = .ok (t', regs') := e
    have h1' := h1.relive (U := reads l ++ [res]) (Frame.refl t) hc hg (fun v hv => h.vals v (by rw [reads]; exact hv))
      (fun i hi => (hq.1 i hi).imp id fun h w hw => reaches_iff.1 (h w hw))
    rw [List.append_nil] at h1'
    obtain ⟨s2, g2, h2, f2⟩ := sim_steps h1' hc hg l rfl hq.2 e
    exact ⟨s2, by rw [g1, bind_ok, g2], h2, f2⟩
  | .run b ps my body :: l =>
    subst hs
    rw [native] at e ⊢
    rw [CalmSteps] at hq
    obtain ⟨blk, e1, e⟩ := of_bind e
    obtain ⟨me, e2, e⟩ := of_bind e
    obtain ⟨ob, e3, e⟩ := of_bind e
    obtain ⟨t1, e4, e⟩ := of_bind e
    obtain ⟨t2, e5, e⟩ := of_bind e
    obtain ⟨⟨t3, answer⟩, e6, e⟩ := of_bind e
    simp only at e
    obtain ⟨⟨t4, v⟩, e7, e⟩ := of_bind e
    simp only at e
    obtain ⟨hqb, hq⟩ := hq blk e1 me e2 t1 e4 t2 e5
    obtain ⟨hqa, hq⟩ := hq t3 answer e6
    obtain ⟨hqu, hq⟩ := hq t4 v e7
    rw [reads] at h
    have hblk : blk ∈ live regs (b :: (ps.map (·.2) ++ my.toList) ++ reads l ++ [res]) :=
      mem_live.2 ⟨b, by simp, var_ok.1 e1⟩
    have hme : ∀ m, me = some m → m ∈ live regs (b :: (ps.map (·.2) ++ my.toList) ++ reads l ++ [res]) := by
      intro m hm
      rcases varvar_ok e2 with ⟨_, h2⟩ | ⟨i, m', h1, h2, h3⟩
      · rw [h2] at hm; cases hm
      · rw [h2] at hm
        cases hm
        exact mem_live.2 ⟨i, by rw [h1]; simp, h3⟩
    obtain ⟨ob', g3, _⟩ := h.obj (.root (List.mem_append.2 (.inr hblk))) e3
    obtain ⟨h0, c0⟩ := h.openScope
    obtain ⟨s1, g4, h4, f4⟩ := h0.bindParams (fun i hi v hv => mem_live.2 ⟨i, by
      simp only [List.mem_append, List.mem_cons]
      exact .inl (.inl (.inr (.inl hi))), hv⟩) e4
    obtain ⟨s2, g5, h5, f5⟩ := h4.bindSelf hblk hme e5
    have c5 : t2.ctxs = t.heap.fresh :: t.ctxs := by rw [f5.ctxs, f4.ctxs, c0]
    obtain ⟨s3, g6, h6, f6⟩ := sim_stmts h5 c5 body hqb e6
    have fo : Frame (openScope t) t3 := (f4.trans f5).trans f6
    have c3 : t3.ctxs = t.heap.fresh :: t.ctxs := by rw [f6.ctxs, c5]
    have h6' : Sim s3 t3 [answer.getD (me.getD blk)] := by
      cases answer with
      | some a => exact h6
      | none =>
        refine h6.weaken ?_
        intro x hx
        rw [List.mem_singleton] at hx
        subst hx
        have hmem : me.getD blk ∈ live regs (b :: (ps.map (·.2) ++ my.toList) ++ reads l ++ [res]) := by
          cases me with
          | none => exact hblk
          | some m => exact hme m rfl
        refine ⟨((f5.trans f6).vals (h4.vals _ hmem)).1, ?_⟩
        rcases hqa rfl with hs | hr
        · obtain ⟨w, ew, hw⟩ := hg _ hs
          have : w = me.getD blk := by
            rcases varvar_ok e2 with ⟨h1, h2⟩ | ⟨i, m', h1, h2, h3⟩
            · rw [h1] at ew
              rw [h2]
              have := var_ok.1 e1
              simp only [Option.getD_none] at ew ⊢
              rw [this] at ew
              cases ew
              rfl
            · rw [h1] at ew
              rw [h2]
              simp only [Option.getD_some] at ew ⊢
              rw [h3] at ew
              cases ew
              rfl
          rw [← this]
          have ho : w ∈ pins (openScope t) c := by
            have := pins_make h.ok .scope false true (h.ok.ctx_lt hm)
            have h2 : pins (openScope t) c = pins (make t .scope false true).1 c := rfl
            rw [h2, this]
            exact hw
          exact fo.held_pin (by rw [c0]; exact List.mem_cons_of_mem _ hm) ho
        · exact reaches_iff.1 hr
    obtain ⟨s4, g7, h7, f7⟩ := h6'.leave h.ok fo e7
    have h7' := h7.relive (U := reads l ++ [res]) f7 hc hg (fun w hw => h.vals w (by
      obtain ⟨i, hi, ew⟩ := mem_live.1 hw
      refine mem_live.2 ⟨i, ?_, ew⟩
      rw [List.append_assoc]
      exact List.mem_append.2 (.inr hi)))
      (fun i hi => (hqu i hi).imp id fun h w hw => reaches_iff.1 (h w hw))
    obtain ⟨s5, g8, h8, f8⟩ := sim_steps h7' (by rw [f7.ctxs, hc]) (hg.frame hm f7) l rfl hq e
    refine ⟨s5, ?_, h8, f7.trans f8⟩
    rw [e1, bind_ok, e2, bind_ok, g3, bind_ok, g4, bind_ok, g5, bind_ok, g6, bind_ok]
    simp only
    rw [g7, bind_ok]
    exact g8

theorem sim_stmts {s t : St} {G : List Nat} {c : Nat} {rest : List Nat} (h : Sim s t G) (hc : t.ctxs = c :: rest) (ss : List Stmt)
    (hq : CalmStmts t ss) {t' : St} {a : Option Nat} (e : stmts false t ss = .ok (t', a)) :
    ∃ s', stmts true s ss = .ok (s', a) ∧ Sim s' t' a.toList ∧ Frame t t' := by
  match ss with
  | [] =>
    rw [stmts] at e ⊢
    cases e
    exact ⟨s, rfl, h.sub (by simp), Frame.refl _⟩
  | .mk x ret gc :: ss =>
    rw [stmts] at e ⊢
    rw [CalmStmts] at hq
    obtain ⟨⟨t1, v⟩, e1, e⟩ := of_bind e
    obtain ⟨s1, g1, h1, f1⟩ := sim_eval h hc x hq.1 e1
    rw [g1, bind_ok]
    simp only at e ⊢
    cases ret with
    | true =>
      cases e
      exact ⟨s1, rfl, h1, f1⟩
    | false =>
      simp only [Bool.false_eq_true, if_false] at e ⊢
      have e : stmts false t1 ss = .ok (t', a) := e
      have hcl : ∃ s2, cleanUp s1 (true && gc) = .ok s2 ∧ Sim s2 t1 [] := by
        cases gc with
        | true => exact h1.cleanUp
        | false => exact ⟨s1, rfl, h1.sub (by simp)⟩
      obtain ⟨s2, g2, h2⟩ := hcl
      obtain ⟨s3, g3, h3, f3⟩ := sim_stmts h2 (by rw [f1.ctxs, hc]) ss (hq.2 _ _ e1 rfl) e
      exact ⟨s3, by rw [g2, bind_ok, g3], h3, f1.trans f3⟩
end

end Verif.Model.Temp
