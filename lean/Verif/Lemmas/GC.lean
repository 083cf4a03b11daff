import Verif.Model.GC
import Verif.Spec.GC

/-! Helper lemmas about the garbage collector. -/

namespace Verif.Model.GC

open Verif.Spec.GC (Reach)

@[simp] theorem upd_same (f : Nat → Option Obj) (k : Nat) (v : Option Obj) : upd f k v k = v := by simp [upd]

theorem upd_ne (f : Nat → Option Obj) {k x : Nat} (v : Option Obj) (h : x ≠ k) : upd f k v x = f x := by
  simp [upd, h]

/-- Objects the collector follows from an object. -/
def Obj.outs (o : Obj) : List Nat :=
  (if o.isArray then o.elems else []) ++ o.props.map (·.2) ++ o.methods.map (·.2)

/-- Keys of an object. -/
def Obj.keys (o : Obj) : List Nat := o.props.map (·.1) ++ o.methods.map (·.1)

def Marked (h : Heap) (x : Nat) : Prop := ∃ o, h.mem x = some o ∧ o.mark = true

/-- Same object up to mark and list pointer. -/
def Obj.Like (o o' : Obj) : Prop := { o with mark := false, gnext := none } = { o' with mark := false, gnext := none }

theorem Obj.Like.outs {o o' : Obj} (h : o.Like o') : o'.outs = o.outs := by
  unfold Obj.Like at h
  simp only [Obj.mk.injEq] at h
  unfold Obj.outs
  rw [h.1, h.2.1, h.2.2.2.1, h.2.2.2.2.1]

theorem Obj.Like.keys {o o' : Obj} (h : o.Like o') : o'.keys = o.keys := by
  unfold Obj.Like at h
  simp only [Obj.mk.injEq] at h
  unfold Obj.keys
  rw [h.2.2.2.1, h.2.2.2.2.1]

theorem Obj.Like.trans {o o' o'' : Obj} (h : o.Like o') (h' : o'.Like o'') : o.Like o'' := Eq.trans h h'

/-- Marks only grow and nothing else changes. -/
structure Le (h h' : Heap) : Prop where
  obj : ∀ x o, h.mem x = some o → ∃ m, h'.mem x = some { o with mark := m } ∧ (o.mark = true → m = true)
  no : ∀ x, h.mem x = none → h'.mem x = none
  first : h'.first = h.first
  fresh : h'.fresh = h.fresh

theorem Le.refl (h : Heap) : Le h h :=
  ⟨fun _ o e => ⟨o.mark, e, id⟩, fun _ e => e, rfl, rfl⟩

theorem Le.trans {a b c : Heap} (h1 : Le a b) (h2 : Le b c) : Le a c where
  obj x o e := by
    obtain ⟨m, e1, i1⟩ := h1.obj x o e
    obtain ⟨m', e2, i2⟩ := h2.obj x _ e1
    exact ⟨m', e2, fun h => i2 (i1 h)⟩
  no x e := h2.no x (h1.no x e)
  first := h2.first.trans h1.first
  fresh := h2.fresh.trans h1.fresh

theorem Le.marked {a b : Heap} (h : Le a b) {x : Nat} (hm : Marked a x) : Marked b x := by
  obtain ⟨o, e, hm⟩ := hm
  obtain ⟨m, e', i⟩ := h.obj x o e
  exact ⟨_, e', i hm⟩

/-- Marking one object. -/
theorem le_setMark {h : Heap} {x : Nat} {o : Obj} (e : h.mem x = some o) :
    Le h { h with mem := upd h.mem x (some { o with mark := true }) } where
  obj y p ep := by
    by_cases hy : y = x
    · subst hy
      rw [e] at ep
      cases ep
      exact ⟨true, by simp, fun _ => rfl⟩
    · exact ⟨p.mark, by simp only [upd_ne _ _ hy, ep], id⟩
  no y ey := by
    by_cases hy : y = x
    · subst hy; rw [e] at ey; cases ey
    · simp only [upd_ne _ _ hy, ey]
  first := rfl
  fresh := rfl

theorem marked_setMark {h : Heap} {x y : Nat} {o : Obj}
    (hm : Marked { h with mem := upd h.mem x (some { o with mark := true }) } y) : y = x ∨ Marked h y := by
  by_cases hy : y = x
  · exact .inl hy
  · obtain ⟨p, e, hp⟩ := hm
    simp only [upd_ne _ _ hy] at e
    exact .inr ⟨p, e, hp⟩

/-! ## Number of unmarked objects -/

def unmarkedAt (h : Heap) (x : Nat) : Bool :=
  match h.mem x with
  | some o => !o.mark
  | none => false

def cnt (h : Heap) : Nat := ((List.range h.fresh).filter (unmarkedAt h)).length

theorem filter_length_le {p q : α → Bool} {l : List α} (h : ∀ x ∈ l, q x = true → p x = true) :
    (l.filter q).length ≤ (l.filter p).length := by
  induction l with
  | nil => simp
  | cons a l ih =>
    have ih := ih (fun x hx => h x (List.mem_cons_of_mem _ hx))
    have ha := h a List.mem_cons_self
    simp only [List.filter_cons]
    cases hq : q a with
    | true => rw [if_pos rfl, if_pos (ha hq)]; simpa using ih
    | false =>
      cases hp : p a with
      | true => simp; omega
      | false => simpa using ih

theorem filter_length_lt {p q : α → Bool} {l : List α} (h : ∀ x ∈ l, q x = true → p x = true) {a : α}
    (ha : a ∈ l) (hp : p a = true) (hq : q a = false) : (l.filter q).length < (l.filter p).length := by
  induction l with
  | nil => cases ha
  | cons b l ih =>
    have hle := filter_length_le (p := p) (q := q) (l := l) (fun x hx => h x (List.mem_cons_of_mem _ hx))
    have hb := h b List.mem_cons_self
    simp only [List.filter_cons]
    rcases List.mem_cons.1 ha with rfl | ha
    · rw [hp, hq]; simp; omega
    · have ih := ih (fun x hx => h x (List.mem_cons_of_mem _ hx)) ha
      cases hqb : q b with
      | true => rw [if_pos rfl, if_pos (hb hqb)]; simpa using ih
      | false =>
        cases hpb : p b with
        | true => simp; omega
        | false => simpa using ih

theorem Le.unmarked {a b : Heap} (h : Le a b) {x : Nat} (e : unmarkedAt b x = true) : unmarkedAt a x = true := by
  unfold unmarkedAt at *
  cases ha : a.mem x with
  | none => rw [h.no x ha] at e; cases e
  | some o =>
    obtain ⟨m, e', i⟩ := h.obj x o ha
    rw [e'] at e
    simp only at e ⊢
    cases ho : o.mark with
    | false => rfl
    | true => rw [i ho] at e; cases e

theorem Le.cnt {a b : Heap} (h : Le a b) : cnt b ≤ cnt a := by
  unfold GC.cnt
  rw [h.fresh]
  exact filter_length_le fun x _ e => h.unmarked e

theorem cnt_setMark {h : Heap} {x : Nat} {o : Obj} (e : h.mem x = some o) (hm : o.mark = false) (hx : x < h.fresh) :
    cnt { h with mem := upd h.mem x (some { o with mark := true }) } < cnt h := by
  unfold cnt
  refine filter_length_lt (a := x) ?_ (List.mem_range.2 hx) ?_ ?_
  · intro y _ hy
    exact (le_setMark e).unmarked hy
  · simp [unmarkedAt, e, hm]
  · simp [unmarkedAt]

theorem cnt_le_fresh (h : Heap) : cnt h ≤ h.fresh := by
  unfold cnt
  have := List.length_filter_le (unmarkedAt h) (List.range h.fresh)
  simpa using this

/-! ## Marking -/

/-- A set of existing objects that is closed under what the collector looks at. -/
structure Closed (h : Heap) (R plain : Nat → Prop) : Prop where
  ex : ∀ x, R x → ∃ o, h.mem x = some o
  lt : ∀ x, R x → x < h.fresh
  outs : ∀ x o, R x → h.mem x = some o → ∀ y ∈ o.outs, R y
  keys : ∀ x o, R x → h.mem x = some o → ∀ y ∈ o.keys, R y ∧ plain y

theorem Closed.le {h h' : Heap} {R plain : Nat → Prop} (hc : Closed h R plain) (hl : Le h h') :
    Closed h' R plain where
  ex x hx := by
    obtain ⟨o, e⟩ := hc.ex x hx
    obtain ⟨m, e', _⟩ := hl.obj x o e
    exact ⟨_, e'⟩
  lt x hx := by rw [hl.fresh]; exact hc.lt x hx
  outs x o' hx e y hy := by
    obtain ⟨o, eo⟩ := hc.ex x hx
    obtain ⟨m, e', _⟩ := hl.obj x o eo
    rw [e] at e'
    cases e'
    exact hc.outs x o hx eo y hy
  keys x o' hx e y hy := by
    obtain ⟨o, eo⟩ := hc.ex x hx
    obtain ⟨m, e', _⟩ := hl.obj x o eo
    rw [e] at e'
    cases e'
    exact hc.keys x o hx eo y hy

/-- Follow-up objects of `x` (elements, values, keys). -/
def Next (h : Heap) (x y : Nat) : Prop := ∃ o, h.mem x = some o ∧ (y ∈ o.outs ∨ y ∈ o.keys)

theorem Le.next {h h' : Heap} (hl : Le h h') {x y : Nat} : Next h' x y ↔ Next h x y := by
  constructor
  · rintro ⟨o', e', hy⟩
    cases e : h.mem x with
    | none => rw [hl.no x e] at e'; cases e'
    | some o =>
      obtain ⟨m, e2, _⟩ := hl.obj x o e
      rw [e'] at e2
      cases e2
      exact ⟨o, e, hy⟩
  · rintro ⟨o, e, hy⟩
    obtain ⟨m, e2, _⟩ := hl.obj x o e
    exact ⟨_, e2, hy⟩

/-- `y` can be reached from one of `roots` and was not marked before. -/
structure Post (h h' : Heap) (roots : List Nat) (plain : Nat → Prop) : Prop where
  le : Le h h'
  closed : ∀ y, Marked h' y → ¬ Marked h y → plain y ∨ ∀ z, Next h y z → Marked h' z
  reach : ∀ y, Marked h' y → ¬ Marked h y → Reach (Next h) roots y

theorem Post.refl (h : Heap) (roots : List Nat) (plain : Nat → Prop) : Post h h roots plain :=
  ⟨Le.refl h, fun _ a b => absurd a b, fun _ a b => absurd a b⟩

theorem reach_mono {e e' : Nat → Nat → Prop} {r r' : List Nat} (h1 : ∀ x y, e x y → e' x y)
    (h2 : ∀ x ∈ r, x ∈ r') {x : Nat} (h : Reach e r x) : Reach e' r' x := by
  induction h with
  | root hx => exact .root (h2 _ hx)
  | step _ he ih => exact .step ih (h1 _ _ he)

theorem Post.mono {h h' : Heap} {r r' : List Nat} {plain : Nat → Prop} (p : Post h h' r plain)
    (hr : ∀ x ∈ r, x ∈ r') : Post h h' r' plain :=
  ⟨p.le, p.closed, fun y a b => reach_mono (fun _ _ => id) hr (p.reach y a b)⟩

theorem Post.trans {a b c : Heap} {r : List Nat} {plain : Nat → Prop} (p : Post a b r plain)
    (q : Post b c r plain) : Post a c r plain where
  le := p.le.trans q.le
  closed y hc ha := by
    by_cases hb : Marked b y
    · rcases p.closed y hb ha with h | h
      · exact .inl h
      · exact .inr fun z hz => q.le.marked (h z hz)
    · rcases q.closed y hc hb with h | h
      · exact .inl h
      · exact .inr fun z hz => h z (p.le.next.2 hz)
  reach y hc ha := by
    by_cases hb : Marked b y
    · exact p.reach y hb ha
    · exact reach_mono (fun _ _ h => p.le.next.1 h) (fun _ h => h) (q.reach y hc hb)

/-- What a call of the marker with enough fuel does. -/
def MarkOk (R plain : Nat → Prop) (rec : Heap → Nat → Out Heap) (n : Nat) : Prop :=
  ∀ h x, Closed h R plain → R x → cnt h < n →
    ∃ h', rec h x = .ok h' ∧ Post h h' [x] plain ∧ ∀ z, Next h x z → Marked h' z

theorem visit_ok {R plain : Nat → Prop} {rec : Heap → Nat → Out Heap} {n : Nat} (hr : MarkOk R plain rec n)
    {h : Heap} {x : Nat} (hc : Closed h R plain) (hx : R x) (hn : cnt h < n + 1) :
    ∃ h', visit rec h x = .ok h' ∧ Post h h' [x] plain ∧ Marked h' x := by
  obtain ⟨o, e⟩ := hc.ex x hx
  unfold visit
  simp only [e]
  cases hm : o.mark with
  | true => exact ⟨h, rfl, Post.refl _ _ _, o, e, hm⟩
  | false =>
    have hl := le_setMark e
    have hlt := cnt_setMark e hm (hc.lt x hx)
    obtain ⟨h', e', p, hz⟩ := hr _ x (hc.le hl) hx (by omega)
    refine ⟨h', by simpa using e', ⟨hl.trans p.le, ?_, ?_⟩, p.le.marked ⟨{ o with mark := true }, by simp only [upd_same], rfl⟩⟩
    · intro y hy hny
      by_cases hyx : y = x
      · subst hyx
        exact .inr fun z hz' => hz z (hl.next.2 hz')
      · have : ¬ Marked { h with mem := upd h.mem x (some { o with mark := true }) } y := by
          intro hm'
          rcases marked_setMark hm' with h1 | h1
          · exact hyx h1
          · exact hny h1
        rcases p.closed y hy this with h1 | h1
        · exact .inl h1
        · exact .inr fun z hz' => h1 z (hl.next.2 hz')
    · intro y hy hny
      by_cases hyx : y = x
      · subst hyx; exact .root List.mem_cons_self
      · have : ¬ Marked { h with mem := upd h.mem x (some { o with mark := true }) } y := by
          intro hm'
          rcases marked_setMark hm' with h1 | h1
          · exact hyx h1
          · exact hny h1
        exact reach_mono (fun _ _ h => hl.next.1 h) (fun _ h => h) (p.reach y hy this)

theorem touch_ok {R plain : Nat → Prop} {h : Heap} {k : Nat} (hc : Closed h R plain) (hk : R k) (hp : plain k) :
    ∃ h', touch h k = .ok h' ∧ Post h h' [k] plain ∧ Marked h' k := by
  obtain ⟨o, e⟩ := hc.ex k hk
  unfold touch
  simp only [e]
  refine ⟨_, rfl, ⟨le_setMark e, ?_, ?_⟩, ⟨{ o with mark := true }, by simp only [upd_same], rfl⟩⟩
  · intro y hy hny
    rcases marked_setMark hy with rfl | h1
    · exact .inl hp
    · exact absurd h1 hny
  · intro y hy hny
    rcases marked_setMark hy with rfl | h1
    · exact .root List.mem_cons_self
    · exact absurd h1 hny

theorem markElems_ok {R plain : Nat → Prop} {rec : Heap → Nat → Out Heap} {n : Nat} (hr : MarkOk R plain rec n) :
    ∀ {l : List Nat} {h : Heap}, Closed h R plain → (∀ x ∈ l, R x) → cnt h < n + 1 →
    ∃ h', markElems rec h l = .ok h' ∧ Post h h' l plain ∧ ∀ z ∈ l, Marked h' z
  | [], h, _, _, _ => ⟨h, rfl, Post.refl _ _ _, fun _ hz => absurd hz (by simp)⟩
  | e :: es, h, hc, hl, hn => by
    obtain ⟨h1, e1, p1, m1⟩ := visit_ok hr hc (hl e List.mem_cons_self) hn
    obtain ⟨h2, e2, p2, m2⟩ := markElems_ok hr (hc.le p1.le) (fun x hx => hl x (List.mem_cons_of_mem _ hx))
      (Nat.lt_of_le_of_lt p1.le.cnt hn)
    refine ⟨h2, by simp only [markElems, e1, Out.ok_bind, e2], ?_, ?_⟩
    · exact (p1.mono (by simp)).trans (p2.mono (fun x hx => List.mem_cons_of_mem _ hx))
    · intro z hz
      rcases List.mem_cons.1 hz with rfl | hz
      · exact p2.le.marked m1
      · exact m2 z hz

theorem markItems_ok {R plain : Nat → Prop} {rec : Heap → Nat → Out Heap} {n : Nat} (hr : MarkOk R plain rec n) :
    ∀ {l : List (Nat × Nat)} {h : Heap}, Closed h R plain → (∀ p ∈ l, R p.1 ∧ plain p.1 ∧ R p.2) → cnt h < n + 1 →
    ∃ h', markItems rec h l = .ok h' ∧ Post h h' (l.map (·.1) ++ l.map (·.2)) plain ∧
      ∀ p ∈ l, Marked h' p.1 ∧ Marked h' p.2
  | [], h, _, _, _ => ⟨h, rfl, Post.refl _ _ _, fun _ hz => absurd hz (by simp)⟩
  | (k, v) :: es, h, hc, hl, hn => by
    obtain ⟨hk, hp, hv⟩ := hl (k, v) List.mem_cons_self
    obtain ⟨h0, e0, p0, m0⟩ := touch_ok (plain := plain) hc hk hp
    obtain ⟨h1, e1, p1, m1⟩ := visit_ok hr (hc.le p0.le) hv (Nat.lt_of_le_of_lt p0.le.cnt hn)
    have hn1 := Nat.lt_of_le_of_lt p1.le.cnt (Nat.lt_of_le_of_lt p0.le.cnt hn)
    obtain ⟨h2, e2, p2, m2⟩ := markItems_ok hr ((hc.le p0.le).le p1.le)
      (fun x hx => hl x (List.mem_cons_of_mem _ hx)) hn1
    refine ⟨h2, by simp only [markItems, e0, e1, Out.ok_bind, e2], ?_, ?_⟩
    · refine ((p0.mono ?_).trans (p1.mono ?_)).trans (p2.mono ?_)
      · intro x hx; simp at hx; simp [hx]
      · intro x hx; simp at hx; simp [hx]
      · intro x hx
        simp only [List.map_cons, List.mem_append, List.mem_cons] at hx ⊢
        rcases hx with hx | hx
        · exact .inl (.inr hx)
        · exact .inr (.inr hx)
    · intro z hz
      rcases List.mem_cons.1 hz with rfl | hz
      · exact ⟨p2.le.marked (p1.le.marked m0), p2.le.marked m1⟩
      · exact m2 z hz

/-- The marker with enough fuel. -/
theorem mark_ok {R plain : Nat → Prop} :
    ∀ n, MarkOk R plain (mark n) n
  | 0, _, _, _, _, hn => absurd hn (by omega)
  | n + 1, h, x, hc, hx, hn => by
    have hr := mark_ok (R := R) (plain := plain) n
    obtain ⟨o, e⟩ := hc.ex x hx
    have houts := hc.outs x o hx e
    have hkeys := hc.keys x o hx e
    have hpl : ∀ k ∈ o.keys, plain k := fun k hk => (hkeys k hk).2
    have h1 : ∃ h1, (if o.isArray then markElems (mark n) h o.elems else .ok h) = .ok h1 ∧
        Post h h1 (if o.isArray then o.elems else []) plain ∧
        ∀ z ∈ (if o.isArray then o.elems else []), Marked h1 z := by
      cases ha : o.isArray with
      | true =>
        simp only [if_true]
        refine markElems_ok hr hc ?_ hn
        intro y hy
        apply houts
        simp [Obj.outs, ha, hy]
      | false => exact ⟨h, rfl, Post.refl _ _ _, fun _ hz => absurd hz (by simp)⟩
    obtain ⟨h1, e1, p1, m1⟩ := h1
    have c1 := hc.le p1.le
    obtain ⟨h2, e2, p2, m2⟩ := markItems_ok (l := o.props) hr c1 (fun p hp' => ⟨(hkeys p.1 (by
        simp only [Obj.keys, List.mem_append, List.mem_map]; exact .inl ⟨p, hp', rfl⟩)).1, hpl p.1 (by
        simp only [Obj.keys, List.mem_append, List.mem_map]; exact .inl ⟨p, hp', rfl⟩), houts p.2 (by
        simp only [Obj.outs, List.mem_append, List.mem_map]; exact .inl (.inr ⟨p, hp', rfl⟩))⟩)
      (Nat.lt_of_le_of_lt p1.le.cnt hn)
    have c2 := c1.le p2.le
    obtain ⟨h3, e3, p3, m3⟩ := markItems_ok (l := o.methods) hr c2 (fun p hp' => ⟨(hkeys p.1 (by
        simp only [Obj.keys, List.mem_append, List.mem_map]; exact .inr ⟨p, hp', rfl⟩)).1, hpl p.1 (by
        simp only [Obj.keys, List.mem_append, List.mem_map]; exact .inr ⟨p, hp', rfl⟩), houts p.2 (by
        simp only [Obj.outs, List.mem_append, List.mem_map]; exact .inr ⟨p, hp', rfl⟩)⟩)
      (Nat.lt_of_le_of_lt p2.le.cnt (Nat.lt_of_le_of_lt p1.le.cnt hn))
    refine ⟨h3, ?_, ?_, ?_⟩
    · simp only [mark, e, e1, e2, e3, Out.ok_bind]
    · have hall : Post h h3 (o.outs ++ o.keys) plain := by
        refine ((p1.mono ?_).trans (p2.mono ?_)).trans (p3.mono ?_)
        · intro y hy; simp [Obj.outs, hy]
        · intro y hy
          simp only [Obj.outs, Obj.keys, List.mem_append] at hy ⊢
          rcases hy with hy | hy
          · exact .inr (.inl hy)
          · exact .inl (.inl (.inr hy))
        · intro y hy
          simp only [Obj.outs, Obj.keys, List.mem_append] at hy ⊢
          rcases hy with hy | hy
          · exact .inr (.inr hy)
          · exact .inl (.inr hy)
      refine ⟨hall.le, hall.closed, ?_⟩
      intro y hy hny
      have := hall.reach y hy hny
      -- paths from the followers of x are paths from x
      clear hy hny
      induction this with
      | root hz =>
        exact .step (.root List.mem_cons_self) ⟨o, e, by simpa [List.mem_append] using hz⟩
      | step _ he ih => exact .step ih he
    · rintro z ⟨o', e', hz⟩
      rw [e] at e'
      cases e'
      rcases hz with hz | hz
      · simp only [Obj.outs, List.mem_append, List.mem_map] at hz
        rcases hz with (hz | ⟨p, hz, rfl⟩) | ⟨p, hz, rfl⟩
        · exact p3.le.marked (p2.le.marked (m1 z hz))
        · exact p3.le.marked (m2 p hz).2
        · exact (m3 p hz).2
      · simp only [Obj.keys, List.mem_append, List.mem_map] at hz
        rcases hz with ⟨p, hz, rfl⟩ | ⟨p, hz, rfl⟩
        · exact p3.le.marked (m2 p hz).1
        · exact (m3 p hz).1

theorem markRoots_ok {R plain : Nat → Prop} : ∀ {rs : List Nat} {h : Heap}, Closed h R plain → (∀ r ∈ rs, R r) →
    ∃ h', markRoots h rs = .ok h' ∧ Post h h' rs plain ∧ ∀ r ∈ rs, ∀ z, Next h r z → Marked h' z
  | [], h, _, _ => ⟨h, rfl, Post.refl _ _ _, fun _ hr => absurd hr (by simp)⟩
  | r :: rs, h, hc, hr => by
    obtain ⟨h1, e1, p1, m1⟩ := mark_ok (R := R) (plain := plain) (h.fresh + 1) h r hc (hr r List.mem_cons_self)
      (Nat.lt_succ_of_le (cnt_le_fresh h))
    obtain ⟨h2, e2, p2, m2⟩ := markRoots_ok (hc.le p1.le) (fun x hx => hr x (List.mem_cons_of_mem _ hx))
    refine ⟨h2, by simp only [markRoots, e1, Out.ok_bind, e2], ?_, ?_⟩
    · exact (p1.mono (by simp)).trans (p2.mono (fun x hx => List.mem_cons_of_mem _ hx))
    · intro x hx z hz
      rcases List.mem_cons.1 hx with rfl | hx
      · exact p2.le.marked (m1 z hz)
      · exact m2 x hx z (p1.le.next.2 hz)

/-! ## The list of all objects -/

/-- `l` is the list of objects that starts at `p`. -/
def Chain (mem : Nat → Option Obj) : Option Nat → List Nat → Prop
  | p, [] => p = none
  | p, x :: l => p = some x ∧ ∃ o, mem x = some o ∧ Chain mem o.gnext l

theorem chain_congr {mem mem' : Nat → Option Obj} : ∀ {l : List Nat} {p : Option Nat},
    (∀ x ∈ l, ∀ o, mem x = some o → ∃ o', mem' x = some o' ∧ o'.gnext = o.gnext) → Chain mem p l → Chain mem' p l
  | [], _, _, h => h
  | x :: l, _, he, ⟨h1, o, h2, h3⟩ => by
    obtain ⟨o', e', g⟩ := he x List.mem_cons_self o h2
    refine ⟨h1, o', e', ?_⟩
    rw [g]
    exact chain_congr (fun y hy => he y (List.mem_cons_of_mem _ hy)) h3

/-- Redirecting the last element of a non-empty chain. -/
theorem chain_redirect {mem : Nat → Option Obj} {q : Nat} {o : Obj} : ∀ {k : List Nat} {p : Option Nat} {r s : List Nat}
    {nxt : Option Nat}, Chain mem p (k ++ q :: r) → mem q = some o → (k ++ [q]).Nodup → q ∉ s → 
    (∀ x ∈ s, x ∉ k) → Chain mem nxt s → Chain (upd mem q (some { o with gnext := nxt })) p (k ++ q :: s)
  | [], p, r, s, nxt, hc, hq, _, hqs, hks, hs => by
    simp only [List.nil_append, Chain] at hc ⊢
    refine ⟨hc.1, _, upd_same _ _ _, ?_⟩
    simp only
    refine chain_congr ?_ hs
    intro x hx o' ho'
    have : x ≠ q := fun e => hqs (e ▸ hx)
    exact ⟨o', by rw [upd_ne _ _ this, ho'], rfl⟩
  | y :: k, p, r, s, nxt, hc, hq, hnd, hqs, hks, hs => by
    simp only [List.cons_append, Chain] at hc ⊢
    obtain ⟨h1, oy, h2, h3⟩ := hc
    simp only [List.cons_append, List.nodup_cons, List.mem_append, List.mem_cons, List.not_mem_nil, or_false, not_or] at hnd
    have hyq : y ≠ q := hnd.1.2
    refine ⟨h1, oy, by rw [upd_ne _ _ hyq, h2], ?_⟩
    exact chain_redirect h3 hq hnd.2 hqs (fun x hx hk => hks x hx (List.mem_cons_of_mem _ hk)) hs

/-- The heap is well formed: the list of objects contains exactly the existing objects, each once. -/
structure Wf (h : Heap) (l : List Nat) : Prop where
  chain : Chain h.mem h.first l
  nodup : l.Nodup
  all : ∀ x, (h.mem x).isSome ↔ x ∈ l
  lt : ∀ x ∈ l, x < h.fresh

/-- Whether the sweeper keeps an object. -/
def keep (all : Bool) (o : Obj) : Bool := !((!o.mark && !o.sticky) || all)

def keepAt (all : Bool) (mem : Nat → Option Obj) (x : Nat) : Bool :=
  match mem x with
  | some o => keep all o
  | none => false

theorem Obj.Like.refl (o : Obj) : o.Like o := Eq.refl _

/-- The loop of the sweeper; `k` are the objects kept so far, `l` those still to look at. -/
theorem sweepLoop_ok (all : Bool) : ∀ {l k : List Nat} {h : Heap} {prev cur : Option Nat} {fuel : Nat},
    Chain h.mem cur l → Chain h.mem h.first (k ++ l) → (k ++ l).Nodup → prev = k.getLast? →
    (∀ x, (h.mem x).isSome ↔ x ∈ k ++ l) → l.length ≤ fuel →
    ∃ h', sweepLoop all fuel h prev cur = .ok h' ∧ Chain h'.mem h'.first (k ++ l.filter (keepAt all h.mem)) ∧
      h'.fresh = h.fresh ∧
      (∀ x ∈ k, ∀ o, h.mem x = some o → ∃ g, h'.mem x = some { o with gnext := g }) ∧
      (∀ x ∈ l, ∀ o, h.mem x = some o → if keep all o then ∃ g, h'.mem x = some { o with mark := false, gnext := g }
        else h'.mem x = none) ∧
      (∀ x, x ∉ k ++ l → h'.mem x = none)
  | [], k, h, prev, cur, fuel, hc, hall, hnd, hp, hex, hf => by
    simp only [Chain] at hc
    subst hc
    refine ⟨h, by cases fuel <;> rfl, by simpa using hall, rfl, fun x _ o e => ⟨o.gnext, e⟩,
      fun x hx => absurd hx (by simp), ?_⟩
    intro x hx
    have := hex x
    cases e : h.mem x with
    | none => rfl
    | some o => rw [e] at this; exact absurd (this.1 rfl) hx
  | c :: l, k, h, prev, cur, fuel, hc, hall, hnd, hp, hex, hf => by
    obtain ⟨rfl, o, ho, hrest⟩ := hc
    cases fuel with
    | zero => simp at hf
    | succ fuel =>
      have hck : c ∉ k := by
        intro hk
        exact (List.nodup_append.1 hnd).2.2 c hk c List.mem_cons_self rfl
      have hcl : c ∉ l := (List.nodup_cons.1 (List.nodup_append.1 hnd).2.1).1
      have hndl : l.Nodup := (List.nodup_cons.1 (List.nodup_append.1 hnd).2.1).2
      have hndk : k.Nodup := (List.nodup_append.1 hnd).1
      have hkl : ∀ x ∈ l, x ∉ k := fun x hx hk =>
        (List.nodup_append.1 hnd).2.2 x hk x (List.mem_cons_of_mem _ hx) rfl
      have hkl_nd : (k ++ l).Nodup := by
        refine List.nodup_append.2 ⟨hndk, hndl, ?_⟩
        intro a ha b hb e
        exact hkl b hb (e ▸ ha)
      simp only [sweepLoop, ho]
      by_cases hkeep : keep all o = true
      · -- kept
        have hcond : ¬ ((o.mark = false ∧ o.sticky = false) ∨ all = true) := by
          unfold keep at hkeep
          intro hcon
          cases hm : o.mark <;> cases hs : o.sticky <;> cases all <;> simp [hm, hs] at hkeep hcon
        rw [if_neg hcond]
        generalize hh2 : ({ h with mem := upd h.mem c (some { o with mark := false }) } : Heap) = h2
        have hcg : ∀ x o', h.mem x = some o' → ∃ o'', h2.mem x = some o'' ∧ o''.gnext = o'.gnext := by
          intro x o' e
          subst hh2
          by_cases hx : x = c
          · subst hx
            rw [ho] at e
            cases e
            exact ⟨{ o with mark := false }, by simp, rfl⟩
          · exact ⟨o', by simp only [upd_ne _ _ hx, e], rfl⟩
        have hm2 : ∀ x, x ≠ c → h2.mem x = h.mem x := by
          intro x hx
          subst hh2
          simp only [upd_ne _ _ hx]
        have hmc : h2.mem c = some { o with mark := false } := by subst hh2; simp
        have hf2 : h2.first = h.first := by subst hh2; rfl
        have hfr2 : h2.fresh = h.fresh := by subst hh2; rfl
        obtain ⟨h', e', a1, a2, a3, a4, a5⟩ := sweepLoop_ok all (l := l) (k := k ++ [c]) (h := h2) (prev := some c)
          (cur := o.gnext) (fuel := fuel) (chain_congr (fun x _ o' e => hcg x o' e) hrest)
          (by
            rw [hf2, List.append_assoc]
            exact chain_congr (fun x _ o' e => hcg x o' e) hall)
          (by rw [List.append_assoc]; exact hnd) (by simp)
          (by
            intro x
            rw [List.append_assoc]
            by_cases hx : x = c
            · subst hx; simp [hmc]
            · rw [hm2 x hx]; exact hex x)
          (by simpa using hf)
        refine ⟨h', e', ?_, by rw [a2, hfr2], ?_, ?_, ?_⟩
        · have hfil : (c :: l).filter (keepAt all h.mem) = c :: l.filter (keepAt all h2.mem) := by
            have h1 : keepAt all h.mem c = true := by simp [keepAt, ho, hkeep]
            rw [List.filter_cons, if_pos h1]
            congr 1
            apply List.filter_congr
            intro x hx
            have : x ≠ c := fun e => hcl (e ▸ hx)
            simp only [keepAt, hm2 x this]
          rw [hfil]
          simpa using a1
        · intro x hx o' e
          have : x ≠ c := fun e => hck (e ▸ hx)
          exact a3 x (List.mem_append_left _ hx) o' (by rw [hm2 x this, e])
        · intro x hx o' e
          rcases List.mem_cons.1 hx with rfl | hx
          · rw [ho] at e
            cases e
            rw [if_pos hkeep]
            obtain ⟨g, eg⟩ := a3 x (by simp) _ hmc
            exact ⟨g, eg⟩
          · have : x ≠ c := fun e => hcl (e ▸ hx)
            exact a4 x hx o' (by rw [hm2 x this, e])
        · intro x hx
          exact a5 x (by rw [List.append_assoc]; exact hx)
      · -- freed
        have hcond : (o.mark = false ∧ o.sticky = false) ∨ all = true := by
          unfold keep at hkeep
          cases hm : o.mark <;> cases hs : o.sticky <;> cases all <;> simp [hm, hs] at hkeep ⊢
        rw [if_pos hcond]
        -- unlinking
        have hun : ∃ h1, unlink h prev o.gnext = .ok h1 ∧ Chain h1.mem h1.first (k ++ l) ∧ h1.fresh = h.fresh ∧
            (∀ x, x ∉ k → h1.mem x = h.mem x) ∧
            (∀ x ∈ k, ∀ o', h.mem x = some o' → ∃ g, h1.mem x = some { o' with gnext := g }) ∧
            (∀ x, (h1.mem x).isSome = (h.mem x).isSome) := by
          rcases List.eq_nil_or_concat k with rfl | ⟨k', q, rfl⟩
          · simp only [List.getLast?_nil] at hp
            subst hp
            exact ⟨_, rfl, by simpa using hrest, rfl, fun x _ => rfl, fun x hx => absurd hx (by simp), fun _ => rfl⟩
          · have hpq : prev = some q := by simp [hp]
            subst hpq
            have hqe : (h.mem q).isSome := (hex q).2 (by simp)
            obtain ⟨oq, hoq⟩ := Option.isSome_iff_exists.1 hqe
            have hql : q ∉ l := fun hq => hkl q hq (by simp)
            refine ⟨{ h with mem := upd h.mem q (some { oq with gnext := o.gnext }) }, by simp only [unlink, hoq], ?_,
              rfl, ?_, ?_, ?_⟩
            · have h0 : Chain h.mem h.first (k' ++ q :: (c :: l)) := by
                have := hall
                simpa using this
              have := chain_redirect (s := l) (nxt := o.gnext) h0 hoq (by simpa using hndk) hql
                (fun x hx hk => hkl x hx (by simp [hk])) hrest
              simpa using this
            · intro x hx
              have : x ≠ q := fun e => hx (by simp [e])
              simp only [upd_ne _ _ this]
            · intro x hx o' e
              by_cases hxq : x = q
              · subst hxq
                rw [hoq] at e
                cases e
                exact ⟨o.gnext, by simp⟩
              · exact ⟨o'.gnext, by simp only [upd_ne _ _ hxq, e]⟩
            · intro x
              by_cases hxq : x = q
              · subst hxq; simp [hoq]
              · simp only [upd_ne _ _ hxq]
        obtain ⟨h1, eun, ch1, fr1, out1, in1, some1⟩ := hun
        simp only [eun, Out.ok_bind]
        have hm2 : ∀ x, x ≠ c → upd h1.mem c none x = h1.mem x := fun x hx => upd_ne _ _ hx
        have hcg : ∀ x ∈ k ++ l, ∀ o', h1.mem x = some o' → ∃ o'', upd h1.mem c none x = some o'' ∧ o''.gnext = o'.gnext := by
          intro x hx o' e
          have : x ≠ c := by
            intro ec
            subst ec
            rcases List.mem_append.1 hx with hx | hx
            · exact hck hx
            · exact hcl hx
          exact ⟨o', by rw [hm2 x this, e], rfl⟩
        obtain ⟨h', e', a1, a2, a3, a4, a5⟩ := sweepLoop_ok all (l := l) (k := k)
          (h := { h1 with mem := upd h1.mem c none }) (prev := prev) (cur := o.gnext) (fuel := fuel)
          (by
            refine chain_congr ?_ hrest
            intro x hx o' e
            have hxc : x ≠ c := fun e => hcl (e ▸ hx)
            exact ⟨o', by simp only [hm2 x hxc, out1 x (hkl x hx), e], rfl⟩)
          (chain_congr hcg ch1) hkl_nd hp
          (by
            intro x
            by_cases hx : x = c
            · subst hx
              simp only [upd_same, List.mem_append]
              constructor
              · intro h; cases h
              · rintro (h | h)
                · exact absurd h hck
                · exact absurd h hcl
            · simp only [hm2 x hx, some1]
              rw [hex x]
              simp [hx])
          (by simpa using hf)
        refine ⟨h', e', ?_, by rw [a2]; exact fr1, ?_, ?_, ?_⟩
        · have hfil : (c :: l).filter (keepAt all h.mem) = l.filter (keepAt all (upd h1.mem c none)) := by
            have h1' : ¬ keepAt all h.mem c = true := by simp [keepAt, ho, hkeep]
            rw [List.filter_cons, if_neg h1']
            apply List.filter_congr
            intro x hx
            have : x ≠ c := fun e => hcl (e ▸ hx)
            simp only [keepAt, hm2 x this, out1 x (hkl x hx)]
          rw [hfil]
          exact a1
        · intro x hx o' e
          have hxc : x ≠ c := fun e => hck (e ▸ hx)
          obtain ⟨g, eg⟩ := in1 x hx o' e
          obtain ⟨g', eg'⟩ := a3 x hx { o' with gnext := g } (by simp only [hm2 x hxc, eg])
          exact ⟨g', eg'⟩
        · intro x hx o' e
          rcases List.mem_cons.1 hx with rfl | hx
          · rw [ho] at e
            cases e
            rw [if_neg hkeep]
            refine a5 x ?_
            simp [hck, hcl]
          · have : x ≠ c := fun e => hcl (e ▸ hx)
            exact a4 x hx o' (by simp only [hm2 x this, out1 x (hkl x hx), e])
        · intro x hx
          exact a5 x (by
            simp only [List.mem_append, List.mem_cons, not_or] at hx ⊢
            exact ⟨hx.1, hx.2.2⟩)

theorem sweep_ok {h : Heap} {l : List Nat} (all : Bool) (hw : Wf h l) :
    ∃ h', sweep h all = .ok h' ∧ Wf h' (l.filter (keepAt all h.mem)) ∧
      (∀ x o, h.mem x = some o → if keep all o then ∃ g, h'.mem x = some { o with mark := false, gnext := g }
        else h'.mem x = none) ∧ (∀ x, h.mem x = none → h'.mem x = none) := by
  have hlen : l.length ≤ h.fresh + 1 := by
    have : l ⊆ List.range h.fresh := fun x hx => List.mem_range.2 (hw.lt x hx)
    have := hw.nodup.length_le_of_subset this
    simp at this
    omega
  obtain ⟨h', e, a1, a2, a3, a4, a5⟩ := sweepLoop_ok all (l := l) (k := []) (h := h) (prev := none) (cur := h.first)
    (fuel := h.fresh + 1) hw.chain hw.chain hw.nodup rfl hw.all hlen
  have hobj : ∀ x o, h.mem x = some o → if keep all o then ∃ g, h'.mem x = some { o with mark := false, gnext := g }
        else h'.mem x = none := by
    intro x o e
    exact a4 x ((hw.all x).1 (by simp [e])) o e
  refine ⟨h', e, ⟨a1, hw.nodup.sublist List.filter_sublist, ?_, ?_⟩, hobj, ?_⟩
  · intro x
    rw [List.mem_filter]
    cases ex : h.mem x with
    | none =>
      have hx : x ∉ l := fun hx => by have := (hw.all x).2 hx; simp [ex] at this
      have := a5 x (by simpa using hx)
      simp [this, hx]
    | some o =>
      have hx : x ∈ l := (hw.all x).1 (by simp [ex])
      have := hobj x o ex
      simp only [keepAt, ex, hx, true_and]
      cases hk : keep all o with
      | true =>
        rw [if_pos hk] at this
        obtain ⟨g, eg⟩ := this
        simp [eg]
      | false =>
        rw [if_neg (by simp [hk])] at this
        simp [this]
  · intro x hx
    rw [a2]
    exact hw.lt x (List.mem_filter.1 hx).1
  · intro x ex
    exact a5 x (by
      intro hx
      have := (hw.all x).2 (by simpa using hx)
      simp [ex] at this)

theorem unlink_fresh {h h' : Heap} {p n : Option Nat} (e : unlink h p n = .ok h') : h'.fresh = h.fresh := by
  unfold unlink at e
  split at e
  · cases e; rfl
  · split at e
    · cases e
    · cases e; rfl

theorem sweepLoop_fresh {all : Bool} : ∀ {fuel : Nat} {h h' : Heap} {p c : Option Nat},
    sweepLoop all fuel h p c = .ok h' → h'.fresh = h.fresh := by
  intro fuel
  induction fuel with
  | zero =>
    intro h h' p c e
    cases c with
    | none => simp only [sweepLoop, Out.ok.injEq] at e; rw [e]
    | some c => simp [sweepLoop] at e
  | succ fuel ih =>
    intro h h' p c e
    cases c with
    | none => simp only [sweepLoop, Out.ok.injEq] at e; rw [e]
    | some c =>
      simp only [sweepLoop] at e
      split at e
      · cases e
      · split at e
        · rename_i o _ _
          cases eu : unlink h p o.gnext with
          | ok h1 =>
            rw [eu] at e
            rw [Out.ok_bind] at e
            have h1f := ih e
            have h2f : h1.fresh = h.fresh := unlink_fresh eu
            exact h1f.trans h2f
          | ub => rw [eu] at e; cases e
          | exit => rw [eu] at e; cases e
        · have h1f := ih e
          exact h1f

theorem sweep_fresh {h h' : Heap} {all : Bool} (e : sweep h all = .ok h') : h'.fresh = h.fresh := sweepLoop_fresh e

theorem Wf.le {h h' : Heap} {l : List Nat} (hw : Wf h l) (hl : Le h h') : Wf h' l where
  chain := by
    rw [hl.first]
    refine chain_congr ?_ hw.chain
    intro x _ o e
    obtain ⟨m, e', _⟩ := hl.obj x o e
    exact ⟨_, e', rfl⟩
  nodup := hw.nodup
  all x := by
    rw [← hw.all x]
    cases e : h.mem x with
    | none => simp [hl.no x e]
    | some o =>
      obtain ⟨m, e', _⟩ := hl.obj x o e
      simp [e']
  lt x hx := by rw [hl.fresh]; exact hw.lt x hx

/-! ## A collection -/

/-- What the marker follows, from the contexts. -/
def Found (h : Heap) (ctx : List Nat) : Nat → Prop := Reach (Next h) ctx

theorem found_sub {h : Heap} {ctx : List Nat} {R plain : Nat → Prop} (hc : Closed h R plain) (hr : ∀ c ∈ ctx, R c)
    {x : Nat} (hx : Found h ctx x) : R x := by
  induction hx with
  | root h => exact hr _ h
  | step _ he ih =>
    obtain ⟨o, e, hy⟩ := he
    rcases hy with hy | hy
    · exact hc.outs _ o ih e _ hy
    · exact (hc.keys _ o ih e _ hy).1

/-- What a collection does: it keeps what is sticky and what was found, clears marks, frees the rest. -/
theorem collect_ok {h : Heap} {l ctx : List Nat} {R plain : Nat → Prop} (hw : Wf h l)
    (hun : ∀ x, ¬ Marked h x) (hc : Closed h R plain) (hctx : ∀ c ∈ ctx, R c)
    (hplain : ∀ k, R k → plain k → ∀ z, ¬ Next h k z) :
    ∃ (h' : Heap) (M : Nat → Prop), collect h ctx = .ok h' ∧ Wf h' (l.filter (fun x => (h'.mem x).isSome)) ∧ h'.fresh = h.fresh ∧
      (∀ y, M y → Found h ctx y) ∧ (∀ y, Found h ctx y → y ∈ ctx ∨ M y) ∧
      (∀ x o, h.mem x = some o → M x ∨ o.sticky = true →
        ∃ g, h'.mem x = some { o with gnext := g }) ∧
      (∀ x o, h.mem x = some o → ¬ M x → o.sticky = false → h'.mem x = none) ∧
      (∀ x, h.mem x = none → h'.mem x = none) := by
  obtain ⟨h1, e1, p1, m1⟩ := markRoots_ok hc hctx
  obtain ⟨h', e2, w2, o2, n2⟩ := sweep_ok false (hw.le p1.le)
  have hmem : ∀ x o, h.mem x = some o → o.mark = false ∧ ∃ m, h1.mem x = some { o with mark := m } ∧ (m = true ↔ Marked h1 x) := by
    intro x o e
    obtain ⟨m, em, _⟩ := p1.le.obj x o e
    refine ⟨?_, m, em, ?_⟩
    · cases hm : o.mark with
      | false => rfl
      | true => exact absurd ⟨o, e, hm⟩ (hun x)
    · constructor
      · intro hm; exact ⟨_, em, hm⟩
      · rintro ⟨o', e', hm'⟩
        rw [em] at e'
        cases e'
        exact hm'
  refine ⟨h', Marked h1, by simp only [collect, e1, Out.ok_bind, e2], ?_, ?_, ?_, ?_, ?_, ?_, ?_⟩
  · have : l.filter (fun x => (h'.mem x).isSome) = l.filter (keepAt false h1.mem) := by
      apply List.filter_congr
      intro x hx
      have := (w2.all x)
      rw [List.mem_filter] at this
      cases hk : keepAt false h1.mem x with
      | true => exact this.2 ⟨hx, hk⟩
      | false =>
        cases hs : (h'.mem x).isSome with
        | false => rfl
        | true => rw [(this.1 hs).2] at hk; cases hk
    rw [this]
    exact w2
  · have : h'.fresh = h1.fresh := sweep_fresh e2
    rw [this, p1.le.fresh]
  · intro y hy
    exact p1.reach y hy (hun y)
  · intro y hy
    induction hy with
    | root h => exact .inl h
    | step hx he ih =>
      rcases ih with ih | ih
      · exact .inr (m1 _ ih _ he)
      · rcases p1.closed _ ih (hun _) with hp | hp
        · exact absurd he (hplain _ (found_sub hc hctx hx) hp _)
        · exact .inr (hp _ he)
  · intro x o e hk
    obtain ⟨hm, m, em, hmm⟩ := hmem x o e
    have := o2 x _ em
    have hkeep : keep false { o with mark := m } = true := by
      rcases hk with hk | hk
      · simp [keep, hmm.2 hk]
      · simp [keep, hk]
    rw [if_pos hkeep] at this
    obtain ⟨g, eg⟩ := this
    refine ⟨g, ?_⟩
    rw [eg]
    simp only [hm]
  · intro x o e hk hs
    obtain ⟨hm, m, em, hmm⟩ := hmem x o e
    have := o2 x _ em
    have hkeep : ¬ keep false { o with mark := m } = true := by
      have : m = false := by
        cases m with
        | false => rfl
        | true => exact absurd (hmm.1 rfl) hk
      simp [keep, this, hs]
    rw [if_neg hkeep] at this
    exact this
  · intro x e
    exact n2 x (p1.le.no x e)

/-! ## Programs -/

open Verif.Spec.GC (Node World Op addTo dropFrom)

def IsName (w : World) (k : Nat) : Prop := ∃ n, w.node k = some n ∧ n.isName = true

/-- The object shows what the program expects. -/
structure Rep (o : Obj) (n : Node) : Prop where
  arr : o.isArray = n.isArray
  elems : o.elems.drop o.tail = n.elems
  tail : o.tail ≤ o.elems.length
  noelems : o.isArray = false → o.elems = []
  props : o.props = n.props
  methods : o.methods = n.methods

def Refs (n : Node) (y : Nat) : Prop :=
  y ∈ n.elems ∨ (∃ k v, ((k, v) ∈ n.props ∨ (k, v) ∈ n.methods) ∧ (y = k ∨ y = v))

theorem Rep.next {o : Obj} {n : Node} (hr : Rep o n) {y : Nat} (h : Refs n y) : y ∈ o.outs ∨ y ∈ o.keys := by
  unfold Obj.outs Obj.keys
  simp only [List.mem_append, List.mem_map]
  rcases h with h | ⟨k, v, hkv, rfl | rfl⟩
  · left; left; left
    rw [← hr.elems] at h
    have hm := List.mem_of_mem_drop h
    cases ha : o.isArray with
    | true => simpa using hm
    | false => rw [hr.noelems ha] at hm; cases hm
  · right
    rcases hkv with h | h
    · exact .inl ⟨(y, v), by rw [hr.props]; exact h, rfl⟩
    · exact .inr ⟨(y, v), by rw [hr.methods]; exact h, rfl⟩
  · left
    rcases hkv with h | h
    · exact .inl (.inr ⟨(k, y), by rw [hr.props]; exact h, rfl⟩)
    · exact .inr ⟨(k, y), by rw [hr.methods]; exact h, rfl⟩

/-- The program without a collector (`w`) and the one with (`s`) show the same to the program. `R` contains what
the marker may look at, `L` what the program can get hold of. -/
structure Sim (w : World) (s : St) (l : List Nat) (R L : Nat → Prop) : Prop where
  wf : Wf s.heap l
  un : ∀ x, ¬ Marked s.heap x
  closed : Closed s.heap R (IsName w)
  ctx : ∀ c ∈ s.ctxs, R c ∧ ∃ o, s.heap.mem c = some o ∧ o.sticky = true
  scopes : s.ctxs = w.scopes
  nodup : s.ctxs.Nodup
  fresh : s.heap.fresh = w.fresh
  names : ∀ k, R k → IsName w k → ∀ z, ¬ Next s.heap k z
  liveCtx : ∀ c ∈ s.ctxs, L c
  liveStep : ∀ x y, L x → w.edge x y → L y
  live : ∀ x, L x → R x ∧ ∃ o n, s.heap.mem x = some o ∧ w.node x = some n ∧ Rep o n
  none : ∀ x, w.fresh ≤ x → w.node x = .none

theorem Sim.ofLive {w : World} {s : St} {l : List Nat} {R L : Nat → Prop} (h : Sim w s l R L) {x : Nat}
    (hx : w.Live x) : L x := by
  induction hx with
  | root hx => exact h.liveCtx _ (by rw [h.scopes]; exact hx)
  | step _ he ih => exact h.liveStep _ _ ih he

/-- Changing one object. -/
theorem Sim.modify {w : World} {s : St} {l : List Nat} {R L : Nat → Prop} (h : Sim w s l R L) {x : Nat} (hx : L x)
    {f : Obj → Obj} {g : Node → Node} (vs ks : List Nat)
    (hrep : ∀ o n, w.node x = some n → Rep o n → Rep (f o) (g n))
    (hf : ∀ o, (f o).mark = o.mark ∧ (f o).gnext = o.gnext ∧ (f o).sticky = o.sticky)
    (hg : ∀ n, (g n).isName = n.isName)
    (hout : ∀ o y, y ∈ (f o).outs → y ∈ o.outs ∨ y ∈ vs)
    (hkey : ∀ o y, y ∈ (f o).keys → y ∈ o.keys ∨ y ∈ ks)
    (href : ∀ n y, Refs (g n) y → Refs n y ∨ y ∈ vs ∨ y ∈ ks)
    (hvs : ∀ y ∈ vs, L y) (hks : ∀ y ∈ ks, L y ∧ IsName w y)
    (hname : IsName w x → vs = [] ∧ ks = []) :
    ∃ h', GC.modify s.heap x f = .ok h' ∧ Sim (w.set x g) { s with heap := h' } l R L := by
  obtain ⟨hRx, o, n, eo, en, hr⟩ := h.live x hx
  obtain ⟨hf1, hf2, hf3⟩ := hf o
  have hin : ∀ y, IsName (w.set x g) y ↔ IsName w y := by
    intro y
    unfold IsName World.set
    by_cases hy : y = x
    · subst hy
      simp only [if_true, en, Option.map_some, Option.some.injEq, exists_eq_left', hg]
    · simp only [if_neg hy]
  have hother : ∀ y, y ≠ x → ({ s.heap with mem := upd s.heap.mem x (some (f o)) } : Heap).mem y = s.heap.mem y :=
    fun y hy => upd_ne _ _ hy
  have hnext : ∀ y z, Next { s.heap with mem := upd s.heap.mem x (some (f o)) } y z →
      Next s.heap y z ∨ y = x ∧ (z ∈ vs ∨ z ∈ ks) := by
    rintro y z ⟨p, ep, hz⟩
    by_cases hy : y = x
    · subst hy
      simp only [upd_same, Option.some.injEq] at ep
      subst ep
      rcases hz with hz | hz
      · rcases hout o z hz with hz | hz
        · exact .inl ⟨o, eo, .inl hz⟩
        · exact .inr ⟨rfl, .inl hz⟩
      · rcases hkey o z hz with hz | hz
        · exact .inl ⟨o, eo, .inr hz⟩
        · exact .inr ⟨rfl, .inr hz⟩
    · simp only [upd_ne _ _ hy] at ep
      exact .inl ⟨p, ep, hz⟩
  refine ⟨{ s.heap with mem := upd s.heap.mem x (some (f o)) }, by simp only [GC.modify, eo], ?_⟩
  constructor
  · -- wf
    constructor
    · refine chain_congr ?_ h.wf.chain
      intro y _ p ep
      by_cases hy : y = x
      · subst hy
        rw [eo] at ep
        cases ep
        exact ⟨f o, by simp, hf2⟩
      · exact ⟨p, by simp only [upd_ne _ _ hy, ep], rfl⟩
    · exact h.wf.nodup
    · intro y
      rw [← h.wf.all y]
      by_cases hy : y = x
      · subst hy; simp [eo]
      · simp only [upd_ne _ _ hy]
    · exact h.wf.lt
  · rintro y ⟨p, ep, hm⟩
    by_cases hy : y = x
    · subst hy
      simp only [upd_same, Option.some.injEq] at ep
      subst ep
      exact h.un y ⟨o, eo, by rw [← hf1]; exact hm⟩
    · simp only [upd_ne _ _ hy] at ep
      exact h.un y ⟨p, ep, hm⟩
  · constructor
    · intro y hy
      by_cases hyx : y = x
      · exact ⟨f o, by simp [hyx]⟩
      · obtain ⟨p, ep⟩ := h.closed.ex y hy
        exact ⟨p, by simp only [upd_ne _ _ hyx, ep]⟩
    · exact h.closed.lt
    · intro y p hy ep z hz
      by_cases hyx : y = x
      · subst hyx
        simp only [upd_same, Option.some.injEq] at ep
        subst ep
        rcases hout o z hz with hz | hz
        · exact h.closed.outs y o hy eo z hz
        · exact (h.live z (hvs z hz)).1
      · simp only [upd_ne _ _ hyx] at ep
        exact h.closed.outs y p hy ep z hz
    · intro y p hy ep z hz
      rw [hin]
      by_cases hyx : y = x
      · subst hyx
        simp only [upd_same, Option.some.injEq] at ep
        subst ep
        rcases hkey o z hz with hz | hz
        · exact h.closed.keys y o hy eo z hz
        · exact ⟨(h.live z (hks z hz).1).1, (hks z hz).2⟩
      · simp only [upd_ne _ _ hyx] at ep
        exact h.closed.keys y p hy ep z hz
  · intro c hc
    obtain ⟨hR, p, ep, hs⟩ := h.ctx c hc
    refine ⟨hR, ?_⟩
    by_cases hcx : c = x
    · subst hcx
      rw [eo] at ep
      cases ep
      exact ⟨f o, by simp, by rw [hf3]; exact hs⟩
    · exact ⟨p, by simp only [upd_ne _ _ hcx, ep], hs⟩
  · exact h.scopes
  · exact h.nodup
  · exact h.fresh
  · intro k hk hn z hz
    rw [hin] at hn
    rcases hnext k z hz with hz | ⟨rfl, hz⟩
    · exact h.names k hk hn z hz
    · obtain ⟨h1, h2⟩ := hname hn
      subst h1 h2
      simp at hz
  · exact h.liveCtx
  · intro y z hy he
    obtain ⟨m, em, hm⟩ := he
    unfold World.set at em
    by_cases hyx : y = x
    · subst hyx
      simp only [if_true, en, Option.map_some, Option.some.injEq] at em
      subst em
      rcases href n z hm with hz | hz | hz
      · exact h.liveStep y z hy ⟨n, en, hz⟩
      · exact hvs z hz
      · exact (hks z hz).1
    · simp only [if_neg hyx] at em
      exact h.liveStep y z hy ⟨m, em, hm⟩
  · intro y hy
    refine ⟨(h.live y hy).1, ?_⟩
    by_cases hyx : y = x
    · subst hyx
      exact ⟨f o, g n, by simp, by simp [World.set, en], hrep o n en hr⟩
    · obtain ⟨_, p, m, ep, em, hpm⟩ := h.live y hy
      exact ⟨p, m, by simp only [upd_ne _ _ hyx, ep], by simp only [World.set, if_neg hyx, em], hpm⟩
  · intro y hy
    have := h.none y hy
    unfold World.set
    by_cases hyx : y = x
    · subst hyx
      rw [en] at this
      cases this
    · simp only [if_neg hyx, this]

/-- A new object that nothing refers to yet. -/
theorem Sim.create {w : World} {s : St} {l : List Nat} {R L : Nat → Prop} (h : Sim w s l R L) (isArray isName sticky : Bool)
    (link : Option Nat) :
    Sim { w with node := fun y => if y = w.fresh then some ⟨isArray, isName, [], [], []⟩ else w.node y, fresh := w.fresh + 1 }
      { s with heap := create s.heap isArray sticky link } (w.fresh :: l)
      (fun y => R y ∨ y = w.fresh) (fun y => L y ∨ y = w.fresh) ∧
    (GC.create s.heap isArray sticky link).mem w.fresh = some ⟨isArray, [], 0, [], [], link, sticky, false, s.heap.first⟩ := by
  have hfr := h.fresh
  have hnone : s.heap.mem w.fresh = .none := by
    cases e : s.heap.mem w.fresh with
    | none => rfl
    | some o =>
      have := h.wf.lt w.fresh ((h.wf.all _).1 (by simp [e]))
      omega
  have hfl : w.fresh ∉ l := by
    intro hm
    have := h.wf.lt _ hm
    omega
  have hRf : ∀ y, R y → y ≠ w.fresh := by
    intro y hy e
    have := h.closed.lt y hy
    omega
  have hmem : ∀ y, y ≠ w.fresh → (GC.create s.heap isArray sticky link).mem y = s.heap.mem y := by
    intro y hy
    exact upd_ne _ _ (by rw [hfr]; exact hy)
  have hnew : (GC.create s.heap isArray sticky link).mem w.fresh =
      some ⟨isArray, [], 0, [], [], link, sticky, false, s.heap.first⟩ := by
    simp [GC.create, hfr]
  generalize hw' : ({ w with node := fun y => if y = w.fresh then some ⟨isArray, isName, [], [], []⟩ else w.node y, fresh := w.fresh + 1 } : World) = w'
  have hin : ∀ y, y ≠ w.fresh → (IsName w' y ↔ IsName w y) := by
    intro y hy
    subst hw'
    simp only [IsName, if_neg hy]
  have hNotName : ∀ y z, y = w.fresh → ¬ Next (GC.create s.heap isArray sticky link) y z := by
    rintro y z rfl ⟨p, ep, hz⟩
    rw [hnew] at ep
    cases ep
    simp [Obj.outs, Obj.keys] at hz
  refine ⟨?_, hnew⟩
  constructor
  · constructor
    · refine ⟨by simp [GC.create, hfr], _, hnew, ?_⟩
      refine chain_congr ?_ h.wf.chain
      intro y hy p ep
      have : y ≠ w.fresh := fun e => hfl (e ▸ hy)
      exact ⟨p, by rw [hmem y this, ep], rfl⟩
    · exact List.nodup_cons.2 ⟨hfl, h.wf.nodup⟩
    · intro y
      by_cases hy : y = w.fresh
      · subst hy; simp [hnew]
      · simp only [hmem y hy, h.wf.all y, List.mem_cons, hy, false_or]
    · intro y hy
      simp only [GC.create, hfr]
      rcases List.mem_cons.1 hy with rfl | hy
      · omega
      · have := h.wf.lt y hy
        omega
  · rintro y ⟨p, ep, hm⟩
    by_cases hy : y = w.fresh
    · subst hy; rw [hnew] at ep; cases ep; cases hm
    · simp only [hmem y hy] at ep
      exact h.un y ⟨p, ep, hm⟩
  · constructor
    · rintro y (hy | rfl)
      · obtain ⟨p, ep⟩ := h.closed.ex y hy
        exact ⟨p, by simp only [hmem y (hRf y hy), ep]⟩
      · exact ⟨_, hnew⟩
    · rintro y (hy | rfl)
      · have := h.closed.lt y hy
        simp only [GC.create]; omega
      · simp only [GC.create]; omega
    · rintro y p (hy | rfl) ep z hz
      · simp only [hmem y (hRf y hy)] at ep
        exact .inl (h.closed.outs y p hy ep z hz)
      · exact absurd ⟨p, ep, .inl hz⟩ (hNotName _ z rfl)
    · rintro y p (hy | rfl) ep z hz
      · simp only [hmem y (hRf y hy)] at ep
        obtain ⟨a, b⟩ := h.closed.keys y p hy ep z hz
        exact ⟨.inl a, (hin z (hRf z a)).2 b⟩
      · exact absurd ⟨p, ep, .inr hz⟩ (hNotName _ z rfl)
  · intro c hc
    obtain ⟨hR, p, ep, hs⟩ := h.ctx c hc
    exact ⟨.inl hR, p, by simp only [hmem c (hRf c hR), ep], hs⟩
  · subst hw'; exact h.scopes
  · exact h.nodup
  · subst hw'; simp [GC.create, hfr]
  · rintro k (hk | rfl) hn z hz
    · rw [hin k (hRf k hk)] at hn
      refine h.names k hk hn z ?_
      obtain ⟨p, ep, hz⟩ := hz
      simp only [hmem k (hRf k hk)] at ep
      exact ⟨p, ep, hz⟩
    · exact hNotName _ z rfl hz
  · intro c hc
    exact .inl (h.liveCtx c hc)
  · rintro y z (hy | rfl) ⟨m, em, hm⟩
    · have hne : y ≠ w.fresh := hRf y (h.live y hy).1
      subst hw'
      simp only [if_neg hne] at em
      exact .inl (h.liveStep y z hy ⟨m, em, hm⟩)
    · subst hw'
      simp only [if_true, Option.some.injEq] at em
      subst em
      simp at hm
  · rintro y (hy | rfl)
    · obtain ⟨hR, p, m, ep, em, hpm⟩ := h.live y hy
      refine ⟨.inl hR, p, m, by simp only [hmem y (hRf y hR), ep], ?_, hpm⟩
      subst hw'
      simp only [if_neg (hRf y hR), em]
    · refine ⟨.inr rfl, _, ⟨isArray, isName, [], [], []⟩, hnew, ?_, ⟨rfl, rfl, Nat.le_refl _, fun _ => rfl, rfl, rfl⟩⟩
      subst hw'
      simp only [if_true]
  · intro y hy
    subst hw'
    simp only at hy ⊢
    rw [if_neg (by omega)]
    exact h.none y (by omega)

theorem mem_eraseIdx {l : List α} {i : Nat} {a : α} (h : a ∈ l.eraseIdx i) : a ∈ l :=
  (List.eraseIdx_sublist l i).mem h

theorem rep_addItem {o : Obj} {n : Node} (hr : Rep o n) (m : Bool) (k v : Nat) :
    Rep (addItem m k v o) (addTo m (k, v) n) := by
  unfold addItem addTo
  cases m
  · exact ⟨hr.arr, hr.elems, hr.tail, hr.noelems, by simp [hr.props], hr.methods⟩
  · exact ⟨hr.arr, hr.elems, hr.tail, hr.noelems, hr.props, by simp [hr.methods]⟩

theorem addItem_flags (m : Bool) (k v : Nat) (o : Obj) :
    (addItem m k v o).mark = o.mark ∧ (addItem m k v o).gnext = o.gnext ∧ (addItem m k v o).sticky = o.sticky := by
  unfold addItem; cases m <;> exact ⟨rfl, rfl, rfl⟩

theorem addItem_outs {m : Bool} {k v y : Nat} {o : Obj} (h : y ∈ (addItem m k v o).outs) : y ∈ o.outs ∨ y ∈ [v] := by
  unfold addItem Obj.outs at *
  cases m <;> simp at * <;> grind

theorem addItem_keys {m : Bool} {k v y : Nat} {o : Obj} (h : y ∈ (addItem m k v o).keys) : y ∈ o.keys ∨ y ∈ [k] := by
  unfold addItem Obj.keys at *
  cases m <;> simp at * <;> grind

theorem addTo_refs {m : Bool} {k v y : Nat} {n : Node} (h : Refs (addTo m (k, v) n) y) : Refs n y ∨ y ∈ [v] ∨ y ∈ [k] := by
  unfold Refs addTo at *
  cases m <;> simp at * <;> grind

theorem addTo_name (m : Bool) (kv : Nat × Nat) (n : Node) : (addTo m kv n).isName = n.isName := by
  unfold addTo; cases m <;> rfl

theorem rep_delItem {o : Obj} {n : Node} (hr : Rep o n) (m : Bool) (i : Nat) :
    Rep (delItem m i o) (dropFrom m i n) := by
  unfold delItem dropFrom
  cases m
  · exact ⟨hr.arr, hr.elems, hr.tail, hr.noelems, by simp [hr.props], hr.methods⟩
  · exact ⟨hr.arr, hr.elems, hr.tail, hr.noelems, hr.props, by simp [hr.methods]⟩

theorem delItem_flags (m : Bool) (i : Nat) (o : Obj) :
    (delItem m i o).mark = o.mark ∧ (delItem m i o).gnext = o.gnext ∧ (delItem m i o).sticky = o.sticky := by
  unfold delItem; cases m <;> exact ⟨rfl, rfl, rfl⟩

theorem delItem_outs {m : Bool} {i y : Nat} {o : Obj} (h : y ∈ (delItem m i o).outs) : y ∈ o.outs := by
  unfold delItem Obj.outs at *
  cases m
  · simp only [Bool.false_eq_true, if_false, List.mem_append, List.mem_map] at *
    rcases h with (h | ⟨p, hp, rfl⟩) | h
    · exact .inl (.inl h)
    · exact .inl (.inr ⟨p, mem_eraseIdx hp, rfl⟩)
    · exact .inr h
  · simp only [if_true, List.mem_append, List.mem_map] at *
    rcases h with h | ⟨p, hp, rfl⟩
    · exact .inl h
    · exact .inr ⟨p, mem_eraseIdx hp, rfl⟩

theorem delItem_keys {m : Bool} {i y : Nat} {o : Obj} (h : y ∈ (delItem m i o).keys) : y ∈ o.keys := by
  unfold delItem Obj.keys at *
  cases m
  · simp only [Bool.false_eq_true, if_false, List.mem_append, List.mem_map] at *
    rcases h with ⟨p, hp, rfl⟩ | h
    · exact .inl ⟨p, mem_eraseIdx hp, rfl⟩
    · exact .inr h
  · simp only [if_true, List.mem_append, List.mem_map] at *
    rcases h with h | ⟨p, hp, rfl⟩
    · exact .inl h
    · exact .inr ⟨p, mem_eraseIdx hp, rfl⟩

theorem dropFrom_refs {m : Bool} {i y : Nat} {n : Node} (h : Refs (dropFrom m i n) y) : Refs n y := by
  unfold Refs dropFrom at *
  cases m
  · simp only [Bool.false_eq_true, if_false] at h
    rcases h with h | ⟨k, v, h, hy⟩
    · exact .inl h
    · exact .inr ⟨k, v, h.imp mem_eraseIdx id, hy⟩
  · simp only [if_true] at h
    rcases h with h | ⟨k, v, h, hy⟩
    · exact .inl h
    · exact .inr ⟨k, v, h.imp id mem_eraseIdx, hy⟩

theorem dropFrom_name (m : Bool) (i : Nat) (n : Node) : (dropFrom m i n).isName = n.isName := by
  unfold dropFrom; cases m <;> rfl

/-- Closing a scope. -/
theorem Sim.leave {w : World} {s : St} {l : List Nat} {R L : Nat → Prop} (h : Sim w s l R L) {c : Nat} {rest : List Nat}
    (hc : s.ctxs = c :: rest) :
    ∃ h', GC.modify s.heap c (fun o => { o with sticky := false }) = .ok h' ∧
      Sim { w with scopes := w.scopes.tail } { heap := h', ctxs := rest } l R L := by
  have hcm : c ∈ s.ctxs := by rw [hc]; exact List.mem_cons_self
  obtain ⟨hRc, o, eo, hs⟩ := h.ctx c hcm
  have hsub : ∀ d ∈ rest, d ∈ s.ctxs := fun d hd => by rw [hc]; exact List.mem_cons_of_mem _ hd
  have hnd := h.nodup
  rw [hc] at hnd
  have hcr : c ∉ rest := (List.nodup_cons.1 hnd).1
  have hsc := h.scopes
  have hnext : ∀ y z, Next { s.heap with mem := upd s.heap.mem c (some { o with sticky := false }) } y z → Next s.heap y z := by
    rintro y z ⟨p, ep, hz⟩
    by_cases hy : y = c
    · subst hy
      simp only [upd_same, Option.some.injEq] at ep
      subst ep
      exact ⟨o, eo, hz⟩
    · simp only [upd_ne _ _ hy] at ep
      exact ⟨p, ep, hz⟩
  refine ⟨{ s.heap with mem := upd s.heap.mem c (some { o with sticky := false }) }, by simp only [GC.modify, eo], ?_⟩
  constructor
  · constructor
    · refine chain_congr ?_ h.wf.chain
      intro y _ p ep
      by_cases hy : y = c
      · subst hy
        rw [eo] at ep
        cases ep
        exact ⟨{ o with sticky := false }, by simp, rfl⟩
      · exact ⟨p, by simp only [upd_ne _ _ hy, ep], rfl⟩
    · exact h.wf.nodup
    · intro y
      rw [← h.wf.all y]
      by_cases hy : y = c
      · subst hy; simp [eo]
      · simp only [upd_ne _ _ hy]
    · exact h.wf.lt
  · rintro y ⟨p, ep, hm⟩
    by_cases hy : y = c
    · subst hy
      simp only [upd_same, Option.some.injEq] at ep
      subst ep
      exact h.un y ⟨o, eo, hm⟩
    · simp only [upd_ne _ _ hy] at ep
      exact h.un y ⟨p, ep, hm⟩
  · constructor
    · intro y hy
      by_cases hyx : y = c
      · exact ⟨_, by simp only [hyx, upd_same]; rfl⟩
      · obtain ⟨p, ep⟩ := h.closed.ex y hy
        exact ⟨p, by simp only [upd_ne _ _ hyx, ep]⟩
    · exact h.closed.lt
    · intro y p hy ep z hz
      obtain ⟨q, eq, hz'⟩ := hnext y z ⟨p, ep, .inl hz⟩
      rcases hz' with hz' | hz'
      · exact h.closed.outs y q hy eq z hz'
      · exact (h.closed.keys y q hy eq z hz').1
    · intro y p hy ep z hz
      by_cases hyx : y = c
      · subst hyx
        simp only [upd_same, Option.some.injEq] at ep
        subst ep
        exact h.closed.keys y o hy eo z hz
      · simp only [upd_ne _ _ hyx] at ep
        exact h.closed.keys y p hy ep z hz
  · intro d hd
    obtain ⟨hR, p, ep, hps⟩ := h.ctx d (hsub d hd)
    have hdc : d ≠ c := fun e => hcr (e ▸ hd)
    exact ⟨hR, p, by simp only [upd_ne _ _ hdc, ep], hps⟩
  · simp only [← hsc, hc, List.tail_cons]
  · exact (List.nodup_cons.1 hnd).2
  · exact h.fresh
  · intro k hk hn z hz
    exact h.names k hk hn z (hnext k z hz)
  · intro d hd
    exact h.liveCtx d (hsub d hd)
  · exact h.liveStep
  · intro y hy
    obtain ⟨hR, p, n, ep, en, hr⟩ := h.live y hy
    refine ⟨hR, ?_⟩
    by_cases hyx : y = c
    · subst hyx
      rw [eo] at ep
      cases ep
      exact ⟨{ o with sticky := false }, n, by simp, en, ⟨hr.arr, hr.elems, hr.tail, hr.noelems, hr.props, hr.methods⟩⟩
    · exact ⟨p, n, by simp only [upd_ne _ _ hyx, ep], en, hr⟩
  · exact h.none

/-- A collection. -/
theorem Sim.collect {w : World} {s : St} {l : List Nat} {R L : Nat → Prop} (h : Sim w s l R L) :
    ∃ h' l', GC.collect s.heap s.ctxs = .ok h' ∧ Sim w { s with heap := h' } l' (Found s.heap s.ctxs) w.Live := by
  obtain ⟨h', M, e, hwf, hfr, hM1, hM2, hkeep, hfree, hno⟩ := collect_ok h.wf h.un h.closed (fun c hc => (h.ctx c hc).1) h.names
  have hsub : ∀ x, Found s.heap s.ctxs x → R x := fun x hx => found_sub h.closed (fun c hc => (h.ctx c hc).1) hx
  have hsurv : ∀ x, Found s.heap s.ctxs x → ∃ o g, s.heap.mem x = some o ∧ h'.mem x = some { o with gnext := g } := by
    intro x hx
    obtain ⟨o, eo⟩ := h.closed.ex x (hsub x hx)
    have : M x ∨ o.sticky = true := by
      rcases hM2 x hx with hc | hm
      · obtain ⟨_, p, ep, hs⟩ := h.ctx x hc
        rw [eo] at ep
        cases ep
        exact .inr hs
      · exact .inl hm
    obtain ⟨g, eg⟩ := hkeep x o eo this
    exact ⟨o, g, eo, eg⟩
  have hany : ∀ x o', h'.mem x = some o' → ∃ o g, s.heap.mem x = some o ∧ o' = { o with gnext := g } := by
    intro x o' e'
    cases eo : s.heap.mem x with
    | none => rw [hno x eo] at e'; cases e'
    | some o =>
      by_cases hk : M x ∨ o.sticky = true
      · obtain ⟨g, eg⟩ := hkeep x o eo hk
        rw [e'] at eg
        cases eg
        exact ⟨o, g, rfl, rfl⟩
      · have := hfree x o eo (fun hm => hk (.inl hm)) (by
          cases hs : o.sticky with
          | false => rfl
          | true => exact absurd (.inr hs) hk)
        rw [this] at e'
        cases e'
  have hnext : ∀ x z, Next h' x z → Next s.heap x z := by
    rintro x z ⟨o', e', hz⟩
    obtain ⟨o, g, eo, rfl⟩ := hany x o' e'
    exact ⟨o, eo, hz⟩
  have hlf : ∀ x, w.Live x → Found s.heap s.ctxs x := by
    intro x hx
    induction hx with
    | root hx => exact .root (by rw [h.scopes]; exact hx)
    | step hx he ih =>
      obtain ⟨_, o, n, eo, en, hr⟩ := h.live _ (h.ofLive hx)
      obtain ⟨n', en', hy⟩ := he
      rw [en] at en'
      cases en'
      exact .step ih ⟨o, eo, hr.next hy⟩
  refine ⟨h', l.filter (fun x => (h'.mem x).isSome), e, ?_⟩
  constructor
  · exact hwf
  · rintro x ⟨o', e', hm⟩
    obtain ⟨o, g, eo, rfl⟩ := hany x o' e'
    exact h.un x ⟨o, eo, hm⟩
  · constructor
    · intro x hx
      obtain ⟨o, g, _, eg⟩ := hsurv x hx
      exact ⟨_, eg⟩
    · intro x hx
      simp only [hfr]
      exact h.closed.lt x (hsub x hx)
    · intro x o' hx e' y hy
      exact .step hx (hnext x y ⟨o', e', .inl hy⟩)
    · intro x o' hx e' y hy
      refine ⟨.step hx (hnext x y ⟨o', e', .inr hy⟩), ?_⟩
      obtain ⟨o, g, eo, rfl⟩ := hany x o' e'
      exact (h.closed.keys x o (hsub x hx) eo y hy).2
  · intro c hc
    refine ⟨.root hc, ?_⟩
    obtain ⟨_, o, eo, hs⟩ := h.ctx c hc
    obtain ⟨g, eg⟩ := hkeep c o eo (.inr hs)
    exact ⟨_, eg, hs⟩
  · exact h.scopes
  · exact h.nodup
  · simp only [hfr]; exact h.fresh
  · intro k hk hn z hz
    exact h.names k (hsub k hk) hn z (hnext k z hz)
  · intro c hc
    exact .root (by rw [← h.scopes]; exact hc)
  · intro x y hx he
    exact .step hx he
  · intro x hx
    refine ⟨hlf x hx, ?_⟩
    obtain ⟨_, o, n, eo, en, hr⟩ := h.live x (h.ofLive hx)
    obtain ⟨p, g, ep, eg⟩ := hsurv x (hlf x hx)
    rw [eo] at ep
    cases ep
    exact ⟨_, n, eg, en, ⟨hr.arr, hr.elems, hr.tail, hr.noelems, hr.props, hr.methods⟩⟩
  · exact h.none

def Ok (w : World) (s : St) : Prop := ∃ l R L, Sim w s l R L

theorem notName {w : World} {x : Nat} (h : ∃ n, w.node x = some n ∧ n.isName = false) : ¬ IsName w x := by
  rintro ⟨n, e, hn⟩
  obtain ⟨n', e', hn'⟩ := h
  rw [e] at e'
  cases e'
  rw [hn] at hn'
  cases hn'

theorem step_ok {w : World} {s : St} (hs : Ok w s) {op : Op} (hl : w.Legal op) :
    ∃ s', step s op = .ok s' ∧ Ok (w.step op) s' := by
  obtain ⟨l, R, L, h⟩ := hs
  cases op with
  | make owner isArray proto =>
    obtain ⟨ho, hn⟩ := hl
    obtain ⟨h1, e1⟩ := h.create false true false none
    obtain ⟨h2, e2⟩ := h1.create isArray false false proto
    have hne : owner ≠ w.fresh := by
      intro e
      obtain ⟨n, en, _⟩ := hn
      rw [e, h.none w.fresh (Nat.le_refl _)] at en
      cases en
    have hne' : owner ≠ w.fresh + 1 := by
      intro e
      obtain ⟨n, en, _⟩ := hn
      rw [e, h.none (w.fresh + 1) (by omega)] at en
      cases en
    obtain ⟨h', e', hs'⟩ := h2.modify (x := owner) (.inl (.inl (h.ofLive ho)))
      (f := addItem false w.fresh (w.fresh + 1)) (g := addTo false (w.fresh, w.fresh + 1)) [w.fresh + 1] [w.fresh]
      (fun o n _ hr => rep_addItem hr _ _ _) (fun o => addItem_flags _ _ _ o) (fun n => addTo_name _ _ n)
      (fun o y hy => addItem_outs hy) (fun o y hy => addItem_keys hy) (fun n y hy => addTo_refs hy)
      (by intro y hy; simp only [List.mem_singleton] at hy; exact .inr hy)
      (by
        intro y hy
        simp only [List.mem_singleton] at hy
        subst hy
        refine ⟨.inl (.inr rfl), ⟨false, true, [], [], []⟩, ?_, rfl⟩
        simp)
      (by
        intro hnm
        refine absurd ?_ (notName hn)
        obtain ⟨n, en, hn'⟩ := hnm
        refine ⟨n, ?_, hn'⟩
        simpa only [if_neg hne, if_neg hne'] using en)
    refine ⟨_, by simp only [step, h.fresh, e', Out.ok_bind]; rfl, ?_⟩
    have : w.step (.make owner isArray proto) = World.set
        { w with
          node := fun y => if y = w.fresh + 1 then some ⟨isArray, false, [], [], []⟩ else
            if y = w.fresh then some ⟨false, true, [], [], []⟩ else w.node y
          fresh := w.fresh + 2 } owner (addTo false (w.fresh, w.fresh + 1)) := by
      simp only [World.step]
      congr 2
      funext y
      by_cases h1 : y = w.fresh
      · subst h1; simp
      · simp [h1]
    rw [this]
    exact ⟨_, _, _, hs'⟩
  | put m x k v =>
    obtain ⟨hx, hk, hv, hxn, hkn⟩ := hl
    obtain ⟨h', e', hs'⟩ := h.modify (x := x) (h.ofLive hx) (f := addItem m k v) (g := addTo m (k, v)) [v] [k]
      (fun o n _ hr => rep_addItem hr _ _ _) (fun o => addItem_flags _ _ _ o) (fun n => addTo_name _ _ n)
      (fun o y hy => addItem_outs hy) (fun o y hy => addItem_keys hy) (fun n y hy => addTo_refs hy)
      (by intro y hy; simp only [List.mem_singleton] at hy; rw [hy]; exact h.ofLive hv)
      (by intro y hy; simp only [List.mem_singleton] at hy; rw [hy]; exact ⟨h.ofLive hk, hkn⟩)
      (fun hnm => absurd hnm (notName hxn))
    exact ⟨_, by simp only [step, e', Out.ok_bind], _, _, _, hs'⟩
  | del m x i =>
    obtain ⟨h', e', hs'⟩ := h.modify (x := x) (h.ofLive hl) (f := delItem m i) (g := dropFrom m i) [] []
      (fun o n _ hr => rep_delItem hr _ _) (fun o => delItem_flags _ _ o) (fun n => dropFrom_name _ _ n)
      (fun o y hy => .inl (delItem_outs hy)) (fun o y hy => .inl (delItem_keys hy))
      (fun n y hy => .inl (dropFrom_refs hy)) (by simp) (by simp) (fun _ => ⟨rfl, rfl⟩)
    exact ⟨_, by simp only [step, e', Out.ok_bind], _, _, _, hs'⟩
  | push x v =>
    obtain ⟨hx, hv, n, en, ha, hnm⟩ := hl
    obtain ⟨h', e', hs'⟩ := h.modify (x := x) (h.ofLive hx) (f := arrayPush v)
      (g := fun n => { n with elems := n.elems ++ [v] }) [v] []
      (by
        intro o n' en' hr
        rw [en] at en'
        cases en'
        unfold arrayPush
        refine ⟨hr.arr, ?_, ?_, ?_, hr.props, hr.methods⟩
        · simp only [← hr.elems]
          rw [List.drop_append_of_le_length hr.tail]
        · simp only [List.length_append]; have := hr.tail; omega
        · intro hf
          simp only at hf
          rw [hr.arr, ha] at hf
          cases hf)
      (fun o => ⟨rfl, rfl, rfl⟩) (fun n => rfl)
      (by
        intro o y hy
        unfold arrayPush Obj.outs at *
        cases ha : o.isArray <;> simp [ha] at * <;> grind)
      (fun o y hy => .inl hy)
      (by
        intro n y hy
        unfold Refs at *
        simp at *
        grind)
      (by intro y hy; simp only [List.mem_singleton] at hy; rw [hy]; exact h.ofLive hv) (by simp)
      (fun hn => absurd hn (notName ⟨n, en, hnm⟩))
    exact ⟨_, by simp only [step, e', Out.ok_bind], _, _, _, hs'⟩
  | shift x =>
    obtain ⟨h', e', hs'⟩ := h.modify (x := x) (h.ofLive hl) (f := arrayShift)
      (g := fun n => { n with elems := n.elems.tail }) [] []
      (by
        intro o n' en' hr
        unfold arrayShift
        split
        · rename_i hge
          refine ⟨hr.arr, ?_, hr.tail, hr.noelems, hr.props, hr.methods⟩
          have : o.elems.drop o.tail = [] := List.drop_eq_nil_of_le hge
          simp only [← hr.elems, this, List.tail_nil]
        · refine ⟨hr.arr, ?_, ?_, hr.noelems, hr.props, hr.methods⟩
          · simp only [← hr.elems, List.tail_drop]
          · simp only; omega)
      (by intro o; unfold arrayShift; split <;> exact ⟨rfl, rfl, rfl⟩) (fun n => rfl)
      (by intro o y hy; unfold arrayShift at hy; split at hy <;> exact .inl hy)
      (by intro o y hy; unfold arrayShift at hy; split at hy <;> exact .inl hy)
      (by
        intro n y hy
        left
        rcases hy with hy | hy
        · exact .inl (List.mem_of_mem_tail hy)
        · exact .inr hy)
      (by simp) (by simp) (fun _ => ⟨rfl, rfl⟩)
    exact ⟨_, by simp only [step, e', Out.ok_bind], _, _, _, hs'⟩
  | pop x =>
    obtain ⟨h', e', hs'⟩ := h.modify (x := x) (h.ofLive hl) (f := arrayPop)
      (g := fun n => { n with elems := n.elems.dropLast }) [] []
      (by
        intro o n' en' hr
        unfold arrayPop
        split
        · rename_i hge
          refine ⟨hr.arr, ?_, hr.tail, hr.noelems, hr.props, hr.methods⟩
          have : o.elems.drop o.tail = [] := List.drop_eq_nil_of_le hge
          simp only [← hr.elems, this, List.dropLast_nil]
        · refine ⟨hr.arr, ?_, ?_, ?_, hr.props, hr.methods⟩
          · simp only [← hr.elems]
            rw [List.dropLast_eq_take, List.dropLast_eq_take, List.drop_take, List.length_drop]
            congr 1
            omega
          · simp only [List.length_dropLast]; omega
          · intro hf
            simp only [hr.noelems hf, List.dropLast_nil])
      (by intro o; unfold arrayPop; split <;> exact ⟨rfl, rfl, rfl⟩) (fun n => rfl)
      (by
        intro o y hy
        left
        unfold arrayPop at hy
        split at hy
        · exact hy
        · unfold Obj.outs at *
          simp only [List.mem_append] at *
          rcases hy with (hy | hy) | hy
          · left; left
            split at hy
            · rename_i ha
              rw [if_pos ha]
              exact (List.dropLast_subset _ hy)
            · cases hy
          · exact .inl (.inr hy)
          · exact .inr hy)
      (by intro o y hy; unfold arrayPop at hy; split at hy <;> exact .inl hy)
      (by
        intro n y hy
        left
        rcases hy with hy | hy
        · exact .inl ((List.dropLast_subset _ hy))
        · exact .inr hy)
      (by simp) (by simp) (fun _ => ⟨rfl, rfl⟩)
    exact ⟨_, by simp only [step, e', Out.ok_bind], _, _, _, hs'⟩
  | enter =>
    obtain ⟨h1, e1⟩ := h.create false false true none
    refine ⟨_, rfl, w.fresh :: l, (fun y => R y ∨ y = w.fresh), (fun y => L y ∨ y = w.fresh), ?_⟩
    have hnew : w.fresh ∉ s.ctxs := by
      intro hm
      have := h.closed.lt _ (h.ctx _ hm).1
      rw [h.fresh] at this
      omega
    rw [show s.heap.fresh = w.fresh from h.fresh]
    exact
      { wf := h1.wf, un := h1.un, closed := h1.closed
        ctx := by
          intro c hc
          rcases List.mem_cons.1 hc with rfl | hc
          · exact ⟨.inr rfl, _, e1, rfl⟩
          · exact h1.ctx c hc
        scopes := by simp only [World.step, h.scopes]
        nodup := List.nodup_cons.2 ⟨hnew, h.nodup⟩
        fresh := h1.fresh, names := h1.names
        liveCtx := by
          intro c hc
          rcases List.mem_cons.1 hc with rfl | hc
          · exact .inr rfl
          · exact h1.liveCtx c hc
        liveStep := h1.liveStep, live := h1.live, none := h1.none }
  | leave =>
    have h2 : 2 ≤ s.ctxs.length := by rw [h.scopes]; exact hl
    match hc : s.ctxs with
    | [] => rw [hc] at h2; simp at h2
    | [c] => rw [hc] at h2; simp at h2
    | c :: d :: rest =>
      obtain ⟨h', e', hs'⟩ := h.leave hc
      refine ⟨{ heap := h', ctxs := d :: rest }, by simp [step, hc, e', Out.ok_bind], l, R, L, hs'⟩
  | collect =>
    obtain ⟨h', l', e', hs'⟩ := h.collect
    exact ⟨_, by simp only [step, e', Out.ok_bind], _, _, _, hs'⟩

theorem run_ok : ∀ {ops : List Op} {w : World} {s : St}, Ok w s → w.LegalRun ops →
    ∃ s', run s ops = .ok s' ∧ Ok (w.run ops) s'
  | [], _, s, h, _ => ⟨s, rfl, h⟩
  | op :: ops, w, s, h, hl => by
    obtain ⟨s1, e1, h1⟩ := step_ok h hl.1
    obtain ⟨s2, e2, h2⟩ := run_ok h1 hl.2
    exact ⟨s2, by simp only [run, e1, Out.ok_bind, e2], h2⟩

theorem start_ok : Ok World.start start := by
  have hm : ∀ y o, start.heap.mem y = some o → y = 0 ∧ o = ⟨false, [], 0, [], [], none, true, false, none⟩ := by
    intro y o e
    by_cases hy : y = 0
    · subst hy
      simp [start, create, upd] at e
      exact ⟨rfl, e.symm⟩
    · simp [start, create, upd, hy] at e
  have h0 : start.heap.mem 0 = some ⟨false, [], 0, [], [], none, true, false, none⟩ := rfl
  have hno : ∀ y z, ¬ Next start.heap y z := by
    rintro y z ⟨o, e, hz⟩
    obtain ⟨_, rfl⟩ := hm y o e
    simp [Obj.outs, Obj.keys] at hz
  refine ⟨[0], fun x => x = 0, fun x => x = 0, ?_⟩
  constructor
  · exact ⟨⟨rfl, _, h0, rfl⟩, by simp, by
      intro x
      by_cases hx : x = 0
      · subst hx; simp [h0]
      · simp [start, create, upd, hx], by simp [start, create]⟩
  · rintro x ⟨o, e, hmk⟩
    obtain ⟨_, rfl⟩ := hm x o e
    cases hmk
  · constructor
    · rintro x rfl; exact ⟨_, h0⟩
    · rintro x rfl; simp [start, create]
    · intro x o _ e y hy; exact absurd ⟨o, e, .inl hy⟩ (hno x y)
    · intro x o _ e y hy; exact absurd ⟨o, e, .inr hy⟩ (hno x y)
  · intro c hc
    simp only [start, List.mem_singleton] at hc
    subst hc
    exact ⟨rfl, _, h0, rfl⟩
  · rfl
  · simp [start]
  · rfl
  · intro k _ _ z; exact hno k z
  · intro c hc; simpa [start] using hc
  · rintro x y rfl ⟨n, en, hy⟩
    simp [World.start] at en
    subst en
    simp at hy
  · rintro x rfl
    exact ⟨rfl, _, ⟨false, false, [], [], []⟩, h0, rfl, ⟨rfl, rfl, Nat.le_refl _, fun _ => rfl, rfl, rfl⟩⟩
  · intro x hx
    simp only [World.start] at hx ⊢
    rw [if_neg (by omega)]

/-! ## Exactness -/

/-- Only open contexts are sticky and no element has been shifted off. -/
def Neat (s : St) : Prop := ∀ x o, s.heap.mem x = some o → (o.sticky = true → x ∈ s.ctxs) ∧ o.tail = 0

theorem modify_mem {h h' : Heap} {x : Nat} {f : Obj → Obj} (e : modify h x f = .ok h') {y : Nat} {o : Obj}
    (ey : h'.mem y = some o) : ∃ p, h.mem y = some p ∧ (o = p ∨ y = x ∧ o = f p) := by
  unfold modify at e
  split at e
  · cases e
  · rename_i p ep
    cases e
    by_cases hy : y = x
    · subst hy
      simp only [upd_same, Option.some.injEq] at ey
      exact ⟨p, ep, .inr ⟨rfl, ey.symm⟩⟩
    · simp only [upd_ne _ _ hy] at ey
      exact ⟨o, ey, .inl rfl⟩

theorem neat_modify {s : St} (hn : Neat s) {x : Nat} {f : Obj → Obj} {h' : Heap}
    (e : modify s.heap x f = .ok h') (hf : ∀ o, (f o).sticky = o.sticky ∧ (f o).tail = o.tail) :
    Neat { s with heap := h' } := by
  intro y o ey
  obtain ⟨p, ep, h⟩ := modify_mem e ey
  rcases h with rfl | ⟨rfl, rfl⟩
  · exact hn y o ep
  · rw [(hf p).1, (hf p).2]
    exact hn y p ep

theorem neat_create {s : St} (hn : Neat s) (isArray : Bool) (link : Option Nat) :
    Neat { s with heap := create s.heap isArray false link } := by
  intro y o ey
  by_cases hy : y = s.heap.fresh
  · simp only [create, hy, upd_same, Option.some.injEq] at ey
    subst ey
    exact ⟨fun h => (by cases h), rfl⟩
  · simp only [create, upd_ne _ _ hy] at ey
    exact hn y o ey

theorem addItem_more (m : Bool) (k v : Nat) (o : Obj) :
    (addItem m k v o).sticky = o.sticky ∧ (addItem m k v o).tail = o.tail := by
  unfold addItem; cases m <;> exact ⟨rfl, rfl⟩

theorem delItem_more (m : Bool) (i : Nat) (o : Obj) :
    (delItem m i o).sticky = o.sticky ∧ (delItem m i o).tail = o.tail := by
  unfold delItem; cases m <;> exact ⟨rfl, rfl⟩

theorem collect_mem {h h' : Heap} {ctx : List Nat} {x : Nat} {o' : Obj} {l : List Nat} {R plain : Nat → Prop} (hw : Wf h l)
    (hun : ∀ x, ¬ Marked h x) (hc : Closed h R plain) (hctx : ∀ c ∈ ctx, R c)
    (hplain : ∀ k, R k → plain k → ∀ z, ¬ Next h k z) (e : collect h ctx = .ok h') (e' : h'.mem x = some o') :
    ∃ o g, h.mem x = some o ∧ o' = { o with gnext := g } ∧ (Found h ctx x ∨ o.sticky = true) := by
  obtain ⟨h'', M, e2, _, _, hM1, _, hkeep, hfree, hno⟩ := collect_ok hw hun hc hctx hplain
  rw [e] at e2
  cases e2
  cases eo : h.mem x with
  | none => rw [hno x eo] at e'; cases e'
  | some o =>
    by_cases hk : M x ∨ o.sticky = true
    · obtain ⟨g, eg⟩ := hkeep x o eo hk
      rw [e'] at eg
      cases eg
      exact ⟨o, g, rfl, rfl, hk.imp (hM1 x) id⟩
    · have := hfree x o eo (fun hm => hk (.inl hm)) (by
        cases hs : o.sticky with
        | false => rfl
        | true => exact absurd (.inr hs) hk)
      rw [this] at e'
      cases e'

theorem neat_step {w : World} {s s' : St} (hs : Ok w s) (hn : Neat s) {op : Op} (hl : w.Legal op)
    (hop : ∀ x, op ≠ .shift x) (e : step s op = .ok s') : Neat s' := by
  cases op with
  | make owner isArray proto =>
    simp only [step, Out.bind_eq_ok] at e
    obtain ⟨h', e1, e2⟩ := e
    cases e2
    have h1 := neat_create hn false none
    have h2 := neat_create h1 isArray proto
    exact neat_modify h2 e1 (fun o => addItem_more _ _ _ o)
  | put m x k v =>
    simp only [step, Out.bind_eq_ok] at e
    obtain ⟨h', e1, e2⟩ := e
    cases e2
    exact neat_modify hn e1 (fun o => addItem_more _ _ _ o)
  | del m x i =>
    simp only [step, Out.bind_eq_ok] at e
    obtain ⟨h', e1, e2⟩ := e
    cases e2
    exact neat_modify hn e1 (fun o => delItem_more _ _ o)
  | push x v =>
    simp only [step, Out.bind_eq_ok] at e
    obtain ⟨h', e1, e2⟩ := e
    cases e2
    exact neat_modify hn e1 (fun o => ⟨rfl, rfl⟩)
  | shift x => exact absurd rfl (hop x)
  | pop x =>
    simp only [step, Out.bind_eq_ok] at e
    obtain ⟨h', e1, e2⟩ := e
    cases e2
    exact neat_modify hn e1 (fun o => by unfold arrayPop; split <;> exact ⟨rfl, rfl⟩)
  | enter =>
    simp only [step] at e
    cases e
    intro y o ey
    by_cases hy : y = s.heap.fresh
    · simp only [create, hy, upd_same, Option.some.injEq] at ey
      subst ey
      exact ⟨fun _ => by rw [hy]; exact List.mem_cons_self, rfl⟩
    · simp only [create, upd_ne _ _ hy] at ey
      exact ⟨fun h => List.mem_cons_of_mem _ ((hn y o ey).1 h), (hn y o ey).2⟩
  | leave =>
    obtain ⟨l, R, L, h⟩ := hs
    have h2 : 2 ≤ s.ctxs.length := by rw [h.scopes]; exact hl
    match hc : s.ctxs with
    | [] => rw [hc] at h2; simp at h2
    | [c] => rw [hc] at h2; simp at h2
    | c :: d :: rest =>
      simp only [step, hc, Out.bind_eq_ok] at e
      obtain ⟨h', e1, e2⟩ := e
      cases e2
      intro y o ey
      obtain ⟨p, ep, hp⟩ := modify_mem e1 ey
      have hny := hn y p ep
      rcases hp with rfl | ⟨rfl, rfl⟩
      · refine ⟨fun hst => ?_, hny.2⟩
        have hm := hny.1 hst
        simp only [hc] at hm
        rcases List.mem_cons.1 hm with rfl | hm
        · unfold modify at e1
          rw [ep] at e1
          cases e1
          simp only [upd_same, Option.some.injEq] at ey
          rw [← ey] at hst
          cases hst
        · simpa using hm
      · exact ⟨fun hst => (by cases hst), hny.2⟩
  | collect =>
    obtain ⟨l, R, L, h⟩ := hs
    simp only [step, Out.bind_eq_ok] at e
    obtain ⟨h', e1, e2⟩ := e
    cases e2
    intro y o ey
    obtain ⟨p, g, ep, rfl, _⟩ := collect_mem h.wf h.un h.closed (fun c hc => (h.ctx c hc).1) h.names e1 ey
    exact hn y p ep

theorem neat_run : ∀ {ops : List Op} {w : World} {s s' : St}, Ok w s → Neat s → w.LegalRun ops →
    (∀ x, Op.shift x ∉ ops) → run s ops = .ok s' → Neat s'
  | [], _, _, _, _, hn, _, _, e => by cases e; exact hn
  | op :: ops, w, s, s', h, hn, hl, hno, e => by
    obtain ⟨s1, e1, h1⟩ := step_ok h hl.1
    simp only [run, e1, Out.ok_bind] at e
    exact neat_run h1 (neat_step h hn hl.1 (fun x hx => hno x (by rw [hx]; exact List.mem_cons_self)) e1) hl.2
      (fun x hx => hno x (List.mem_cons_of_mem _ hx)) e

theorem start_neat : Neat start := by
  intro y o e
  by_cases hy : y = 0
  · subst hy
    simp [start, create, upd] at e
    subst e
    exact ⟨fun _ => by simp [start], rfl⟩
  · simp [start, create, upd, hy] at e

theorem Rep.refs {o : Obj} {n : Node} (hr : Rep o n) (ht : o.tail = 0) {y : Nat} (h : y ∈ o.outs ∨ y ∈ o.keys) : Refs n y := by
  unfold Obj.outs Obj.keys at h
  simp only [List.mem_append, List.mem_map] at h
  rcases h with ((h | ⟨p, hp, rfl⟩) | ⟨p, hp, rfl⟩) | (⟨p, hp, rfl⟩ | ⟨p, hp, rfl⟩)
  · left
    rw [← hr.elems, ht, List.drop_zero]
    split at h
    · exact h
    · cases h
  · exact .inr ⟨p.1, p.2, .inl (by rw [← hr.props]; exact hp), .inr rfl⟩
  · exact .inr ⟨p.1, p.2, .inr (by rw [← hr.methods]; exact hp), .inr rfl⟩
  · exact .inr ⟨p.1, p.2, .inl (by rw [← hr.props]; exact hp), .inl rfl⟩
  · exact .inr ⟨p.1, p.2, .inr (by rw [← hr.methods]; exact hp), .inl rfl⟩

/-- After a collection exactly what the program can get hold of is left. -/
theorem collect_exact {w : World} {s s' : St} (hs : Ok w s) (hn : Neat s) (e : step s .collect = .ok s') {x : Nat}
    (hx : (s'.heap.mem x).isSome) : w.Live x := by
  obtain ⟨l, R, L, h⟩ := hs
  simp only [step, Out.bind_eq_ok] at e
  obtain ⟨h', e1, e2⟩ := e
  cases e2
  obtain ⟨o', eo'⟩ := Option.isSome_iff_exists.1 hx
  obtain ⟨p, g, ep, rfl, hf⟩ := collect_mem h.wf h.un h.closed (fun c hc => (h.ctx c hc).1) h.names e1 eo'
  have hfound : ∀ y, Found s.heap s.ctxs y → w.Live y := by
    intro y hy
    induction hy with
    | root hc => exact .root (by rw [← h.scopes]; exact hc)
    | step _ he ih =>
      obtain ⟨_, o, n, eo, en, hr⟩ := h.live _ (h.ofLive ih)
      obtain ⟨q, eq, hz⟩ := he
      rw [eo] at eq
      cases eq
      exact .step ih ⟨n, en, hr.refs (hn _ o eo).2 hz⟩
  rcases hf with hf | hf
  · exact hfound x hf
  · exact .root (by rw [← h.scopes]; exact (hn x p ep).1 hf)

end Verif.Model.GC
