import Verif.Model.Seq
import Verif.Spec.Seq

/-! Helper lemmas for `Props/Seq`. -/

namespace Verif.Model.Seq

/-- Representation relation: the buffer holds the shifted-off elements `pre`, then the elements `l`, then
at least one spare slot; `tail`, `head` and `length` are the corresponding boundaries. -/
structure Rep (s : Seq α) (pre l : List α) : Prop where
  tail_eq : s.tail = pre.length
  head_eq : s.head = pre.length + l.length
  len_eq : s.buf.length = s.length
  buf_eq : ∃ junk, s.buf = (pre ++ l).map some ++ junk ∧ junk ≠ []

theorem rep_new : Rep (new : Seq α) [] [] :=
  ⟨rfl, rfl, rfl, [none], rfl, by simp⟩

theorem Rep.lt {s : Seq α} (h : Rep s pre l) : s.head < s.length := by
  obtain ⟨ht, hh, hl, junk, hb, hj⟩ := h
  rw [← hl, hb, hh]; simp
  exact List.length_pos_iff.mpr hj

theorem rep_grow {s : Seq α} (h : Rep s pre l) :
    Rep s.grow pre l ∧ s.grow.head + 1 < s.grow.length ∧ s.grow.head = s.head ∧ s.grow.tail = s.tail := by
  have hlt := h.lt
  unfold grow
  split
  · rename_i hc
    obtain ⟨ht, hh, hl, junk, hb, hj⟩ := h
    refine ⟨⟨ht, hh, ?_, junk ++ List.replicate (s.length * 3 - s.buf.length) none, ?_, ?_⟩, ?_, rfl, rfl⟩
    · simp; omega
    · have : List.take (s.length * 3) s.buf = s.buf := List.take_of_length_le (by omega)
      simp only [this]; rw [hb]; simp
    · simp [hj]
    · show s.head + 1 < s.length * 3; omega
  · rename_i hc
    exact ⟨h, by omega, rfl, rfl⟩

theorem read_rep {s : Seq α} (h : Rep s pre l) (hi : i < s.head) :
    ∃ a, s.read i = .ok a ∧ (pre ++ l)[i]? = some a := by
  obtain ⟨ht, hh, hl, junk, hb, hj⟩ := h
  have hi' : i < (pre ++ l).length := by simp; omega
  refine ⟨(pre ++ l)[i], ?_, by simp⟩
  unfold read
  rw [hb, List.getElem?_append_left (by simpa using hi')]
  rw [List.getElem?_map, List.getElem?_eq_getElem hi']
  rfl

theorem read_elem {s : Seq α} (h : Rep s pre l) (hi : i < l.length) :
    s.read (pre.length + i) = .ok l[i] := by
  obtain ⟨a, ha, hb⟩ := read_rep h (i := pre.length + i) (by rw [h.head_eq]; omega)
  rw [ha]
  rw [List.getElem?_append_right (by omega)] at hb
  simp [hi] at hb
  rw [hb]

theorem read_pre {s : Seq α} (h : Rep s pre l) (hi : i < pre.length) :
    s.read i = .ok pre[i] := by
  obtain ⟨a, ha, hb⟩ := read_rep h (i := i) (by rw [h.head_eq]; omega)
  rw [ha]
  rw [List.getElem?_append_left (by omega)] at hb
  simp [hi] at hb
  rw [hb]

theorem push_rep {s : Seq α} (h : Rep s pre l) (a : α) :
    ∃ s', s.push a = .ok s' ∧ Rep s' pre (l ++ [a]) := by
  obtain ⟨hg, hlt, -, -⟩ := rep_grow h
  obtain ⟨ht, hh, hl, junk, hb, hj⟩ := hg
  refine ⟨_, by simp only [push, write]; rw [if_pos (by omega)]; rfl, ?_⟩
  match junk, hj with
  | j :: js, _ =>
    refine ⟨ht, by simp [hh]; omega, by simpa using hl, js, ?_, ?_⟩
    · simp only [hb, hh]
      rw [List.set_append_right _ _ (by simp)]
      simp
    · intro hjs
      subst hjs
      simp [hb] at hl
      omega

theorem pushN_rep {s : Seq α} (h : Rep s pre l) (a : α) (n : Nat) :
    ∃ s', s.pushN a n = .ok s' ∧ Rep s' pre (l ++ List.replicate n a) := by
  induction n generalizing s l with
  | zero => exact ⟨s, rfl, by simpa using h⟩
  | succ n ih =>
    obtain ⟨s1, h1, r1⟩ := push_rep h a
    obtain ⟨s2, h2, r2⟩ := ih r1
    refine ⟨s2, by simp [pushN, h1, h2], ?_⟩
    simpa [List.replicate_succ] using r2

theorem unshift_rep_zero {s : Seq α} (h : Rep s [] l) (a : α) :
    ∃ s', s.unshift a = .ok s' ∧ Rep s' [] (a :: l) := by
  have ht0 : s.tail = 0 := h.tail_eq
  obtain ⟨hg, hlt, -, htt⟩ := rep_grow h
  obtain ⟨ht, hh, hl, junk, hb, hj⟩ := hg
  simp only [List.length_nil, Nat.zero_add, List.nil_append] at hh hb ht
  have hne : 2 ≤ junk.length := by
    rw [hb] at hl; simp at hl; omega
  match junk, hne with
  | j :: k :: js, _ =>
    have e : s.unshift a = .ok { s.grow with
        head := s.grow.head + 1
        buf := ((s.grow.buf.take 1 ++ s.grow.buf.take (s.grow.head + 1) ++
          s.grow.buf.drop (s.grow.head + 1 + 1)).set s.grow.tail (some a)) } := by
      simp only [unshift, ht0, Nat.lt_irrefl, gt_iff_lt, if_false, memmoveUp, write]
      rw [if_pos (by omega)]
      simp only [Out.ok_bind]
      rw [if_pos (by simp; omega)]
    · refine ⟨_, e, ?_⟩
      refine ⟨by simpa using ht, by simp [hh], ?_, j :: js, ?_, by simp⟩
      · simp; omega
      · simp only [hb, hh, ht]
        cases l with
        | nil => simp
        | cons b bs =>
          have h2 : List.drop (bs.length + 2) (List.map some bs ++ j :: k :: js) = js := by
            rw [List.drop_append]; simp
          simp [List.take_append, List.take_of_length_le, h2]

theorem unshift_rep_pos {s : Seq α} (h : Rep s (pre ++ [b]) l) (a : α) :
    ∃ s', s.unshift a = .ok s' ∧ Rep s' pre (a :: l) := by
  obtain ⟨ht, hh, hl, junk, hb, hj⟩ := h
  simp only [List.length_append, List.length_singleton] at ht hh
  have hlen : pre.length < s.buf.length := by rw [hb]; simp
  have e : s.unshift a = .ok { s with tail := pre.length, buf := s.buf.set pre.length (some a) } := by
    simp only [unshift, ht, Nat.add_sub_cancel, gt_iff_lt, Nat.succ_pos, if_true, Out.ok_bind, write]
    rw [if_pos hlen]
  · refine ⟨_, e, ?_⟩
    refine ⟨rfl, by simp [hh]; omega, by simp [hl], junk, ?_, hj⟩
    simp [hb, List.set_append_right]

theorem unshift_rep {s : Seq α} (h : Rep s pre l) (a : α) :
    ∃ s' pre', s.unshift a = .ok s' ∧ Rep s' pre' (a :: l) := by
  rcases List.eq_nil_or_concat pre with hp | ⟨pre', b, hp⟩
  · subst hp
    obtain ⟨s', h1, h2⟩ := unshift_rep_zero h a
    exact ⟨s', [], h1, h2⟩
  · subst hp
    obtain ⟨s', h1, h2⟩ := unshift_rep_pos (by simpa using h) a
    exact ⟨s', pre', h1, h2⟩

theorem pop_rep_nil [HasNil α] {s : Seq α} (h : Rep s pre []) :
    s.pop = .ok (s, HasNil.nil) := by
  have := h.tail_eq; have := h.head_eq
  simp [pop]; intro; simp_all

theorem pop_rep_concat [HasNil α] {s : Seq α} (h : Rep s pre (l ++ [a])) :
    ∃ s', s.pop = .ok (s', a) ∧ Rep s' pre l := by
  have hr := read_elem h (i := l.length) (by simp)
  obtain ⟨ht, hh, hl, junk, hb, hj⟩ := h
  simp only [List.length_append, List.length_singleton] at hh
  refine ⟨{ s with head := s.head - 1 }, ?_, ?_⟩
  · have hidx : s.head - 1 = pre.length + l.length := by omega
    have : Seq.read { s with head := s.head - 1 } (s.head - 1) = .ok a := by
      have h1 : Seq.read { s with head := s.head - 1 } (s.head - 1) = s.read (s.head - 1) := rfl
      rw [h1, hidx, hr]; simp
    simp only [pop]
    rw [if_neg (by omega), this]; rfl
  · exact ⟨ht, by simp [hh], hl, some a :: junk, by simp [hb], by simp⟩

theorem shift_rep_nil [HasNil α] {s : Seq α} (h : Rep s pre []) :
    s.shift = .ok (s, HasNil.nil) := by
  have := h.tail_eq; have := h.head_eq
  simp [shift]; intro; simp_all

theorem shift_rep_cons [HasNil α] {s : Seq α} (h : Rep s pre (a :: l)) :
    ∃ s', s.shift = .ok (s', a) ∧ Rep s' (pre ++ [a]) l := by
  have hr := read_elem h (i := 0) (by simp)
  obtain ⟨ht, hh, hl, junk, hb, hj⟩ := h
  simp only [List.length_cons] at hh
  refine ⟨{ s with tail := s.tail + 1 }, ?_, ?_⟩
  · simp only [shift]
    rw [if_neg (by omega), ht]
    simp at hr
    rw [hr]; rfl
  · exact ⟨by simp [ht], by simp [hh]; omega, hl, junk, by simp [hb], hj⟩

theorem get_rep [HasNil α] {s : Seq α} (h : Rep s pre l) (n : Int)
    (hn : InInt n ∧ InInt (n - 1)) :
    s.get n = .ok ((Spec.position l n).getD HasNil.nil) := by
  have hh := h.head_eq; have ht := h.tail_eq
  unfold get Spec.position
  rw [if_neg (by simp [hn])]
  simp only
  by_cases h0 : n - 1 < 0
  · rw [if_pos h0, if_neg (by omega)]; rfl
  · rw [if_neg h0, if_pos (by omega : (1:Int) ≤ n)]
    by_cases h1 : s.head ≤ (n - 1).toNat + s.tail
    · rw [if_pos h1, List.getElem?_eq_none (by omega)]; rfl
    · rw [if_neg h1, ht, read_elem h (by omega)]
      rw [List.getElem?_eq_getElem (by omega)]; rfl

theorem first_rep [HasNil α] {s : Seq α} (h : Rep s pre l) :
    s.first = .ok (l.head?.getD HasNil.nil) := by
  have hh := h.head_eq; have ht := h.tail_eq
  unfold first
  cases l with
  | nil => simp_all
  | cons a l =>
    rw [if_neg (by simp at hh; omega), ht]
    have := read_elem h (i := 0) (by simp)
    simpa using this

theorem last_rep [HasNil α] {s : Seq α} (h : Rep s pre l) :
    s.last = .ok (l.getLast?.getD HasNil.nil) := by
  have hh := h.head_eq; have ht := h.tail_eq
  unfold last
  rcases List.eq_nil_or_concat l with hl | ⟨l', a, hl⟩
  · subst hl; simp_all
  · subst hl
    simp only [List.concat_eq_append, List.length_append, List.length_singleton] at hh
    rw [if_neg (by omega), ht]
    have := read_elem h (i := l'.length) (by simp)
    rw [show s.head - pre.length - 1 = l'.length by omega, this]; simp

theorem secondLast_rep [HasNil α] {s : Seq α} (h : Rep s pre l) :
    s.secondLast = .ok ((Spec.penultimate l).getD HasNil.nil) := by
  have hh := h.head_eq; have ht := h.tail_eq
  unfold secondLast Spec.penultimate
  rcases List.eq_nil_or_concat l with hl | ⟨l', a, hl⟩
  · subst hl; simp_all
  · rcases List.eq_nil_or_concat l' with hl' | ⟨l'', b, hl'⟩
    · subst hl' hl; simp_all
    · subst hl' hl
      simp only [List.concat_eq_append, List.length_append, List.length_singleton] at hh
      rw [if_neg (by omega), ht]
      have := read_elem h (i := l''.length) (by simp)
      rw [show s.head - pre.length - 2 = l''.length by omega, this]; simp

theorem count_rep {s : Seq α} (h : Rep s pre l) : s.count = l.length := by
  have hh := h.head_eq; have ht := h.tail_eq
  unfold count; omega

/-! ### put -/

theorem nilDown_eq [HasNil α] (s : Seq α) (lo n : Nat) (A B C : List (Option α))
    (hA : A.length = lo + 1) (hB : B.length = n) (hb : s.buf = A ++ B ++ C) :
    s.nilDown lo n = .ok { s with buf := A ++ List.replicate n (some HasNil.nil) ++ C } := by
  induction n generalizing s B C with
  | zero =>
    have : B = [] := List.length_eq_zero_iff.mp hB
    subst this
    cases s
    simp only at hb
    subst hb
    simp [nilDown]
  | succ n ih =>
    rcases List.eq_nil_or_concat B with h | ⟨B', b, h⟩
    · subst h; simp at hB
    · subst h
      simp at hB
      have hlt : lo + (n + 1) < s.buf.length := by rw [hb]; simp; omega
      simp only [nilDown, write]
      rw [if_pos hlt]
      simp only [Out.ok_bind]
      rw [ih _ B' (some HasNil.nil :: C) hB]
      · simp only [List.replicate_succ']
        simp
      · simp only [hb]
        have h1 : lo + (n + 1) = (A ++ B').length := by simp [hA, hB]; omega
        rw [h1]
        simp

theorem put_rep_ge [HasNil α] {s : Seq α} (h : Rep s pre l) (a : α) (n : Int)
    (h1 : 1 ≤ n) (h2 : n < 18446744073709551616) (hp : pre.length < n.toNat) :
    ∃ s', s.put a n = .ok (s', .self) ∧
      Rep s' pre (Spec.putAt HasNil.nil l (n.toNat - pre.length) a) := by
  have ht := h.tail_eq; have hh := h.head_eq
  obtain ⟨k, hk⟩ : ∃ k, n.toNat = pre.length + k + 1 := ⟨n.toNat - pre.length - 1, by omega⟩
  unfold put
  rw [if_neg (by omega), if_neg (by omega)]
  simp only [hk, Nat.add_sub_cancel]
  by_cases hc : s.head ≤ pre.length + k
  · obtain ⟨s1, e1, r1⟩ := pushN_rep h HasNil.nil (pre.length + k + 1 - s.head)
    obtain ⟨ht1, hh1, hl1, junk, hb1, hj⟩ := r1
    rw [if_pos hc]
    simp only [e1, Out.ok_bind]
    rw [if_neg (by omega)]
    have hlt : pre.length + k < s1.buf.length := by rw [hb1]; simp; omega
    simp only [write, if_pos hlt, Out.ok_bind]
    refine ⟨_, rfl, ht1, ?_, by simpa using hl1, junk, ?_, hj⟩
    · simp only [Spec.putAt]; rw [if_neg (by omega)]; simp; omega
    · simp only [hb1, Spec.putAt]
      rw [if_neg (by omega)]
      have e2 : pre.length + k + 1 - s.head = (k - l.length) + 1 := by omega
      have e3 : pre.length + k + 1 - pre.length - 1 - l.length = k - l.length := by omega
      rw [e2, e3, List.replicate_succ']
      have e4 : pre.length + k = (pre ++ l ++ List.replicate (k - l.length) HasNil.nil).length := by
        simp; omega
      rw [e4]
      simp
  · rw [if_neg hc]
    simp only [Out.ok_bind]
    rw [if_neg (by omega)]
    obtain ⟨-, -, hl1, junk, hb1, hj⟩ := h
    have hlt : pre.length + k < s.buf.length := by rw [hb1]; simp; omega
    simp only [Out.ok_bind, write, if_pos hlt]
    refine ⟨_, rfl, ht, ?_, by simpa using hl1, junk, ?_, hj⟩
    · simp only [Spec.putAt]; rw [if_pos (by omega)]; simp; omega
    · simp only [hb1, Spec.putAt]
      rw [if_pos (by omega)]
      have e4 : pre.length + k + 1 - pre.length - 1 = k := by omega
      rw [e4]
      have hkl : k < l.length := by omega
      simp [List.map_set, hkl]

/-- The effect of `put:at:` inside the shifted-off region: the first element is lost. -/
def putShifted [HasNil α] (pre l : List α) (idx : Nat) (a : α) : List α :=
  a :: List.replicate (pre.length - idx - 1) HasNil.nil ++ l.set 0 HasNil.nil

theorem put_rep_lt [HasNil α] {s : Seq α} (h : Rep s pre l) (a : α) (n : Int)
    (h1 : 1 ≤ n) (hp : n.toNat ≤ pre.length) (h2 : n < 18446744073709551616) :
    ∃ s', s.put a n = .ok (s', .self) ∧
      Rep s' (pre.take (n.toNat - 1)) (putShifted pre l (n.toNat - 1) a) := by
  obtain ⟨idx, hk⟩ : ∃ k, n.toNat = k + 1 := ⟨n.toNat - 1, by omega⟩
  have ht := h.tail_eq; have hh := h.head_eq
  obtain ⟨-, -, hl, junk, hb, hj⟩ := h
  unfold put
  rw [if_neg (by omega), if_neg (by omega)]
  simp only [hk, Nat.add_sub_cancel]
  rw [if_neg (by omega)]
  simp only [Out.ok_bind]
  rw [if_pos (by omega)]
  have hidx : idx < pre.length := by omega
  have hpre : pre = pre.take idx ++ pre[idx] :: pre.drop (idx + 1) := by
    rw [List.getElem_cons_drop, List.take_append_drop]
  match junk, hj with
  | j :: js, _ =>
    have hR : ∃ C x, l.map some ++ j :: js = x :: C ∧
        (some HasNil.nil :: C) =
          (l.set 0 HasNil.nil).map some ++ (if l = [] then some HasNil.nil :: js else j :: js) := by
      cases l with
      | nil => exact ⟨js, j, by simp, by simp⟩
      | cons b bs => exact ⟨bs.map some ++ j :: js, some b, by simp, by simp⟩
    obtain ⟨C, x, hC, hC'⟩ := hR
    rw [nilDown_eq s idx (s.tail - idx) ((pre.take idx ++ [pre[idx]]).map some)
      ((pre.drop (idx+1)).map some ++ [x]) C (by simp; omega) (by simp; omega) ?_]
    · simp only [Out.ok_bind, write]
      rw [if_pos (by simp; omega)]
      have ht2 : s.tail - idx = (pre.length - idx - 1) + 1 := by omega
      have hmin : min idx pre.length = idx := by omega
      refine ⟨_, rfl, by simp; omega, ?_, ?_, (if l = [] then some HasNil.nil :: js else j :: js), ?_,
        by split <;> simp⟩
      · simp [putShifted]; omega
      · have h5 := congrArg List.length hC
        simp at h5
        rw [← hl, hb]
        simp; omega
      · simp only [ht2, List.replicate_succ', putShifted]
        rw [List.append_assoc, List.append_assoc, List.set_append_left _ _ (by simp; omega)]
        simp only [List.map_append, List.map_cons, List.append_assoc, List.cons_append,
          List.nil_append, hC', List.map_nil]
        rw [List.set_append_right _ _ (by simp; omega)]
        simp [hmin]
    · have : s.buf = pre.map some ++ (l.map some ++ j :: js) := by rw [hb]; simp
      rw [this, hC]
      conv => lhs; rw [hpre]
      simp only [List.map_append, List.map_cons, List.append_assoc, List.cons_append, List.nil_append,
        List.map_nil]

theorem put_err [HasNil α] (s : Seq α) (a : α) (n : Int) (h : n < 1) :
    s.put a n = .ok (s, .err) := by simp [put, h]

/-! ### derived sequences -/

theorem pushGets_rep [HasNil α] {src dst : Seq α} (hs : Rep src pre l) (hd : Rep dst pre' r)
    (i n : Nat) (hi : i + n < 2147483648) :
    ∃ d, src.pushGets dst i n = .ok d ∧
      Rep d pre' (r ++ (List.range n).map fun k =>
        (Spec.position l ((i : Int) + 1 + (k : Nat))).getD HasNil.nil) := by
  induction n generalizing i dst r with
  | zero => exact ⟨dst, rfl, by simpa using hd⟩
  | succ n ih =>
    have hg := get_rep hs ((i : Int) + 1) (by unfold InInt; omega)
    obtain ⟨d1, e1, r1⟩ := push_rep hd ((Spec.position l ((i : Int) + 1)).getD HasNil.nil)
    obtain ⟨d2, e2, r2⟩ := ih r1 (i + 1) (by omega)
    refine ⟨d2, by simp [pushGets, hg, e1, e2], ?_⟩
    rw [List.range_succ_eq_map, List.map_cons, List.map_map]
    have : (fun (k : Nat) => (Spec.position l (((i + 1 : Nat) : Int) + 1 + k)).getD HasNil.nil) =
        ((fun (k : Nat) => (Spec.position l ((i : Int) + 1 + k)).getD HasNil.nil) ∘ Nat.succ) := by
      funext k
      simp only [Function.comp]
      rw [show ((i + 1 : Nat) : Int) + 1 + (k : Int) = (i : Int) + 1 + (k.succ : Nat) by omega]
    rw [this] at r2
    simpa using r2

/-- `slice` at offset `p`: the last `l.length - p` elements followed by `p` Nils (at most `l.length`). -/
theorem slice_off (d : α) (l : List α) (p : Nat) :
    ((List.range l.length).map fun k => (Spec.position l ((p : Int) + 1 + (k : Nat))).getD d) =
      l.drop p ++ List.replicate (min p l.length) d := by
  apply List.ext_getElem
  · simp; omega
  · intro k h1 h2
    simp at h1
    simp only [List.getElem_map, List.getElem_range, Spec.position]
    rw [if_pos (by omega)]
    have : ((p : Int) + 1 + k - 1).toNat = p + k := by omega
    rw [this]
    by_cases hk : p + k < l.length
    · rw [List.getElem?_eq_getElem hk, List.getElem_append_left (by simp; omega)]
      simp
    · rw [List.getElem?_eq_none (by omega), List.getElem_append_right (by simp; omega)]
      simp

theorem copy_rep [HasNil α] {s : Seq α} (h : Rep s pre l) (hb : s.head < 2147483648) :
    ∃ c, s.copy = .ok c ∧ Rep c [] (l.drop pre.length ++ List.replicate (min pre.length l.length) HasNil.nil) := by
  have ht := h.tail_eq; have hh := h.head_eq
  obtain ⟨d, e, r⟩ := pushGets_rep h rep_new s.tail (s.head - s.tail) (by omega)
  refine ⟨d, e, ?_⟩
  have hl : s.head - s.tail = l.length := by omega
  rw [hl, ht, slice_off] at r
  simpa using r

theorem add_rep [HasNil α] {s t : Seq α} (h : Rep s pre l) (h' : Rep t pre' l')
    (hb : s.head < 2147483648) (hb' : t.head < 2147483648) :
    ∃ c, s.add t = .ok c ∧ Rep c []
      (l.drop pre.length ++ List.replicate (min pre.length l.length) HasNil.nil ++
      (l'.drop pre'.length ++ List.replicate (min pre'.length l'.length) HasNil.nil)) := by
  have ht := h.tail_eq; have hh := h.head_eq
  have ht' := h'.tail_eq; have hh' := h'.head_eq
  obtain ⟨d, e, r⟩ := pushGets_rep h rep_new s.tail (s.head - s.tail) (by omega)
  obtain ⟨d2, e2, r2⟩ := pushGets_rep h' r t.tail (t.head - t.tail) (by omega)
  refine ⟨d2, by simp [add, e, e2], ?_⟩
  have hl : s.head - s.tail = l.length := by omega
  have hl' : t.head - t.tail = l'.length := by omega
  rw [hl, ht, slice_off, hl', ht', slice_off] at r2
  simpa using r2

theorem fromLengthLoop_rep [HasNil α] {s dst : Seq α} (hs : Rep s pre l) (hd : Rep dst pre' r)
    (i : Int) (n : Nat) (hi : InInt i) (hi1 : InInt (i - 1)) (hi2 : i + n < 2147483648) :
    ∃ d, s.fromLengthLoop dst i n = .ok d ∧ Rep d pre' (r ++ Spec.slice HasNil.nil l i n) := by
  induction n generalizing i dst r with
  | zero => exact ⟨dst, rfl, by simpa [Spec.slice] using hd⟩
  | succ n ih =>
    have hg := get_rep hs i ⟨hi, hi1⟩
    obtain ⟨d1, e1, r1⟩ := push_rep hd ((Spec.position l i).getD HasNil.nil)
    by_cases hn : n = 0
    · subst hn
      refine ⟨d1, by simp [fromLengthLoop, hg, e1], ?_⟩
      simpa [Spec.slice, List.range_succ] using r1
    obtain ⟨d2, e2, r2⟩ := ih r1 (i + 1) (by unfold InInt at *; omega) (by simpa using hi) (by omega)
    refine ⟨d2, by simp [fromLengthLoop, hg, e1, e2], ?_⟩
    simp only [Spec.slice] at r2 ⊢
    rw [List.range_succ_eq_map, List.map_cons, List.map_map]
    have : (fun (k : Nat) => (Spec.position l (i + 1 + k)).getD HasNil.nil) =
        ((fun (k : Nat) => (Spec.position l (i + k)).getD HasNil.nil) ∘ Nat.succ) := by
      funext k
      simp only [Function.comp]
      rw [show i + 1 + (k : Int) = i + (k.succ : Nat) by omega]
    rw [this] at r2
    simpa using r2

theorem fromLength_rep [HasNil α] {s : Seq α} (h : Rep s pre l) (start len : Int)
    (h1 : InInt start) (h2 : InInt len) (h3 : InInt (start + len)) (h4 : InInt (start - 1)) :
    ∃ d, s.fromLength start len = .ok d ∧ Rep d [] (Spec.slice HasNil.nil l start len.toNat) := by
  unfold fromLength
  rw [if_neg (by simp [h1, h2, h3])]
  by_cases hl : len ≤ 0
  · have : len.toNat = 0 := by omega
    rw [this]
    exact ⟨_, rfl, by simpa [Spec.slice] using rep_new⟩
  · have := fromLengthLoop_rep h rep_new start len.toNat h1 h4 (by unfold InInt at *; omega)
    simpa using this

/-! ### minimum, maximum, index -/

theorem minLoop_all {s : Seq α} (lt : ν → ν → Bool) (num : α → ν) (L : List α) (i n : Nat) (m : ν)
    (hr : ∀ k, k < n → ∃ (h : i + k < L.length), s.read (i + k) = .ok L[i+k]) :
    s.minLoop lt num i m n = .ok (((L.drop i).take n).foldl
      (fun (p : Nat × ν) a => (p.1 + 1, if p.1 = 0 ∨ lt (num a) p.2 then num a else p.2)) (i, m)).2 := by
  induction n generalizing i m with
  | zero => simp [minLoop]
  | succ n ih =>
    obtain ⟨h0, e0⟩ := hr 0 (by omega)
    simp only [Nat.add_zero] at h0 e0
    rw [minLoop, e0]
    simp only [Out.ok_bind]
    rw [ih]
    · rw [List.drop_eq_getElem_cons h0, List.take_succ_cons, List.foldl_cons]
    · intro k hk
      have := hr (k + 1) (by omega)
      rw [show i + 1 + k = i + (k + 1) by omega]
      exact this

/-- Looking for the greatest is looking for the least in the opposite order. -/
theorem maxLoop_flip {s : Seq α} (lt : ν → ν → Bool) (num : α → ν) (n : Nat) : ∀ (i : Nat) (m : ν),
    s.maxLoop lt num i m n = s.minLoop (fun x y => lt y x) num i m n := by
  induction n with
  | zero => intro i m; rfl
  | succ n ih =>
    intro i m
    simp only [maxLoop, minLoop, ih]

theorem read_all {s : Seq α} (h : Rep s pre l) (k : Nat) (hk : k < s.head) :
    ∃ (h : 0 + k < (pre ++ l).length), s.read (0 + k) = .ok (pre ++ l)[0+k] := by
  obtain ⟨a, e, e2⟩ := read_rep h (i := 0 + k) (by omega)
  have hlt : 0 + k < (pre ++ l).length := by
    have := h.head_eq; simp; omega
  refine ⟨hlt, ?_⟩
  rw [e]
  rw [List.getElem?_eq_getElem hlt] at e2
  simp at e2
  simp [← e2]

theorem foldl_min (lt : ν → ν → Bool) (good : ν → Prop) (irr : ∀ x, good x → lt x x = false)
    (tr : ∀ x y z, good x → good y → good z → lt x y = true → lt y z = true → lt x z = true)
    (num : α → ν) (L : List α) (i : Nat) (m : ν) (hi : 0 < i) (hL : ∀ a ∈ L, good (num a)) (hm : good m) :
    let r := (L.foldl (fun (p : Nat × ν) a =>
      (p.1 + 1, if p.1 = 0 ∨ lt (num a) p.2 then num a else p.2)) (i, m)).2
    (r = m ∨ r ∈ L.map num) ∧ (∀ x, good x → lt x m = false → lt x r = false) ∧ ∀ a ∈ L, lt (num a) r = false := by
  induction L generalizing i m with
  | nil => exact ⟨.inl rfl, fun x _ h => h, fun a h => nomatch h⟩
  | cons a L ih =>
    simp only [List.foldl_cons]
    have hi0 : i ≠ 0 := by omega
    have ga : good (num a) := hL a (List.mem_cons_self ..)
    simp only [hi0, false_or]
    by_cases hc : lt (num a) m = true
    · rw [if_pos hc]
      obtain ⟨h1, h2, h3⟩ := ih (i + 1) (num a) (by omega) (fun b hb => hL b (List.mem_cons_of_mem _ hb)) ga
      refine ⟨.inr ?_, fun x gx hx => h2 x gx ?_, fun b hb => ?_⟩
      · rcases h1 with h1 | h1
        · simp [h1]
        · exact List.mem_cons_of_mem _ h1
      · cases hxa : lt x (num a) with
        | false => rfl
        | true => rw [tr x (num a) m gx ga hm hxa hc] at hx; exact hx
      · rcases List.mem_cons.mp hb with rfl | hb
        · exact h2 _ ga (irr _ ga)
        · exact h3 b hb
    · rw [if_neg hc]
      obtain ⟨h1, h2, h3⟩ := ih (i + 1) m (by omega) (fun b hb => hL b (List.mem_cons_of_mem _ hb)) hm
      refine ⟨h1.imp id (fun h => List.mem_cons_of_mem _ h), h2, fun b hb => ?_⟩
      rcases List.mem_cons.mp hb with rfl | hb
      · exact h2 _ ga (by simpa using hc)
      · exact h3 b hb

theorem min_loop_rep {s : Seq α} (h : Rep s pre l) (lt : ν → ν → Bool) (good : ν → Prop) (irr : ∀ x, good x → lt x x = false)
    (tr : ∀ x y z, good x → good y → good z → lt x y = true → lt y z = true → lt x z = true) (zero : ν) (num : α → ν)
    (hne : pre ++ l ≠ []) (hg : ∀ a ∈ pre ++ l, good (num a)) :
    ∃ m, s.minLoop lt num 0 zero s.head = .ok m ∧ Spec.IsFirst (fun x y => lt x y = true) ((pre ++ l).map num) m := by
  rw [minLoop_all lt num (pre ++ l) 0 s.head zero (fun k hk => read_all h k hk)]
  refine ⟨_, rfl, ?_⟩
  have : List.take s.head (List.drop 0 (pre ++ l)) = pre ++ l := by
    simp [List.take_of_length_le, h.head_eq]
  rw [this]
  match hL : pre ++ l, hne with
  | a :: L, _ =>
    rw [hL] at hg
    have ga := hg a (List.mem_cons_self ..)
    have := foldl_min lt good irr tr num L 1 (num a) (by omega) (fun b hb => hg b (List.mem_cons_of_mem _ hb)) ga
    simp only [List.foldl_cons, true_or, if_true, Nat.zero_add]
    simp only at this
    obtain ⟨h1, h2, h3⟩ := this
    refine ⟨by simpa using h1, ?_⟩
    intro x hx
    simp only [List.map_cons, List.mem_cons, List.mem_map] at hx
    rcases hx with hx | ⟨b, hb, hx⟩
    · rw [hx]
      exact fun hh => Bool.noConfusion (hh.symm.trans (h2 _ ga (irr _ ga)))
    · rw [← hx]
      exact fun hh => Bool.noConfusion (hh.symm.trans (h3 b hb))

theorem min_rep {s : Seq α} (h : Rep s pre l) (lt : ν → ν → Bool) (good : ν → Prop) (irr : ∀ x, good x → lt x x = false)
    (tr : ∀ x y z, good x → good y → good z → lt x y = true → lt y z = true → lt x z = true) (zero : ν) (num : α → ν)
    (hne : pre ++ l ≠ []) (hg : ∀ a ∈ pre ++ l, good (num a)) :
    ∃ m, s.minimum lt zero num = .ok m ∧ Spec.IsFirst (fun x y => lt x y = true) ((pre ++ l).map num) m :=
  min_loop_rep h lt good irr tr zero num hne hg

theorem max_rep {s : Seq α} (h : Rep s pre l) (lt : ν → ν → Bool) (good : ν → Prop) (irr : ∀ x, good x → lt x x = false)
    (tr : ∀ x y z, good x → good y → good z → lt x y = true → lt y z = true → lt x z = true) (zero : ν) (num : α → ν)
    (hne : pre ++ l ≠ []) (hg : ∀ a ∈ pre ++ l, good (num a)) :
    ∃ m, s.maximum lt zero num = .ok m ∧ Spec.IsFirst (fun x y => lt y x = true) ((pre ++ l).map num) m := by
  unfold Seq.maximum
  rw [maxLoop_flip]
  exact min_loop_rep h (fun x y => lt y x) good irr (fun x y z gx gy gz h1 h2 => tr z y x gz gy gx h2 h1) zero num hne hg

theorem indexOfLoop_rep {s : Seq α} (h : Rep s pre l) (same : α → Bool) (i n : Nat)
    (hin : i + n = l.length) :
    s.indexOfLoop same (pre.length + i) n =
      .ok (((l.drop i).findIdx? same).map (· + (pre.length + i))) := by
  induction n generalizing i with
  | zero => simp [indexOfLoop, List.drop_of_length_le (show l.length ≤ i by omega)]
  | succ n ih =>
    have hi : i < l.length := by omega
    rw [indexOfLoop, read_elem h hi]
    simp only [Out.ok_bind]
    rw [List.drop_eq_getElem_cons hi, List.findIdx?_cons]
    split
    · simp
    · rw [Nat.add_assoc, ih (i + 1) (by omega)]
      simp [Option.map_map, Function.comp_def]
      congr 1; funext x; omega

theorem indexOf_rep {s : Seq α} (h : Rep s pre l) (same : α → Bool) :
    s.indexOf same = .ok ((l.findIdx? same).map (· + (pre.length + 1))) := by
  have ht := h.tail_eq; have hh := h.head_eq
  unfold indexOf
  have := indexOfLoop_rep h same 0 l.length (by omega)
  simp only [Nat.add_zero, List.drop_zero] at this
  rw [show s.head - s.tail = l.length by omega, ht, this]
  simp [Option.map_map, Function.comp_def]
  rfl

theorem sort_rep {s : Seq α} (h : Rep s pre l) (q : List α → List α) (hq : (q l).length = l.length) :
    ∃ s', s.sort q = .ok s' ∧ Rep s' pre (q l) := by
  obtain ⟨ht, hh, hl, junk, hb, hj⟩ := h
  have hmid : (s.buf.drop s.tail).take (s.head - s.tail) = l.map some := by
    rw [hb, ht, hh]; simp
  unfold sort
  simp only [hmid]
  rw [if_pos (by constructor <;> simp [hb, hh])]
  refine ⟨_, rfl, ht, by simp [hh, hq], ?_, junk, ?_, hj⟩
  · rw [← hl]; simp [hb, ht, hh, hq, List.drop_append]
  · simp [hb, ht, hh, List.drop_append, Nat.add_sub_cancel_left]

end Verif.Model.Seq
