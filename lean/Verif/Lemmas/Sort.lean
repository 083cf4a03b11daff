import Verif.Model.Sort

/-!
# Sorting: insertion sort as a procedure, and running a procedure
-/

namespace Verif.Lemmas.Sort
open Verif Verif.Spec.Sort Verif.Model.Sort

/-! ## Two ways to sort by insertion -/

/-- Inserts `x`; the place is sought from the left. `greater`: asks whether the other is greater than `x`, otherwise whether `x`
is less than the other. -/
def insertPlan (greater : Bool) (x : Nat) (k : List Nat → Plan) : List Nat → List Nat → Plan
  | pre, [] => k (pre ++ [x])
  | pre, y :: ys =>
    if greater then
      .ask y x (insertPlan greater x k (pre ++ [y]) ys) (insertPlan greater x k (pre ++ [y]) ys) (k (pre ++ x :: y :: ys))
    else
      .ask x y (k (pre ++ x :: y :: ys)) (insertPlan greater x k (pre ++ [y]) ys) (insertPlan greater x k (pre ++ [y]) ys)

/-- Inserts one after the other. -/
def buildPlan (greater : Bool) : List Nat → List Nat → Plan
  | [], s => .done s
  | x :: xs, s => insertPlan greater x (buildPlan greater xs) [] s

/-- Sorting by insertion. -/
def insertion (greater : Bool) (n : Nat) : Plan := buildPlan greater (List.range n) []

/-- Insertion into a list. -/
def insert (le : Nat → Nat → Bool) (x : Nat) : List Nat → List Nat
  | [] => [x]
  | y :: ys => if le y x then y :: insert le x ys else x :: y :: ys

theorem insert_perm (le : Nat → Nat → Bool) (x : Nat) (l : List Nat) : (insert le x l).Perm (x :: l) := by
  induction l with
  | nil => exact List.Perm.refl _
  | cons y ys ih =>
    unfold insert
    split
    · exact (List.Perm.cons y ih).trans (List.Perm.swap x y ys)
    · exact List.Perm.refl _

theorem insert_order {le : Nat → Nat → Bool} (h : Order le) (x : Nat) (l : List Nat) (hl : InOrder le l) :
    InOrder le (insert le x l) := by
  induction l with
  | nil => exact List.pairwise_singleton _ _
  | cons y ys ih =>
    unfold InOrder at hl ih ⊢
    rw [List.pairwise_cons] at hl
    unfold insert
    split
    · rename_i hy
      rw [List.pairwise_cons]
      refine ⟨fun z hz => ?_, ih hl.2⟩
      rcases List.mem_cons.1 ((insert_perm le x ys).mem_iff.1 hz) with rfl | hz
      · exact hy
      · exact hl.1 z hz
    · rename_i hy
      have hxy : le x y = true := (h.total x y).resolve_right hy
      rw [List.pairwise_cons, List.pairwise_cons]
      refine ⟨fun z hz => ?_, hl⟩
      rcases List.mem_cons.1 hz with rfl | hz
      · exact hxy
      · exact h.trans x y z hxy (hl.1 z hz)

theorem follow_insertPlan {le : Nat → Nat → Bool} (h : Order le) (g : Bool) (x : Nat) (k : List Nat → Plan) (ys : List Nat) :
    ∀ pre, follow (verdict le) (insertPlan g x k pre ys) = follow (verdict le) (k (pre ++ insert le x ys)) := by
  induction ys with
  | nil => intro pre; rfl
  | cons y ys ih =>
    intro pre
    unfold insertPlan insert
    have ht := h.total x y
    have hi := ih (pre ++ [y])
    rw [List.append_assoc, List.singleton_append] at hi
    cases g <;> cases hxy : le x y <;> cases hyx : le y x <;> simp_all [follow, verdict]

theorem follow_buildPlan {le : Nat → Nat → Bool} (h : Order le) (g : Bool) (xs : List Nat) : ∀ s, InOrder le s →
    (follow (verdict le) (buildPlan g xs s)).Perm (xs ++ s) ∧ InOrder le (follow (verdict le) (buildPlan g xs s)) := by
  induction xs with
  | nil => intro s hs; exact ⟨List.Perm.refl _, hs⟩
  | cons x xs ih =>
    intro s hs
    unfold buildPlan
    rw [follow_insertPlan h, List.nil_append]
    obtain ⟨h1, h2⟩ := ih (insert le x s) (insert_order h x s hs)
    refine ⟨h1.trans ?_, h2⟩
    exact ((insert_perm le x s).append_left xs).trans List.perm_middle

theorem bounded_insertPlan {n : Nat} {g : Bool} {x : Nat} (hx : x < n) {k : List Nat → Plan} {l : List Nat}
    (hk : ∀ m : List Nat, (∀ y ∈ m, y < n) → Bounded n (k m)) : ∀ pre : List Nat, (∀ y ∈ pre, y < n) → (∀ y ∈ l, y < n) →
    Bounded n (insertPlan g x k pre l) := by
  induction l with
  | nil =>
    intro pre hp _
    unfold insertPlan
    exact hk _ (by intro y hy; rcases List.mem_append.1 hy with h | h; exact hp y h; rw [List.mem_singleton.1 h]; exact hx)
  | cons y ys ih =>
    intro pre hp hl
    have hy := hl y List.mem_cons_self
    have h1 := ih (pre ++ [y]) (by
      intro z hz; rcases List.mem_append.1 hz with h | h; exact hp z h; rw [List.mem_singleton.1 h]; exact hy)
      (fun z hz => hl z (List.mem_cons_of_mem _ hz))
    have h2 := hk (pre ++ x :: y :: ys) (by
      intro z hz
      rcases List.mem_append.1 hz with h | h
      · exact hp z h
      · rcases List.mem_cons.1 h with rfl | h
        · exact hx
        · exact hl z h)
    unfold insertPlan
    cases g
    · exact ⟨hx, hy, h2, h1, h1⟩
    · exact ⟨hy, hx, h1, h1, h2⟩

theorem bounded_buildPlan {n : Nat} {g : Bool} (xs : List Nat) : ∀ s : List Nat, (∀ y ∈ xs, y < n) → (∀ y ∈ s, y < n) →
    Bounded n (buildPlan g xs s) := by
  induction xs with
  | nil => intro s _ _; trivial
  | cons x xs ih =>
    intro s hxs hs
    unfold buildPlan
    exact bounded_insertPlan (hxs x List.mem_cons_self)
      (fun m hm => ih m (fun z hz => hxs z (List.mem_cons_of_mem _ hz)) hm) [] (by simp) hs

/-- Sorting by insertion sorts. -/
theorem insertion_sorts (g : Bool) (n : Nat) : Sorts n (insertion g n) := by
  refine ⟨bounded_buildPlan _ _ (by simp) (by simp), fun le h => ?_⟩
  have := follow_buildPlan h g (List.range n) [] List.Pairwise.nil
  rw [List.append_nil] at this
  exact this

theorem onlyGreater_insertPlan {x : Nat} {k : List Nat → Plan} (hk : ∀ m, OnlyGreater (k m)) (l : List Nat) : ∀ pre,
    OnlyGreater (insertPlan true x k pre l) := by
  induction l with
  | nil => intro pre; exact hk _
  | cons y ys ih =>
    intro pre
    unfold insertPlan
    exact ⟨rfl, ih _, hk _⟩

theorem onlyGreater_insertion (n : Nat) : OnlyGreater (insertion true n) := by
  unfold insertion
  generalize List.range n = xs
  suffices h : ∀ s, OnlyGreater (buildPlan true xs s) from h []
  induction xs with
  | nil => intro s; trivial
  | cons x xs ih => intro s; exact onlyGreater_insertPlan ih s []

theorem permutes_insertPlan {n : Nat} {g : Bool} {x : Nat} {k : List Nat → Plan} {l : List Nat} :
    ∀ pre, (∀ m : List Nat, m.Perm (pre ++ x :: l) → Permutes n (k m)) → Permutes n (insertPlan g x k pre l) := by
  induction l with
  | nil => intro pre hk; exact hk _ (List.Perm.refl _)
  | cons y ys ih =>
    intro pre hk
    have h1 := ih (pre ++ [y]) (fun m hm => hk m (hm.trans (by
      rw [List.append_assoc, List.singleton_append]
      exact (List.Perm.swap x y ys).append_left pre)))
    have h2 := hk (pre ++ x :: y :: ys) (List.Perm.refl _)
    unfold insertPlan
    cases g
    · exact ⟨h2, h1, h1⟩
    · exact ⟨h1, h1, h2⟩

theorem permutes_buildPlan {n : Nat} {g : Bool} (xs : List Nat) : ∀ s : List Nat, (xs ++ s).Perm (List.range n) →
    Permutes n (buildPlan g xs s) := by
  induction xs with
  | nil => intro s hs; exact hs
  | cons x xs ih =>
    intro s hs
    unfold buildPlan
    refine permutes_insertPlan [] fun m hm => ih m (((hm.append_left xs).trans ?_).trans hs)
    rw [List.nil_append]
    exact List.perm_middle

theorem insertion_permutes (g : Bool) (n : Nat) : Permutes n (insertion g n) :=
  permutes_buildPlan _ _ (by rw [List.append_nil])

/-! ## Carrying a procedure out -/

/-- Comparisons that answer `c` and leave the sorter and the items alone. -/
def Steady {σ : Type} (blocks : Blocks σ) (f : Nat) (items : List Nat) (c : Nat → Nat → Ordering) : Prop :=
  ∀ a ∈ items, ∀ b ∈ items, ∀ s : St σ, s.sorter = f → s.items = items → ∃ r k, cmp blocks a b s = .ok ({ s with rest := r }, k) ∧
    compare k 0 = c a b

theorem carryOut_steady {σ : Type} {blocks : Blocks σ} {f : Nat} {items : List Nat} {c : Nat → Nat → Ordering}
    (h : Steady blocks f items c) (p : Plan) : ∀ s : St σ, Bounded items.length p → s.sorter = f → s.items = items →
    ∃ r, carryOut blocks items p s = .ok ({ s with rest := r }, follow (fun i j => c (items.getD i 0) (items.getD j 0)) p) := by
  induction p with
  | done p => intro s _ _ _; exact ⟨s.rest, rfl⟩
  | ask i j lt eq gt ih1 ih2 ih3 =>
    intro s hb hs hi
    obtain ⟨h1, h2, b1, b2, b3⟩ := hb
    obtain ⟨r, k, hc, hk⟩ := h items[i] (List.getElem_mem h1) items[j] (List.getElem_mem h2) s hs hi
    have e1 : items.getD i 0 = items[i] := by simp [List.getD, h1]
    have e2 : items.getD j 0 = items[j] := by simp [List.getD, h2]
    unfold carryOut
    rw [List.getElem?_eq_getElem h1, List.getElem?_eq_getElem h2]
    dsimp only
    rw [hc, Out.ok_bind]
    dsimp only
    rw [if_neg (by rw [hi]; simp)]
    unfold follow
    rw [e1, e2, ← hk]
    by_cases hlt : k < 0
    · rw [if_pos hlt, show compare k 0 = .lt from Int.compare_eq_lt.2 hlt]
      exact ih1 _ b1 hs hi
    · rw [if_neg hlt]
      by_cases heq : k = 0
      · rw [if_pos heq, show compare k 0 = .eq from Int.compare_eq_eq.2 heq]
        exact ih2 _ b2 hs hi
      · rw [if_neg heq, show compare k 0 = .gt from Int.compare_eq_gt.2 (by omega)]
        exact ih3 _ b3 hs hi

theorem carryOut_permutes {σ : Type} {blocks : Blocks σ} {items : List Nat} {n : Nat} (p : Plan) : ∀ (s s' : St σ) (q : List Nat),
    Permutes n p → carryOut blocks items p s = .ok (s', q) → q.Perm (List.range n) := by
  induction p with
  | done p =>
    intro s s' q hp h
    unfold carryOut at h
    injection h with h
    injection h with _ h
    exact h ▸ hp
  | ask i j lt eq gt ih1 ih2 ih3 =>
    intro s s' q hp h
    unfold carryOut at h
    split at h
    · rw [Out.bind_eq_ok] at h
      obtain ⟨⟨s1, k⟩, _, h⟩ := h
      dsimp only at h
      split at h
      · cases h
      · split at h
        · exact ih1 _ _ _ hp.1 h
        · split at h
          · exact ih2 _ _ _ hp.2.1 h
          · exact ih3 _ _ _ hp.2.2 h
    · cases h

theorem follow_onlyGreater {c c' : Nat → Nat → Ordering} (h : ∀ i j, c i j = .gt ↔ c' i j = .gt) (p : Plan) (hp : OnlyGreater p) :
    follow c p = follow c' p := by
  induction p with
  | done p => rfl
  | ask i j lt eq gt ih1 ih2 ih3 =>
    obtain ⟨h1, h2, h3⟩ := hp
    subst h1
    have hij := h i j
    unfold follow
    cases hc : c i j <;> cases hc' : c' i j <;> simp_all

theorem filterMap_items {items : List Nat} (q : List Nat) (hq : ∀ i ∈ q, i < items.length) :
    q.filterMap (items[·]?) = q.map (items.getD · 0) := by
  induction q with
  | nil => rfl
  | cons i q ih =>
    have hi := hq i List.mem_cons_self
    rw [List.filterMap_cons, List.getElem?_eq_getElem hi, List.map_cons, ih fun j hj => hq j (List.mem_cons_of_mem _ hj)]
    simp [List.getD, hi]

theorem range_items (items : List Nat) : (List.range items.length).map (items.getD · 0) = items := by
  apply List.ext_getElem?
  intro i
  rw [List.getElem?_map]
  by_cases hi : i < items.length
  · simp [hi]
  · simp [Nat.le_of_not_lt hi]

/-- A rearrangement of the positions is a rearrangement of the items. -/
theorem items_perm {items q : List Nat} (h : q.Perm (List.range items.length)) : (q.filterMap (items[·]?)).Perm items := by
  rw [filterMap_items q fun i hi => List.mem_range.1 (h.mem_iff.1 hi)]
  have := h.map (items.getD · 0)
  rwa [range_items] at this

end Verif.Lemmas.Sort
