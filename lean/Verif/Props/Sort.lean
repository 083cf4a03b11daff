import Verif.Lemmas.Sort

/-!
# C76: sorting
-/

namespace Verif.Props.Sort
open Verif Verif.Spec.Sort Verif.Model.Sort Verif.Lemmas.Sort
open Verif.Model.Num (Dbl)

/-- Every time it is run for two of the items, the block answers a whole number with the right sign and changes neither the sequence
nor the block in use (it may change anything else). -/
def Compares {σ : Type} (blocks : Blocks σ) (f : Nat) (items : List Nat) (le : Nat → Nat → Bool) : Prop :=
  ∀ a ∈ items, ∀ b ∈ items, ∀ s : St σ, s.sorter = f → s.items = items → ∃ r k,
    blocks f a b s = .ok ({ s with rest := r }, .num (.ofInt k)) ∧ InInt k ∧ (k < 0 ↔ le b a = false) ∧ (0 < k ↔ le a b = false)

theorem toInt_ofInt {k : Int} (h : InInt k) : (Dbl.ofInt k).toInt = .ok k := by
  unfold Dbl.ofInt Dbl.toInt
  simp [h]

theorem Compares.steady {σ : Type} {blocks : Blocks σ} {f : Nat} {items : List Nat} {le : Nat → Nat → Bool}
    (h : Compares blocks f items le) : Steady blocks f items (verdict le) := by
  intro a ha b hb s hs hi
  obtain ⟨r, k, h1, h2, h3, h4⟩ := h a ha b hb s hs hi
  refine ⟨r, k, ?_, ?_⟩
  · unfold cmp
    have h1' : blocks s.sorter a b s = .ok ({ s with rest := r }, .num (.ofInt k)) := by rw [hs] at *; exact h1
    rw [h1', Out.ok_bind]
    dsimp only [Answer.number]
    rw [toInt_ofInt h2]
    rfl
  · unfold verdict
    rcases Int.lt_trichotomy k 0 with hk | hk | hk
    · have e1 := h3.1 hk
      have e2 : le a b = true := by
        cases h : le a b
        · have := h4.2 h; omega
        · rfl
      rw [e1, e2, show compare k 0 = .lt from Int.compare_eq_lt.2 hk]
      rfl
    · have e1 : le b a = true := by
        cases h : le b a
        · have := h3.2 h; omega
        · rfl
      have e2 : le a b = true := by
        cases h : le a b
        · have := h4.2 h; omega
        · rfl
      rw [e1, e2, show compare k 0 = .eq from Int.compare_eq_eq.2 hk]
      rfl
    · rw [h4.1 hk, show compare k 0 = .gt from Int.compare_eq_gt.2 hk]
      rfl

theorem order_at {le : Nat → Nat → Bool} (h : Order le) (items : List Nat) :
    Order (fun i j => le (items.getD i 0) (items.getD j 0)) :=
  ⟨fun _ _ => h.total _ _, fun _ _ _ => h.trans _ _ _⟩

/-- **C76** for blocks that answer whole numbers: whatever procedure the C library has for sorting, if the signs of the answers come
from an order then the sequence has the same items as before, in that order. -/
theorem C76_partial {σ : Type} (qsort : Nat → Plan) (hq : ∀ n, Sorts n (qsort n)) (le : Nat → Nat → Bool) (hle : Order le)
    (blocks : Blocks σ) (f : Nat) (s : St σ) (h : Compares blocks f s.items le) :
    ∃ s', sort qsort blocks true f s = .ok s' ∧ s'.items.Perm s.items ∧ InOrder le s'.items ∧ s'.err = s.err := by
  obtain ⟨hb, hs⟩ := hq s.items.length
  obtain ⟨r, hc⟩ := carryOut_steady h.steady (qsort s.items.length) { s with sorter := f } hb rfl rfl
  obtain ⟨h1, h2⟩ := hs _ (order_at hle s.items)
  have hv : (fun i j => verdict le (s.items.getD i 0) (s.items.getD j 0)) =
    verdict (fun i j => le (s.items.getD i 0) (s.items.getD j 0)) := rfl
  rw [hv] at hc
  refine ⟨⟨f, _, s.err, r⟩, by unfold sort; rw [if_neg (by simp)]; dsimp only; rw [hc]; rfl, items_perm h1, ?_, rfl⟩
  dsimp only
  rw [filterMap_items _ fun i hi => List.mem_range.1 (h1.mem_iff.1 hi)]
  unfold InOrder at h2 ⊢
  rw [List.pairwise_map]
  exact h2

/-- **C76**, the items: whatever the block answers and does, if sorting ends then the sequence has the items it had, provided that
the procedure of the C library rearranges for all answers. -/
theorem C76_items {σ : Type} (qsort : Nat → Plan) (hq : ∀ n, Permutes n (qsort n)) (blocks : Blocks σ) (isBlock : Bool) (f : Nat)
    (s s' : St σ) (h : sort qsort blocks isBlock f s = .ok s') : s'.items.Perm s.items := by
  unfold sort at h
  split at h
  · injection h with h
    rw [← h]
  · dsimp only at h
    rw [Out.bind_eq_ok] at h
    obtain ⟨⟨s1, q⟩, h1, h2⟩ := h
    injection h2 with h2
    rw [← h2]
    exact items_perm (carryOut_permutes _ _ _ _ (hq _) h1)

/-- **C76**, anything but a block is refused. -/
theorem C76_refused {σ : Type} (qsort : Nat → Plan) (blocks : Blocks σ) (f : Nat) (s : St σ) :
    ∃ s', sort qsort blocks false f s = .ok s' ∧ s'.items = s.items ∧ s'.err = true := ⟨_, rfl, rfl, rfl⟩

/-- **C76** for blocks that answer whether the first is greater: the sequence is sorted if the procedure of the C library never
distinguishes "less" and "equal". -/
theorem C76_greater_partial {σ : Type} (qsort : Nat → Plan) (hq : ∀ n, Sorts n (qsort n)) (hg : ∀ n, OnlyGreater (qsort n))
    (le : Nat → Nat → Bool) (hle : Order le) (blocks : Blocks σ) (f : Nat) (s : St σ)
    (h : ∀ a ∈ s.items, ∀ b ∈ s.items, ∀ t : St σ, t.sorter = f → t.items = s.items → ∃ r,
      blocks f a b t = .ok ({ t with rest := r }, .bool (!le a b))) :
    ∃ s', sort qsort blocks true f s = .ok s' ∧ s'.items.Perm s.items ∧ InOrder le s'.items ∧ s'.err = s.err := by
  obtain ⟨hb, hs⟩ := hq s.items.length
  have hst : Steady blocks f s.items (fun a b => if le a b then .eq else .gt) := by
    intro a ha b hb t ht hi
    obtain ⟨r, h1⟩ := h a ha b hb t ht hi
    refine ⟨r, if le a b then 0 else 1, ?_, by dsimp only; cases le a b <;> rfl⟩
    unfold cmp
    have h1' : blocks t.sorter a b t = .ok ({ t with rest := r }, .bool (!le a b)) := by
      have e := congrArg (fun x => blocks x a b t) ht
      exact e.trans h1
    rw [h1', Out.ok_bind]
    cases le a b <;> rfl
  obtain ⟨r, hc⟩ := carryOut_steady hst (qsort s.items.length) { s with sorter := f } hb rfl rfl
  obtain ⟨h1, h2⟩ := hs _ (order_at hle s.items)
  rw [follow_onlyGreater (c' := verdict (fun i j => le (s.items.getD i 0) (s.items.getD j 0))) (fun i j => by
    unfold verdict
    dsimp only
    by_cases e1 : le (s.items.getD i 0) (s.items.getD j 0) = true <;>
      by_cases e2 : le (s.items.getD j 0) (s.items.getD i 0) = true <;>
      simp only [e1, e2, if_true, if_false, Bool.false_eq_true, reduceCtorEq, iff_self])
    _ (hg _)] at hc
  refine ⟨⟨f, _, s.err, r⟩, by unfold sort; rw [if_neg (by simp)]; dsimp only; rw [hc]; rfl, items_perm h1, ?_, rfl⟩
  dsimp only
  rw [filterMap_items _ fun i hi => List.mem_range.1 (h1.mem_iff.1 hi)]
  unfold InOrder at h2 ⊢
  rw [List.pairwise_map]
  exact h2

/-! ## Examples -/

/-- The order of the numbers. -/
def ascending (a b : Nat) : Bool := decide (a ≤ b)

theorem ascending_order : Order ascending :=
  ⟨fun a b => by simp [ascending]; omega, fun a b c h1 h2 => by simp [ascending] at *; omega⟩

/-- Blocks: 0 answers the difference of two items, 1 whether the first is greater, 2 whether it is less. -/
def simple : Blocks Nat := fun f a b s =>
  if f = 0 then .ok ({ s with rest := s.rest + 1 }, .num (.ofInt ((a : Int) - b)))
  else if f = 1 then .ok (s, .bool (decide (a > b)))
  else .ok (s, .bool (decide (a < b)))

/-- A sequence. -/
def start : St Nat := ⟨9, [3, 1, 2, 1], false, 0⟩

theorem simple_compares : Compares simple 0 start.items ascending := by
  intro a ha b hb s _ _
  have : ∀ x ∈ start.items, x ≤ 3 := by decide
  have h1 := this a ha
  have h2 := this b hb
  refine ⟨s.rest + 1, (a : Int) - b, rfl, ?_, ?_, ?_⟩
  · unfold InInt; omega
  · simp [ascending]; omega
  · simp [ascending]

example : (∀ g n, Sorts n (insertion g n) ∧ Permutes n (insertion g n)) ∧ (∀ n, OnlyGreater (insertion true n)) ∧
    Order ascending ∧ Compares simple 0 start.items ascending ∧
    (∀ a ∈ start.items, ∀ b ∈ start.items, ∀ t : St Nat, t.sorter = 1 → t.items = start.items → ∃ r,
      simple 1 a b t = .ok ({ t with rest := r }, .bool (!ascending a b))) :=
  ⟨fun g n => ⟨insertion_sorts g n, insertion_permutes g n⟩, onlyGreater_insertion, ascending_order, simple_compares,
    fun a _ b _ t _ _ => ⟨t.rest, by
      show Out.ok (t, Answer.bool (decide (a > b))) = _
      have : decide (a > b) = !ascending a b := by unfold ascending; by_cases h : a ≤ b <;> simp [h]; omega
      rw [this]⟩⟩

example : (sort (insertion true) simple true 0 start).sat (fun s => s.items == [1, 1, 2, 3]) = true := by decide +kernel

/-! ## Where it goes wrong -/

/-- **C76 does not hold for blocks that answer fractions**: 0.5 and 0.25 stay in this order although the block answers their
difference, for every library. Item 0 is the number 0.5, item 1 the number 0.25. -/
theorem C76_fraction_violated : ∃ (value : Nat → Dbl) (blocks : Blocks Nat), (value 0 = .fin 2 2 ∧ value 1 = .fin 1 2) ∧
    (∀ f s, blocks f 0 1 s = .ok (s, .num (.fin 1 2)) ∧ blocks f 1 0 s = .ok (s, .num (.fin (-1) 2))) ∧
    ∀ (qsort : Nat → Plan), qsort = insertion true ∨ qsort = insertion false →
      ∃ s', sort qsort blocks true 0 (⟨9, [0, 1], false, 0⟩ : St Nat) = .ok s' ∧ s'.items = [0, 1] := by
  refine ⟨fun i => if i = 0 then .fin 2 2 else .fin 1 2,
    fun _ a _ s => .ok (s, .num (.fin (if a = 0 then 1 else -1) 2)), ⟨rfl, rfl⟩, fun f s => ⟨rfl, rfl⟩, ?_⟩
  rintro qsort (rfl | rfl)
  · obtain ⟨s', h1, h2⟩ := Out.of_sat (o := sort (insertion true) (fun _ a _ s => .ok (s, .num (.fin (if a = 0 then 1 else -1) 2)))
      true 0 (⟨9, [0, 1], false, 0⟩ : St Nat)) (p := fun s => s.items == [0, 1]) (by decide +kernel)
    exact ⟨s', h1, by simpa using h2⟩
  · obtain ⟨s', h1, h2⟩ := Out.of_sat (o := sort (insertion false) (fun _ a _ s => .ok (s, .num (.fin (if a = 0 then 1 else -1) 2)))
      true 0 (⟨9, [0, 1], false, 0⟩ : St Nat)) (p := fun s => s.items == [0, 1]) (by decide +kernel)
    exact ⟨s', h1, by simpa using h2⟩

/-- **C76 does not hold for blocks that answer a Boolean**, as the documented example (`collections.c:634`) and the tests 211 and
293 do: one library sorts with `a > b`, another one leaves the sequence as it is, although both sort correctly. With `a < b` one
gives the opposite order, the other one changes nothing. -/
theorem C76_boolean_violated : ∃ q1 q2 : Nat → Plan, (∀ n, Sorts n (q1 n)) ∧ (∀ n, Sorts n (q2 n)) ∧
    (∃ s, sort q1 simple true 1 start = .ok s ∧ s.items = [1, 1, 2, 3]) ∧
    (∃ s, sort q2 simple true 1 start = .ok s ∧ s.items = [3, 1, 2, 1]) ∧
    (∃ s, sort q1 simple true 2 start = .ok s ∧ s.items = [3, 2, 1, 1]) ∧
    (∃ s, sort q2 simple true 2 start = .ok s ∧ s.items = [3, 1, 2, 1]) := by
  refine ⟨insertion true, insertion false, insertion_sorts true, insertion_sorts false, ?_, ?_, ?_, ?_⟩
  · obtain ⟨s', h1, h2⟩ := Out.of_sat (o := sort (insertion true) simple true 1 start)
      (p := fun s => s.items == [1, 1, 2, 3]) (by decide +kernel)
    exact ⟨s', h1, by simpa using h2⟩
  · obtain ⟨s', h1, h2⟩ := Out.of_sat (o := sort (insertion false) simple true 1 start)
      (p := fun s => s.items == [3, 1, 2, 1]) (by decide +kernel)
    exact ⟨s', h1, by simpa using h2⟩
  · obtain ⟨s', h1, h2⟩ := Out.of_sat (o := sort (insertion true) simple true 2 start)
      (p := fun s => s.items == [3, 2, 1, 1]) (by decide +kernel)
    exact ⟨s', h1, by simpa using h2⟩
  · obtain ⟨s', h1, h2⟩ := Out.of_sat (o := sort (insertion false) simple true 2 start)
      (p := fun s => s.items == [3, 1, 2, 1]) (by decide +kernel)
    exact ⟨s', h1, by simpa using h2⟩

/-- Block 5 sorts a sequence of its own (items 7 and 8) with block 6, which answers 0, and then answers the difference of its
arguments. -/
def nested : Blocks Nat := fun f a b s =>
  if f = 5 then
    match sort (insertion true) (fun _ _ _ s => .ok (s, .num (.ofInt 0))) true 6 { s with items := [7, 8] } with
    | .ok t => .ok ({ t with items := s.items }, .num (.ofInt ((a : Int) - b)))
    | .ub => .ub
    | .exit => .exit
  else .ok (s, .num (.ofInt 0))

/-- **C76 does not hold if the block sorts another sequence**: from then on the block of the inner sorting is used for the outer one.
The answers of block 5 have the right signs, yet the sequence is not sorted. -/
theorem C76_nested_violated : (∀ a b (s : St Nat), ∃ t, nested 5 a b s = .ok (t, .num (.ofInt ((a : Int) - b))) ∧ t.items = s.items) ∧
    ∃ s, sort (insertion true) nested true 5 start = .ok s ∧ ¬ InOrder ascending s.items := by
  refine ⟨fun a b s => ⟨_, rfl, rfl⟩, ?_⟩
  obtain ⟨s', h1, h2⟩ := Out.of_sat (o := sort (insertion true) nested true 5 start)
    (p := fun s => s.items == [1, 3, 2, 1]) (by decide +kernel)
  refine ⟨s', h1, ?_⟩
  rw [show s'.items = [1, 3, 2, 1] by simpa using h2]
  unfold InOrder
  decide

/-- **C76 does not hold for large numbers**: the difference of three billion and zero does not fit into the comparison. -/
theorem C76_large_violated : ∃ blocks : Blocks Nat, (∀ f a b s, blocks f a b s = .ok (s, .num (.ofInt ((a : Int) - b)))) ∧
    sort (insertion true) blocks true 0 (⟨9, [3000000000, 0], false, 0⟩ : St Nat) = .ub :=
  ⟨fun _ a b s => .ok (s, .num (.ofInt ((a : Int) - b))), fun _ _ _ _ => rfl, Out.of_isUb (by decide +kernel)⟩

end Verif.Props.Sort
