import Verif.Props.Seq
import Verif.Props.Value

/-!
# Property C07: `minimum` and `maximum` of a sequence

`Seq.minimum` and `Seq.maximum` with the numbers and the comparison of the C code (`double` and `<`).
-/

namespace Verif.Props.Extreme

open Verif.Model Verif.Model.Num Verif.Model.Value Verif.Props.Seq Verif.Props.Value

variable {α : Type} [HasNil α]

/-- `x` is less than `y`: `m / 2^k` is less than `n / 2^l` iff `m 2^l` is less than `n 2^k`, and everything lies between the
infinities.  Nothing is less or greater than the result of an impossible calculation. -/
def Below : Dbl → Dbl → Prop
  | .fin m k, .fin n l => m * 2 ^ l < n * 2 ^ k
  | .inf true, .fin _ _ => True
  | .fin _ _, .inf false => True
  | .inf true, .inf false => True
  | _, _ => False

theorem below_iff (x y : Dbl) : dlt x y = true ↔ Below x y := by
  cases x with
  | nan => cases y <;> simp [dlt, Below]
  | inf a =>
    cases y with
    | inf b => cases a <;> cases b <;> simp [dlt, Below]
    | _ => cases a <;> simp [dlt, Below]
  | fin m k =>
    cases y with
    | inf b => cases b <;> simp [dlt, Below]
    | _ => simp [dlt, Below]

/-- `minimum` as the program sees it. -/
abbrev minimum (s : Seq α) (num : α → Dbl) : Out Dbl := s.minimum dlt (.ofInt 0) num

/-- `maximum` as the program sees it. -/
abbrev maximum (s : Seq α) (num : α → Dbl) : Out Dbl := s.maximum dlt (.ofInt 0) num

/-- `m` is the least of the numbers `l`. -/
def IsLeast (l : List Dbl) (m : Dbl) : Prop := Spec.IsFirst Below l m

/-- `m` is the greatest of the numbers `l`. -/
def IsGreatest (l : List Dbl) (m : Dbl) : Prop := Spec.IsFirst (fun x y => Below y x) l m

/-- Full statement of C07 (minimum). -/
def C07_full (α : Type) [HasNil α] : Prop :=
  ∀ (s : Seq α) (l : List α) (num : α → Dbl), Reachable s → Shows s l → l ≠ [] → (∀ a ∈ l, Proper (num a)) →
    ∃ m, minimum s num = .ok m ∧ IsLeast (l.map num) m

/-- C07 is violated by the code: `minimum` still sees an element that was shifted off. -/
theorem C07_violated : ¬ C07_full (Option Nat) := by
  intro hf
  obtain ⟨m, e, h⟩ := hf witness _ (fun x => .ofInt (x.getD 0 : Nat)) witness_reachable witness_shows (by simp)
    (fun a _ h => nomatch h)
  have e2 : minimum witness (fun x => .ofInt (x.getD 0 : Nat)) = .ok (.ofInt 1) := by decide
  rw [e2] at e
  cases e
  have := h.1
  simp [Dbl.ofInt] at this

theorem first_least {l : List Dbl} {m : Dbl} (h : Spec.IsFirst (fun x y => dlt x y = true) l m) : IsLeast l m :=
  ⟨h.1, fun x hx hb => h.2 x hx ((below_iff x m).2 hb)⟩

theorem first_greatest {l : List Dbl} {m : Dbl} (h : Spec.IsFirst (fun x y => dlt y x = true) l m) : IsGreatest l m :=
  ⟨h.1, fun x hx hb => h.2 x hx ((below_iff m x).2 hb)⟩

/-- What the code really computes: the extreme over the current elements *and* the elements that occupy the
shifted-off slots. -/
theorem C07_after_shift (s : Seq α) (l : List α) (num : α → Dbl) (hs : Reachable s) (hl : Shows s l)
    (hne : l ≠ []) (hp : ∀ a ∈ l, Proper (num a)) :
    ∃ stale : List α, stale.length = s.tail ∧ ((∀ a ∈ stale, Proper (num a)) →
    (∃ m, minimum s num = .ok m ∧ IsLeast ((stale ++ l).map num) m) ∧
    (∃ m, maximum s num = .ok m ∧ IsGreatest ((stale ++ l).map num) m)) := by
  obtain ⟨pre, r⟩ := rep_of_shows hs hl
  refine ⟨pre, r.tail_eq.symm, fun hq => ?_⟩
  have hg : ∀ a ∈ pre ++ l, Proper (num a) := fun a ha => (List.mem_append.1 ha).elim (hq a) (hp a)
  obtain ⟨m, e, h⟩ := Seq.min_rep r dlt Proper dlt_order.irrefl dlt_order.trans (.ofInt 0) num (by simp [hne]) hg
  obtain ⟨n, e', h'⟩ := Seq.max_rep r dlt Proper dlt_order.irrefl dlt_order.trans (.ofInt 0) num (by simp [hne]) hg
  exact ⟨⟨m, e, first_least h⟩, ⟨n, e', first_greatest h'⟩⟩

/-- C07, partial: when nothing is currently shifted off and no element is the result of an impossible calculation, `minimum`
and `maximum` are extremal elements. -/
theorem C07_min_max_partial (s : Seq α) (l : List α) (num : α → Dbl) (hs : Reachable s) (hl : Shows s l)
    (hne : l ≠ []) (hp : ∀ a ∈ l, Proper (num a)) (ht : s.tail = 0) :
    (∃ m, minimum s num = .ok m ∧ IsLeast (l.map num) m) ∧
    (∃ m, maximum s num = .ok m ∧ IsGreatest (l.map num) m) := by
  obtain ⟨stale, hlen, h⟩ := C07_after_shift s l num hs hl hne hp
  have h0 : stale = [] := List.length_eq_zero_iff.mp (by rw [hlen, ht])
  subst h0
  exact h (fun a ha => nomatch ha)

/-- The sequence of one half, minus infinity and three. -/
def three : Seq Dbl :=
  ⟨9, 3, 0, [some (.fin 1 1), some (.inf true), some (.ofInt 3), none, none, none, none, none, none]⟩

instance : HasNil Dbl := ⟨.ofInt 0⟩

theorem three_reachable : Reachable three :=
  ⟨[.append (.fin 1 1), .append (.inf true), .append (.ofInt 3)], [.self, .self, .self],
    by intro op h; simp at h; rcases h with rfl | rfl | rfl <;> trivial, by decide⟩

/-- The least of one half, minus infinity and three, and the greatest. -/
example : Reachable three ∧ minimum three id = .ok (.inf true) ∧ maximum three id = .ok (.ofInt 3) :=
  ⟨three_reachable, by decide, by decide⟩

/-- The empty, never shifted sequence answers 0. -/
theorem C07_empty (s : Seq α) (num : α → Dbl) (hs : Reachable s) (hl : Shows s []) (ht : s.tail = 0) :
    minimum s num = .ok (.ofInt 0) ∧ maximum s num = .ok (.ofInt 0) := by
  obtain ⟨pre, r⟩ := rep_of_shows hs hl
  have hh : s.head = 0 := by rw [r.head_eq, ← r.tail_eq, ht]; rfl
  simp [minimum, maximum, Seq.minimum, Seq.maximum, hh, Seq.minLoop, Seq.maxLoop]

/-- If the first element is the result of an impossible calculation, it is both the `minimum` and the `maximum`, whatever
follows it. -/
theorem C07_impossible_first (s : Seq α) (a : α) (l : List α) (num : α → Dbl) (hs : Reachable s) (hl : Shows s (a :: l))
    (ht : s.tail = 0) (ha : num a = .nan) : minimum s num = .ok .nan ∧ maximum s num = .ok .nan := by
  obtain ⟨pre, r⟩ := rep_of_shows hs hl
  have h0 : pre = [] := List.length_eq_zero_iff.mp (by rw [← r.tail_eq, ht])
  subst h0
  have hx : ∀ x : Dbl, dlt x .nan = false := fun x => by cases x <;> rfl
  have hfold : ∀ (lt : Dbl → Dbl → Bool), (∀ x, lt x .nan = false) → ∀ (L : List α) (i : Nat), 0 < i →
      (L.foldl (fun (p : Nat × Dbl) a => (p.1 + 1, if p.1 = 0 ∨ lt (num a) p.2 then num a else p.2)) (i, .nan)).2 = .nan := by
    intro lt hlt L
    induction L with
    | nil => intro i _; rfl
    | cons b L ih =>
      intro i hi
      have hi0 : i ≠ 0 := by omega
      simp only [List.foldl_cons, hi0, hlt, false_or, Bool.false_eq_true, if_false]
      exact ih (i + 1) (by omega)
  have htake : List.take s.head (List.drop 0 ([] ++ a :: l)) = a :: l := by
    simp [List.take_of_length_le, r.head_eq]
  constructor
  · show s.minLoop dlt num 0 (.ofInt 0) s.head = _
    rw [Seq.minLoop_all dlt num ([] ++ a :: l) 0 s.head _ (fun k hk => Seq.read_all r k hk), htake]
    simp only [List.foldl_cons, true_or, if_true, Nat.zero_add, ha]
    rw [hfold dlt hx l 1 (by omega)]
  · show s.maxLoop dlt num 0 (.ofInt 0) s.head = _
    rw [Seq.maxLoop_flip, Seq.minLoop_all _ num ([] ++ a :: l) 0 s.head _ (fun k hk => Seq.read_all r k hk), htake]
    simp only [List.foldl_cons, true_or, if_true, Nat.zero_add, ha]
    rw [hfold (fun x y => dlt y x) (fun x => rfl) l 1 (by omega)]

/-- A list of the result of an impossible calculation, 1 and 2. -/
example : minimum (⟨9, 3, 0, [some .nan, some (.ofInt 1), some (.ofInt 2), none, none, none, none, none, none]⟩ : Seq Dbl) id =
    .ok .nan := by decide

end Verif.Props.Extreme
