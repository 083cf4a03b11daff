import Verif.Model.Timer

/-!
# Lemmas: timers
-/

namespace Verif.Model.Timer
open Verif.Spec.Timer

theorem bind_ok {α β : Type} (a : α) (f : α → Out β) : (Out.ok a).bind f = f a := rfl

theorem store_ok {t : List Int} {i : Nat} (v : Int) (h : i < t.length) : store t i v = .ok (t.set i v) := by
  rw [store, if_pos h]

/-- An element of the array and when the timer is due. -/
def Same (v : Int) (d : Option Nat) : Prop :=
  match d with
  | none => v < 0
  | some t => v = t

/-- The array has room for all timers and timer `n` is due then. -/
structure Rel (n : Nat) (s : St) (d : Option Nat) : Prop where
  len : 101 ≤ s.timers.length
  same : ∃ v, s.timers[n]? = some v ∧ Same v d

theorem toInt_small {k : Nat} (h : k < 2147483648) : toInt k = k := by
  unfold toInt
  simp only
  rw [Nat.mod_eq_of_lt (by omega), if_pos h]

theorem Rel.put {n : Nat} {s : St} {d d' : Option Nat} (h : Rel n s d) (i : Nat) (v : Int) (hi : i ≤ 100)
    (hd : if i = n then Same v d' else d' = d) :
    ∃ t, store s.timers i v = .ok t ∧ Rel n { s with timers := t } d' := by
  have hl : i < s.timers.length := by have := h.len; omega
  refine ⟨_, store_ok v hl, by simpa using h.len, ?_⟩
  by_cases e : i = n
  · subst e
    rw [if_pos rfl] at hd
    exact ⟨v, by simp [hl], hd⟩
  · rw [if_neg e] at hd
    subst hd
    obtain ⟨w, hw, hs⟩ := h.same
    refine ⟨w, ?_, hs⟩
    simp only
    rw [List.getElem?_set_ne e]
    exact hw

theorem setTimer_rel {n bound : Nat} {s : St} {d : Option Nat} (hn : 1 ≤ n) (hn2 : n ≤ 100) (h : Rel n s d) (c : Set)
    (hb : c.ms ≤ bound) (ht : s.ticks ≤ bound) (h31 : bound + bound < 2147483648) :
    ∃ s', setTimer s c = .ok s' ∧ Rel n s' (settle n s.ticks d [c]) ∧ s'.ticks = s.ticks := by
  rw [setTimer]
  by_cases hc : c.n < 1 ∨ c.n > 100
  · rw [if_pos hc]
    refine ⟨s, rfl, ?_, rfl⟩
    have : ¬ c.n = (n : Int) := by omega
    simpa [settle, this] using h
  · rw [if_neg hc]
    have hd : ∀ v, (c.n.toNat = n → Same v (due s.ticks c.ms)) →
        (if c.n.toNat = n then Same v (settle n s.ticks d [c]) else settle n s.ticks d [c] = d) := by
      intro v hv
      by_cases e : c.n.toNat = n
      · have e' : c.n = (n : Int) := by omega
        rw [if_pos e]
        simp only [settle, List.foldl_cons, List.foldl_nil, if_pos e']
        exact hv e
      · have e' : ¬ c.n = (n : Int) := by omega
        rw [if_neg e]
        simp only [settle, List.foldl_cons, List.foldl_nil, if_neg e']
    by_cases hm : c.ms > -1
    · rw [if_pos hm]
      obtain ⟨t, h1, h2⟩ := h.put c.n.toNat (toInt (s.ticks + c.ms.toNat)) (by omega) (hd _ (by
        intro _
        rw [toInt_small (by omega), due, if_pos (by omega)]
        exact rfl))
      exact ⟨_, by rw [h1, bind_ok], h2, rfl⟩
    · rw [if_neg hm]
      obtain ⟨t, h1, h2⟩ := h.put c.n.toNat (-1) (by omega) (hd _ (by
        intro _
        rw [due, if_neg (by omega)]
        show (-1 : Int) < 0
        decide))
      exact ⟨_, by rw [h1, bind_ok], h2, rfl⟩

theorem settle_cons (n now : Nat) (d : Option Nat) (c : Set) (l : List Set) :
    settle n now d (c :: l) = settle n now (settle n now d [c]) l := rfl

theorem settle_none {n now : Nat} {d : Option Nat} {l : List Set} (h : ∀ c ∈ l, c.n ≠ (n : Int)) : settle n now d l = d := by
  induction l generalizing d with
  | nil => rfl
  | cons c l ih =>
    rw [settle_cons, ih (fun c hc => h c (List.mem_cons_of_mem _ hc))]
    simp only [settle, List.foldl_cons, List.foldl_nil, if_neg (h c (List.mem_cons_self ..))]

theorem setAll_rel {n bound : Nat} (hn : 1 ≤ n) (hn2 : n ≤ 100) (h31 : bound + bound < 2147483648) (l : List Set) :
    ∀ {s : St} {d : Option Nat}, Rel n s d → (∀ c ∈ l, c.ms ≤ bound) → s.ticks ≤ bound →
    ∃ s', setAll s l = .ok s' ∧ Rel n s' (settle n s.ticks d l) ∧ s'.ticks = s.ticks := by
  induction l with
  | nil => intro s d h _ _; exact ⟨s, rfl, h, rfl⟩
  | cons c l ih =>
    intro s d h hb ht
    obtain ⟨s1, g1, g2, g3⟩ := setTimer_rel hn hn2 h c (hb c (List.mem_cons_self ..)) ht h31
    obtain ⟨s2, k1, k2, k3⟩ := ih g2 (fun c hc => hb c (List.mem_cons_of_mem _ hc)) (by omega)
    refine ⟨s2, by rw [setAll, g1, bind_ok, k1], ?_, by omega⟩
    rw [settle_cons, ← g3]
    exact g3 ▸ k2

/-- What a look at the timers does to timer `n`. -/
def looked (n now : Nat) (d : Option Nat) (h : Nat → List Set) : Bool × Option Nat :=
  match d with
  | some t => if t < now then (true, settle n now none (h n)) else (false, d)
  | none => (false, d)

/-- The loop behind and before timer `n`: it stays as it is. -/
theorem update_other {n bound : Nat} (hn : 1 ≤ n) (hn2 : n ≤ 100) (h31 : bound + bound < 2147483648) (h : Nat → List Set)
    (hal : ∀ i, i ≠ n → ∀ c ∈ h i, c.n ≠ (n : Int)) (hb : ∀ i, ∀ c ∈ h i, c.ms ≤ bound) (k : Nat) :
    ∀ (i : Nat) {s : St} {d : Option Nat}, Rel n s d → s.ticks ≤ bound → i + k ≤ 101 → (n < i ∨ i + k ≤ n) →
    ∃ f s', update h s k i = .ok (f, s') ∧ Rel n s' d ∧ s'.ticks = s.ticks ∧ n ∉ f := by
  induction k with
  | zero => intro i s d hr _ _ _; exact ⟨[], s, rfl, hr, rfl, by simp⟩
  | succ k ih =>
    intro i s d hr ht hi hlt
    have hne : i ≠ n := by omega
    have hil : i < s.timers.length := by have := hr.len; omega
    rw [update]
    have he : s.timers[i]? = some s.timers[i] := by simp [hil]
    rw [he]
    simp only
    split
    · exact ih (i + 1) hr ht (by omega) (by omega)
    · split
      · obtain ⟨t, p1, p2⟩ := hr.put i (-1) (by omega) (d' := d) (by rw [if_neg hne])
        obtain ⟨s2, q1, q2, q3⟩ := setAll_rel hn hn2 h31 (h i) p2 (hb i) ht
        rw [settle_none (hal i hne)] at q2
        obtain ⟨f, s3, r1, r2, r3, r4⟩ := ih (i + 1) q2 (by rw [q3]; exact ht) (by omega) (by omega)
        refine ⟨i :: f, s3, ?_, r2, by rw [r3, q3], ?_⟩
        · rw [p1, bind_ok, q1, bind_ok, r1, bind_ok]
        · simp only [List.mem_cons, not_or]
          exact ⟨Ne.symm hne, r4⟩
      · exact ih (i + 1) hr ht (by omega) (by omega)

theorem update_append (h : Nat → List Set) (a b : Nat) : ∀ (s : St) (i : Nat), update h s (a + b) i =
    (update h s a i).bind fun r => (update h r.2 b (i + a)).bind fun q => .ok (r.1 ++ q.1, q.2) := by
  induction a with
  | zero =>
    intro s i
    rw [Nat.zero_add, Nat.add_zero, update, bind_ok]
    cases update h s b i <;> rfl
  | succ a ih =>
    intro s i
    rw [show a + 1 + b = (a + b) + 1 by omega, update, update]
    cases he : s.timers[i]? with
    | none => rfl
    | some v =>
      simp only
      rw [show i + (a + 1) = i + 1 + a by omega]
      split
      · exact ih s (i + 1)
      · split
        · cases store s.timers i (-1) with
          | ok t =>
            simp only [bind_ok]
            cases setAll { s with timers := t } (h i) with
            | ok s2 =>
              simp only [bind_ok]
              rw [ih s2 (i + 1)]
              cases update h s2 a (i + 1) with
              | ok r =>
                simp only [bind_ok]
                cases update h r.2 b (i + 1 + a) <;> rfl
              | ub => rfl
              | exit => rfl
            | ub => rfl
            | exit => rfl
          | ub => rfl
          | exit => rfl
        · exact ih s (i + 1)

theorem update_rel {n bound : Nat} {s : St} {d : Option Nat} (hn : 1 ≤ n) (hn2 : n ≤ 99) (h31 : bound + bound < 2147483648)
    (h : Nat → List Set) (hal : ∀ i, i ≠ n → ∀ c ∈ h i, c.n ≠ (n : Int)) (hb : ∀ i, ∀ c ∈ h i, c.ms ≤ bound) (hr : Rel n s d)
    (ht : s.ticks ≤ bound) :
    ∃ f s', update h s 99 1 = .ok (f, s') ∧ Rel n s' (looked n s.ticks d h).2 ∧ s'.ticks = s.ticks ∧
      f.filter (· == n) = if (looked n s.ticks d h).1 then [n] else [] := by
  obtain ⟨f1, s1, a1, a2, a3, a4⟩ := update_other hn (by omega) h31 h hal hb (n - 1) 1 hr ht (by omega) (by omega)
  have hmid : ∃ f s', update h s1 1 n = .ok (f, s') ∧ Rel n s' (looked n s.ticks d h).2 ∧ s'.ticks = s.ticks ∧
      f = if (looked n s.ticks d h).1 then [n] else [] := by
    obtain ⟨v, hv, hs⟩ := a2.same
    rw [update, hv]
    simp only
    cases d with
    | none =>
      rw [if_pos (show v < 0 from hs), update]
      exact ⟨[], s1, rfl, a2, a3, rfl⟩
    | some t =>
      have hv' : v = t := hs
      rw [if_neg (by omega)]
      have hvt : v.toNat = t := by omega
      rw [hvt, a3]
      by_cases hlt : t < s.ticks
      · rw [if_pos hlt]
        have hlk : looked n s.ticks (some t) h = (true, settle n s.ticks none (h n)) := by simp [looked, hlt]
        rw [hlk]
        obtain ⟨t', p1, p2⟩ := a2.put n (-1) (by omega) (d' := none) (by
          rw [if_pos rfl]
          show (-1 : Int) < 0
          decide)
        obtain ⟨s2, q1, q2, q3⟩ := setAll_rel hn (by omega) h31 (h n) p2 (hb n) (by show s1.ticks ≤ bound; omega)
        refine ⟨[n], s2, ?_, ?_, by rw [q3]; exact a3, rfl⟩
        · rw [a3] at q1
          rw [p1, bind_ok, q1, bind_ok, update, bind_ok]
        · have : ({ s1 with timers := t' } : St).ticks = s.ticks := a3
          rw [this] at q2
          exact q2
      · rw [if_neg hlt, update]
        have hlk : looked n s.ticks (some t) h = (false, some t) := by simp [looked, hlt]
        rw [hlk]
        exact ⟨[], s1, rfl, a2, a3, rfl⟩
  obtain ⟨f2, s2, b1, b2, b3, b4⟩ := hmid
  obtain ⟨f3, s3, c1, c2, c3, c4⟩ := update_other hn (by omega) h31 h hal hb (99 - n) (n + 1) b2 (by omega) (by omega) (by omega)
  refine ⟨f1 ++ (f2 ++ f3), s3, ?_, c2, by omega, ?_⟩
  · have e1 := update_append h (n - 1) (1 + (99 - n)) s 1
    have e2 := update_append h 1 (99 - n) s1 n
    rw [show n - 1 + (1 + (99 - n)) = 99 by omega, a1, bind_ok, show 1 + (n - 1) = n by omega] at e1
    simp only at e1
    rw [b1, bind_ok] at e2
    simp only at e2
    rw [c1, bind_ok] at e2
    rw [e1, e2, bind_ok]
  · have hf : ∀ l : List Nat, n ∉ l → l.filter (· == n) = [] := by
      intro l hl
      rw [List.filter_eq_nil_iff]
      intro a ha e
      have : a = n := by simpa using e
      exact hl (this ▸ ha)
    rw [List.filter_append, List.filter_append, hf f1 a4, hf f3 c4, b4]
    split <;> simp

theorem timesOf_append (n : Nat) (a b : List (Nat × Nat)) : timesOf n (a ++ b) = timesOf n a ++ timesOf n b := by
  simp [timesOf]

theorem timesOf_map (n now : Nat) (f : List Nat) : timesOf n (f.map fun i => (now, i)) = (f.filter (· == n)).map fun _ => now := by
  induction f with
  | nil => rfl
  | cons a f ih =>
    simp only [timesOf, List.map_cons, List.filter_cons] at ih ⊢
    split <;> simp_all

theorem run_rel {n bound : Nat} (hn : 1 ≤ n) (hn2 : n ≤ 99) (h31 : bound + bound < 2147483648) (l : List Op) :
    ∀ {s : St} {d : Option Nat}, Rel n s d → s.ticks ≤ bound → Alone n l → Small bound l →
    ∃ f, run s l = .ok f ∧ timesOf n f = firings n d s.ticks l := by
  induction l with
  | nil => intro s d _ _ _ _; exact ⟨[], rfl, rfl⟩
  | cons o l ih =>
    intro s d hr ht ha hs
    cases o with
    | set c =>
      obtain ⟨s1, g1, g2, g3⟩ := setTimer_rel hn (by omega) hr c hs.1 ht h31
      obtain ⟨f, k1, k2⟩ := ih g2 (by omega) ha hs.2
      exact ⟨f, by rw [run, g1, bind_ok, k1], by rw [k2, g3]; rfl⟩
    | time t =>
      obtain ⟨f, k1, k2⟩ := ih (s := { s with ticks := t }) ⟨hr.len, hr.same⟩ hs.1 ha hs.2
      exact ⟨f, by rw [run, k1], by rw [k2, firings]⟩
    | look h =>
      obtain ⟨f1, s1, g1, g2, g3, g4⟩ := update_rel hn hn2 h31 h ha.1 hs.1 hr ht
      obtain ⟨f2, k1, k2⟩ := ih g2 (by omega) ha.2 hs.2
      refine ⟨_, by rw [run, g1, bind_ok, k1, bind_ok], ?_⟩
      rw [timesOf_append, timesOf_map, g4, k2, g3]
      cases d with
      | none => simp [looked, firings]
      | some t =>
        simp only [looked, firings]
        split <;> simp

theorem resetLoop_eq (k : Nat) : ∀ (t : List Int) (i : Nat), i + k ≤ t.length →
    ∃ t', resetLoop t k i = .ok t' ∧ t'.length = t.length ∧ (∀ j, i ≤ j → j < i + k → t'[j]? = some (-1)) ∧
      ∀ j, j < i → t'[j]? = t[j]? := by
  induction k with
  | zero => intro t i _; exact ⟨t, rfl, rfl, by omega, fun _ _ => rfl⟩
  | succ k ih =>
    intro t i h
    obtain ⟨t', h1, h2, h3, h4⟩ := ih (t.set i (-1)) (i + 1) (by simp; omega)
    refine ⟨t', by rw [resetLoop, store_ok _ (by omega), bind_ok, h1], by simpa using h2, ?_, ?_⟩
    · intro j hj hj2
      by_cases e : j = i
      · subst e
        rw [h4 j (by omega), List.getElem?_set_self (by omega)]
      · exact h3 j (by omega) (by omega)
    · intro j hj
      rw [h4 j (by omega), List.getElem?_set_ne (by omega)]

theorem begin_rel {slots n : Nat} (h : 101 ≤ slots) (hn : 1 ≤ n) (hn2 : n ≤ 100) :
    ∃ s, begin_ slots = .ok s ∧ Rel n s none ∧ s.ticks = 0 := by
  obtain ⟨t, h1, h2, h3, _⟩ := resetLoop_eq 100 (List.replicate slots 0) 1 (by rw [List.length_replicate]; omega)
  rw [List.length_replicate] at h2
  refine ⟨⟨t, 0⟩, by rw [begin_, h1, bind_ok], ⟨by show 101 ≤ t.length; omega, -1, h3 n hn (by omega), ?_⟩, rfl⟩
  show (-1 : Int) < 0
  decide

/-! ### All timers together -/

/-- The timers 1 to 99 are due as planned. -/
def RelAll (s : St) (p : Plan) : Prop := ∀ n, 1 ≤ n → n ≤ 99 → Rel n s (p n)

theorem setAll_all {bound : Nat} (h31 : bound + bound < 2147483648) {s : St} {p : Plan} (h : RelAll s p) (l : List Set)
    (hb : ∀ c ∈ l, c.ms ≤ bound) (ht : s.ticks ≤ bound) :
    ∃ s', setAll s l = .ok s' ∧ RelAll s' (fun n => settle n s.ticks (p n) l) ∧ s'.ticks = s.ticks := by
  obtain ⟨s', h1, _, h3⟩ := setAll_rel (n := 1) (by omega) (by omega) h31 l (h 1 (by omega) (by omega)) hb ht
  refine ⟨s', h1, fun n hn hn2 => ?_, h3⟩
  obtain ⟨s2, k1, k2, _⟩ := setAll_rel hn (by omega) h31 l (h n hn hn2) hb ht
  rw [h1] at k1
  rw [Out.ok.inj k1]
  exact k2

theorem update_all {bound : Nat} (h31 : bound + bound < 2147483648) (h : Nat → List Set) (hb : ∀ i, ∀ c ∈ h i, c.ms ≤ bound) (k : Nat) :
    ∀ (i : Nat) {s : St} {p : Plan}, RelAll s p → s.ticks ≤ bound → 1 ≤ i → i + k ≤ 100 →
    ∃ s', update h s k i = .ok ((sweep s.ticks h (List.range' i k) p).1, s') ∧ RelAll s' (sweep s.ticks h (List.range' i k) p).2 ∧
      s'.ticks = s.ticks := by
  induction k with
  | zero => intro i s p hr _ _ _; exact ⟨s, rfl, hr, rfl⟩
  | succ k ih =>
    intro i s p hr ht hi hk
    have hri := hr i hi (by omega)
    obtain ⟨v, hv, hs⟩ := hri.same
    rw [update, hv, List.range'_succ]
    simp only
    cases hp : p i with
    | none =>
      rw [hp] at hs
      have e : sweep s.ticks h (i :: List.range' (i + 1) k) p = sweep s.ticks h (List.range' (i + 1) k) p := by rw [sweep, hp]
      rw [if_pos (show v < 0 from hs), e]
      exact ih (i + 1) hr ht (by omega) (by omega)
    | some t =>
      rw [hp] at hs
      have hv' : v = t := hs
      have hvt : v.toNat = t := by omega
      rw [if_neg (by omega), hvt]
      by_cases hlt : t < s.ticks
      · have e : sweep s.ticks h (i :: List.range' (i + 1) k) p =
            (i :: (sweep s.ticks h (List.range' (i + 1) k) fun n => settle n s.ticks (if n = i then none else p n) (h i)).1,
              (sweep s.ticks h (List.range' (i + 1) k) fun n => settle n s.ticks (if n = i then none else p n) (h i)).2) := by
          rw [sweep, hp]; simp only; rw [if_pos hlt]
        rw [if_pos hlt, e]
        have hst := store_ok (t := s.timers) (i := i) (-1) (by have := hri.len; omega)
        rw [hst, bind_ok]
        have hra : RelAll { s with timers := s.timers.set i (-1) } (fun n => if n = i then none else p n) := by
          intro n hn hn2
          obtain ⟨t2, a1, a2⟩ := (hr n hn hn2).put i (-1) (by omega) (d' := if n = i then none else p n) (by
            by_cases e : i = n
            · rw [if_pos e, if_pos e.symm]; show (-1 : Int) < 0; decide
            · rw [if_neg e, if_neg (Ne.symm e)])
          rw [hst] at a1
          rw [Out.ok.inj a1]
          exact a2
        obtain ⟨s2, b1, b2, b3⟩ := setAll_all h31 hra (h i) (hb i) ht
        have b3' : s2.ticks = s.ticks := b3
        rw [b1, bind_ok]
        obtain ⟨s3, c1, c2, c3⟩ := ih (i + 1) b2 (by omega) (by omega) (by omega)
        rw [b3'] at c1 c2 c3
        exact ⟨s3, by rw [c1, bind_ok], c2, c3⟩
      · have e : sweep s.ticks h (i :: List.range' (i + 1) k) p = sweep s.ticks h (List.range' (i + 1) k) p := by
          rw [sweep, hp]; simp only; rw [if_neg hlt]
        rw [if_neg hlt, e]
        exact ih (i + 1) hr ht (by omega) (by omega)

theorem run_all {bound : Nat} (h31 : bound + bound < 2147483648) (l : List Op) :
    ∀ {s : St} {p : Plan}, RelAll s p → s.ticks ≤ bound → Small bound l → run s l = .ok (together p s.ticks l) := by
  induction l with
  | nil => intro s p _ _ _; rfl
  | cons o l ih =>
    intro s p hr ht hs
    cases o with
    | set c =>
      obtain ⟨s1, g1, g2, g3⟩ := setAll_all h31 hr [c] (by simpa using hs.1) ht
      have e : setAll s [c] = (setTimer s c).bind fun s => .ok s := rfl
      have e2 : setTimer s c = .ok s1 := by
        rw [e] at g1
        cases hc : setTimer s c <;> rw [hc] at g1 <;> first | exact g1 | cases g1
      rw [run, e2, bind_ok, ih g2 (by omega) hs.2, g3, together]
    | time t =>
      have := ih (s := { s with ticks := t }) (p := p) (fun n a b => ⟨(hr n a b).len, (hr n a b).same⟩) hs.1 hs.2
      rw [run, this, together]
    | look h =>
      obtain ⟨s1, g1, g2, g3⟩ := update_all h31 h hs.1 99 1 hr ht (by omega) (by omega)
      rw [run, g1, bind_ok, ih g2 (by omega) hs.2, bind_ok, g3, together]

/-- A look makes only those timers fire that were due before it, whatever the timers cause. -/
theorem sweep_due {now : Nat} {h : Nat → List Set} (is : List Nat) : ∀ {p : Plan}, ∀ i ∈ (sweep now h is p).1,
    i ∈ is ∧ ∃ t, p i = some t ∧ t < now := by
  have hs : ∀ (l : List Set) (n : Nat) (d : Option Nat) (t : Nat), settle n now d l = some t → t < now → d = some t := by
    intro l n
    induction l with
    | nil => intro d t h _; exact h
    | cons c l ih =>
      intro d t h ht
      rw [settle_cons] at h
      have := ih _ t h ht
      simp only [settle, List.foldl_cons, List.foldl_nil] at this
      split at this
      · unfold due at this
        split at this
        · have := Option.some.inj this; omega
        · cases this
      · exact this
  induction is with
  | nil => intro p i hi; cases hi
  | cons j is ih =>
    intro p i hi
    have ho : i ∈ (sweep now h is p).1 → i ∈ j :: is ∧ ∃ t, p i = some t ∧ t < now := fun hi => by
      obtain ⟨a, b⟩ := ih i hi
      exact ⟨List.mem_cons_of_mem _ a, b⟩
    rw [sweep] at hi
    split at hi
    · rename_i t ht
      split at hi
      · rename_i hlt
        rcases List.mem_cons.1 hi with rfl | hi
        · exact ⟨List.mem_cons_self .., t, ht, hlt⟩
        · obtain ⟨a, t2, b, c⟩ := ih i hi
          have := hs _ _ _ _ b c
          split at this
          · cases this
          · exact ⟨List.mem_cons_of_mem _ a, t2, this, c⟩
      · exact ho hi
    · exact ho hi

/-- They fire in the order in which they are looked at, each at most once. -/
theorem sweep_order {now : Nat} {h : Nat → List Set} (is : List Nat) : ∀ {p : Plan}, ((sweep now h is p).1).Sublist is := by
  induction is with
  | nil => intro p; exact List.Sublist.refl _
  | cons j is ih =>
    intro p
    rw [sweep]
    split
    · split
      · exact List.Sublist.cons_cons j ih
      · exact List.Sublist.cons j ih
    · exact List.Sublist.cons j ih

theorem sweep_calm {now : Nat} (is : List Nat) : ∀ {p : Plan}, is.Nodup →
    (sweep now (fun _ => []) is p).1 = is.filter fun i => match p i with | some t => decide (t < now) | none => false := by
  induction is with
  | nil => intro p _; rfl
  | cons j is ih =>
    intro p hn
    have hn2 := List.nodup_cons.1 hn
    rw [sweep, List.filter_cons]
    cases hp : p j with
    | none => simp only; exact ih hn2.2
    | some t =>
      simp only
      by_cases hlt : t < now
      · rw [if_pos hlt, if_pos (by simpa using hlt)]
        simp only [settle, List.foldl_nil]
        rw [ih hn2.2]
        congr 1
        apply List.filter_congr
        intro i hi
        rw [if_neg (show ¬ i = j from fun e => hn2.1 (e ▸ hi))]
      · rw [if_neg hlt, if_neg (by simpa using hlt)]
        exact ih hn2.2

theorem together_append (l : List Op) : ∀ (p : Plan) (now : Nat), ∃ p2 now2,
    ∀ l2, together p now (l ++ l2) = together p now l ++ together p2 now2 l2 := by
  induction l with
  | nil => intro p now; exact ⟨p, now, fun _ => rfl⟩
  | cons o l ih =>
    intro p now
    cases o with
    | set c => exact ih _ _
    | time t => exact ih _ _
    | look h =>
      obtain ⟨p2, n2, e⟩ := ih (sweep now h (List.range' 1 99) p).2 now
      exact ⟨p2, n2, fun l2 => by rw [List.cons_append, together, e l2, together, List.append_assoc]⟩

end Verif.Model.Timer
