import Verif.Model.Nest

/-! # Sequences and lists as text: lemmas -/

namespace Verif.Lemmas.Nest

open Verif.Model.Nest Verif.Spec.Nest

/-- Levels that are left at a value of a counter. -/
def left (c : UInt8) : Nat := if c.toNat = 255 then 100 else 99 - c.toNat

theorem left_zero {c : UInt8} (h : c + 1 > 99) : left c = 0 := by
  have h : 99 < (c + 1).toNat := h
  rw [UInt8.toNat_add] at h
  have := c.toNat_lt
  have h1 : (1 : UInt8).toNat = 1 := rfl
  unfold left
  split <;> omega

theorem left_succ {c : UInt8} (h : ¬ c + 1 > 99) : left c = left (c + 1) + 1 := by
  have h : ¬ 99 < (c + 1).toNat := h
  rw [UInt8.toNat_add] at h
  have := c.toNat_lt
  have h1 : (1 : UInt8).toNat = 1 := rfl
  unfold left
  rw [UInt8.toNat_add]
  split <;> split <;> omega

/-- After a failure: an error is pending and one of the counters is one too high. -/
def Leaks (s s' : St) : Prop := s'.flow = true ∧
  ((s'.seqDepth = s.seqDepth + 1 ∧ s'.mapDepth = s.mapDepth) ∨ (s'.seqDepth = s.seqDepth ∧ s'.mapDepth = s.mapDepth + 1))

/-- What a conversion is to do. -/
def Does (w : Words) (σ : Store) (code : Nat → Conv) (s : St) (i : Nat) : Prop :=
  (Within σ (left s.seqDepth) (left s.mapDepth) i → ∃ t, code i s = some (t, s) ∧ Shows w σ i t) ∧
  (¬ Within σ (left s.seqDepth) (left s.mapDepth) i → ∃ t s', code i s = some (t, s') ∧ Leaks s s')

/-- While an error is pending nothing happens. -/
def Idle (code : Nat → Conv) : Prop := ∀ i s, s.flow = true → code i s = some ([63], s)

theorem seqItems_idle {code : Nat → Conv} (hi : Idle code) : ∀ (xs : List Nat) (acc : Text) (s : St), s.flow = true →
    ∃ t, seqItems code xs acc s = some (t, s)
  | [], acc, s, _ => ⟨acc, rfl⟩
  | x :: xs, acc, s, h => by
    unfold seqItems
    rw [hi x s h]
    exact seqItems_idle hi xs _ s h

theorem mapItems_idle {w : Words} {code : Nat → Conv} (hi : Idle code) : ∀ (xs : List (Nat × Text)) (acc : Text) (s : St), s.flow = true →
    ∃ t, mapItems w code xs acc s = some (t, s)
  | [], acc, s, _ => ⟨acc, rfl⟩
  | (x, k) :: xs, acc, s, h => by
    unfold mapItems
    rw [hi x s h]
    exact mapItems_idle hi xs _ s h

theorem joined_cons (sep t : Text) (ts : List Text) :
    joined sep (t :: ts) = t ++ (if ts = [] then [] else sep) ++ joined sep ts := by
  unfold joined
  cases ts with
  | nil => simp [List.intersperse]
  | cons u us => simp [List.intersperse]

theorem showsAll_nil {w : Words} {σ : Store} {xs ts} (h : ShowsAll w σ xs ts) : ts = [] ↔ xs = [] := by
  cases h <;> simp

theorem showsPairs_nil {w : Words} {σ : Store} {xs ts} (h : ShowsPairs w σ xs ts) : ts = [] ↔ xs = [] := by
  cases h <;> simp

theorem seqItems_ok {w : Words} {σ : Store} {code : Nat → Conv} {s : St} : ∀ (xs : List Nat) (acc : Text),
    (∀ x ∈ xs, ∃ t, code x s = some (t, s) ∧ Shows w σ x t) →
    ∃ ts, ShowsAll w σ xs ts ∧ seqItems code xs acc s = some (acc ++ joined [32, 59, 32] ts, s)
  | [], acc, _ => ⟨[], .nil, by simp [seqItems, joined]⟩
  | x :: xs, acc, h => by
    obtain ⟨t, h1, h2⟩ := h x List.mem_cons_self
    obtain ⟨ts, h3, h4⟩ := seqItems_ok (w := w) (σ := σ) xs (acc ++ t ++ (if xs = [] then [] else [32, 59, 32]))
      (fun y hy => h y (List.mem_cons_of_mem _ hy))
    refine ⟨t :: ts, .cons h2 h3, ?_⟩
    unfold seqItems
    rw [h1]
    dsimp only
    rw [h4, joined_cons]
    simp only [showsAll_nil h3, List.append_assoc]

theorem mapItems_ok {w : Words} {σ : Store} {code : Nat → Conv} {s : St} (hs : s.flow = false) : ∀ (xs : List (Nat × Text)) (acc : Text),
    (∀ x ∈ xs, ∃ t, code x.1 s = some (t, s) ∧ Shows w σ x.1 t) →
    ∃ ts, ShowsPairs w σ xs ts ∧ mapItems w code xs acc s = some (acc ++ joined [44, 32] ts, s)
  | [], acc, _ => ⟨[], .nil, by simp [mapItems, joined]⟩
  | (x, k) :: xs, acc, h => by
    obtain ⟨t, h1, h2⟩ := h (x, k) List.mem_cons_self
    have hk : keyCode k s = k := by unfold keyCode; rw [hs]; rfl
    obtain ⟨ts, h3, h4⟩ := mapItems_ok (w := w) (σ := σ) hs xs (acc ++ w.mapPut ++ t ++ w.mapAt ++ k ++ (if xs = [] then [] else [44, 32]))
      (fun y hy => h y (List.mem_cons_of_mem _ hy))
    refine ⟨_, .cons h2 h3, ?_⟩
    unfold mapItems
    dsimp only at h1
    rw [h1]
    dsimp only
    rw [hk, h4, joined_cons]
    simp only [showsPairs_nil h3, List.append_assoc]

theorem seqItems_fail {w : Words} {σ : Store} {code : Nat → Conv} (hi : Idle code) {s : St} : ∀ (xs : List Nat) (acc : Text),
    (∀ x ∈ xs, Does w σ code s x) → (¬ ∀ x ∈ xs, Within σ (left s.seqDepth) (left s.mapDepth) x) →
    ∃ t s', seqItems code xs acc s = some (t, s') ∧ Leaks s s'
  | [], acc, _, h => absurd (fun x hx => by cases hx) h
  | x :: xs, acc, hd, h => by
    unfold seqItems
    obtain ⟨h1, h2⟩ := hd x List.mem_cons_self
    by_cases hx : Within σ (left s.seqDepth) (left s.mapDepth) x
    · obtain ⟨t, h3, _⟩ := h1 hx
      rw [h3]
      refine seqItems_fail hi xs _ (fun y hy => hd y (List.mem_cons_of_mem _ hy)) (fun hh => h ?_)
      intro y hy
      cases hy with
      | head => exact hx
      | tail _ hy => exact hh y hy
    · obtain ⟨t, s', h3, h4⟩ := h2 hx
      rw [h3]
      dsimp only
      obtain ⟨t', h5⟩ := seqItems_idle hi xs (acc ++ t ++ (if xs = [] then [] else [32, 59, 32])) s' h4.1
      exact ⟨t', s', h5, h4⟩

theorem mapItems_fail {w : Words} {σ : Store} {code : Nat → Conv} (hi : Idle code) {s : St} : ∀ (xs : List (Nat × Text)) (acc : Text),
    (∀ x ∈ xs, Does w σ code s x.1) → (¬ ∀ x ∈ xs, Within σ (left s.seqDepth) (left s.mapDepth) x.1) →
    ∃ t s', mapItems w code xs acc s = some (t, s') ∧ Leaks s s'
  | [], acc, _, h => absurd (fun x hx => by cases hx) h
  | (x, k) :: xs, acc, hd, h => by
    unfold mapItems
    obtain ⟨h1, h2⟩ := hd (x, k) List.mem_cons_self
    dsimp only at h1 h2
    by_cases hx : Within σ (left s.seqDepth) (left s.mapDepth) x
    · obtain ⟨t, h3, _⟩ := h1 hx
      rw [h3]
      refine mapItems_fail hi xs _ (fun y hy => hd y (List.mem_cons_of_mem _ hy)) (fun hh => h ?_)
      intro y hy
      cases hy with
      | head => exact hx
      | tail _ hy => exact hh y hy
    · obtain ⟨t, s', h3, h4⟩ := h2 hx
      rw [h3]
      dsimp only
      obtain ⟨t', h5⟩ := mapItems_idle (w := w) hi xs (acc ++ w.mapPut ++ t ++ w.mapAt ++ keyCode k s' ++ (if xs = [] then [] else [44, 32])) s' h4.1
      exact ⟨t', s', h5, h4⟩

theorem codeOf_idle (w : Words) (σ : Store) (f : Nat) : Idle (codeOf w σ (f + 1)) := by
  intro i s h
  unfold codeOf
  rw [h]
  rfl

theorem within_seq {σ : Store} {a b i : Nat} {xs} (h : σ i = .seq xs) :
    Within σ a b i ↔ ∃ a', a = a' + 1 ∧ ∀ x ∈ xs, Within σ a' b x := by
  constructor
  · intro hw
    cases hw with
    | leaf e => rw [h] at e; cases e
    | seq e hh => rw [h] at e; injection e with e; subst e; exact ⟨_, rfl, hh⟩
    | map e hh => rw [h] at e; cases e
  · rintro ⟨a', rfl, hh⟩
    exact .seq h hh

theorem within_map {σ : Store} {a b i : Nat} {xs} (h : σ i = .map xs) :
    Within σ a b i ↔ ∃ b', b = b' + 1 ∧ ∀ x ∈ xs, Within σ a b' x.1 := by
  constructor
  · intro hw
    cases hw with
    | leaf e => rw [h] at e; cases e
    | map e hh => rw [h] at e; injection e with e; subst e; exact ⟨_, rfl, hh⟩
    | seq e hh => rw [h] at e; cases e
  · rintro ⟨a', rfl, hh⟩
    exact .map h hh

theorem codeOf_does (w : Words) (σ : Store) : ∀ (f i : Nat) (s : St), s.flow = false →
    left s.seqDepth + left s.mapDepth < f → Does w σ (codeOf w σ f) s i
  | 0, _, _, _, h => absurd h (Nat.not_lt_zero _)
  | f + 1, i, s, hs, hf => by
    have hc : codeOf w σ (f + 1) i s = (match σ i with
      | .leaf t => some (t, s)
      | .seq items => between w (seqText w (codeOf w σ f) items s)
      | .map items => between w (mapText w (codeOf w σ f) items s)) := by
      conv => lhs; unfold codeOf
      rw [hs]
      rfl
    unfold Does
    rw [hc]
    cases hn : σ i with
    | leaf t => exact ⟨fun _ => ⟨t, rfl, .leaf hn⟩, fun h => absurd (.leaf hn) h⟩
    | seq xs =>
      dsimp only
      unfold seqText
      dsimp only
      by_cases hd : s.seqDepth + 1 > 99
      · have h0 := left_zero hd
        rw [if_pos hd, h0, within_seq hn]
        refine ⟨fun ⟨a', h, _⟩ => (by omega), fun _ => ⟨_, _, rfl, rfl, Or.inl ⟨rfl, rfl⟩⟩⟩
      · have h1 := left_succ hd
        rw [if_neg hd, within_seq hn]
        have hin : ∀ x ∈ xs, Does w σ (codeOf w σ f) { s with seqDepth := s.seqDepth + 1 } x := fun x _ =>
          codeOf_does w σ f x _ hs (by show left (s.seqDepth + 1) + left s.mapDepth < f; omega)
        have hid : Idle (codeOf w σ f) := by
          obtain ⟨g, rfl⟩ : ∃ g, f = g + 1 := ⟨f - 1, by omega⟩
          exact codeOf_idle w σ g
        constructor
        · rintro ⟨a', e, hh⟩
          obtain rfl : a' = left (s.seqDepth + 1) := by omega
          obtain ⟨ts, h2, h3⟩ := seqItems_ok (w := w) (σ := σ) xs (if xs = [] then w.seqNew else w.seqPush)
            (fun x hx => (hin x hx).1 (hh x hx))
          rw [h3]
          refine ⟨w.opening ++ ((if xs = [] then w.seqNew else w.seqPush) ++ joined [32, 59, 32] ts) ++ w.closing, ?_, ?_⟩
          · show some (_, St.mk (s.seqDepth + 1 - 1) s.mapDepth s.flow) = _
            rw [UInt8.add_sub_cancel]
          · split
            · next e =>
              subst e
              cases h2
              show Shows w σ i (w.opening ++ (w.seqNew ++ []) ++ w.closing)
              rw [List.append_nil]
              exact .none hn
            · next e => exact .seq hn e h2
        · intro hno
          obtain ⟨t, s', h2, h3, h4⟩ := seqItems_fail hid xs (if xs = [] then w.seqNew else w.seqPush) hin
            (fun hh => hno ⟨_, h1, hh⟩)
          rw [h2]
          refine ⟨_, _, rfl, h3, ?_⟩
          dsimp only at h4 ⊢
          rcases h4 with ⟨e1, e2⟩ | ⟨e1, e2⟩ <;> rw [e1, e2, UInt8.add_sub_cancel]
          · exact Or.inl ⟨rfl, rfl⟩
          · exact Or.inr ⟨rfl, rfl⟩
    | map xs =>
      dsimp only
      unfold mapText
      dsimp only
      by_cases hd : s.mapDepth + 1 > 99
      · have h0 := left_zero hd
        rw [if_pos hd, h0, within_map hn]
        refine ⟨fun ⟨a', h, _⟩ => (by omega), fun _ => ⟨_, _, rfl, rfl, Or.inr ⟨rfl, rfl⟩⟩⟩
      · have h1 := left_succ hd
        rw [if_neg hd, within_map hn]
        have hin : ∀ x ∈ xs, Does w σ (codeOf w σ f) { s with mapDepth := s.mapDepth + 1 } x.1 := fun x _ =>
          codeOf_does w σ f x.1 _ hs (by show left s.seqDepth + left (s.mapDepth + 1) < f; omega)
        have hid : Idle (codeOf w σ f) := by
          obtain ⟨g, rfl⟩ : ∃ g, f = g + 1 := ⟨f - 1, by omega⟩
          exact codeOf_idle w σ g
        constructor
        · rintro ⟨a', e, hh⟩
          obtain rfl : a' = left (s.mapDepth + 1) := by omega
          obtain ⟨ts, h2, h3⟩ := mapItems_ok (w := w) (σ := σ) (s := { s with mapDepth := s.mapDepth + 1 }) hs xs w.mapNew
            (fun x hx => (hin x hx).1 (hh x hx))
          rw [h3]
          refine ⟨w.opening ++ (w.mapNew ++ joined [44, 32] ts) ++ w.closing, ?_, .map hn h2⟩
          show some (_, St.mk s.seqDepth (s.mapDepth + 1 - 1) s.flow) = _
          rw [UInt8.add_sub_cancel]
        · intro hno
          obtain ⟨t, s', h2, h3, h4⟩ := mapItems_fail hid xs w.mapNew hin (fun hh => hno ⟨_, h1, hh⟩)
          rw [h2]
          refine ⟨_, _, rfl, h3, ?_⟩
          dsimp only at h4 ⊢
          rcases h4 with ⟨e1, e2⟩ | ⟨e1, e2⟩ <;> rw [e1, e2, UInt8.add_sub_cancel]
          · exact Or.inl ⟨rfl, rfl⟩
          · exact Or.inr ⟨rfl, rfl⟩

theorem left_le (c : UInt8) : left c ≤ 100 := by
  unfold left
  split <;> omega

end Verif.Lemmas.Nest
