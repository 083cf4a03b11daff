import Verif.Lemmas.JsonDump

/-!
# Making values of tokens ends: lemmas
-/

namespace Verif.Lemmas.Json
open Verif Verif.Spec.Json Verif.Model.Json
open Verif.Model (Text)
open Verif.Model.Num (Seps)

variable {D : Type}

/-- The index never goes back. -/
def Forward (f : Nat → Bool → Out (V D × Nat × Bool)) : Prop := ∀ i e v j e', f i e = .ok (v, j, e') → i ≤ j

theorem items_forward {f : Nat → Bool → Out (V D × Nat × Bool)} (hf : Forward f) : ∀ n i e acc l j e',
    dumpItems f n i e acc = .ok (l, j, e') → i ≤ j := by
  intro n
  induction n with
  | zero => intro i e acc l j e' h; injection h with h; injection h with _ h; injection h with h; omega
  | succ n ih =>
    intro i e acc l j e' h
    unfold dumpItems at h
    obtain ⟨⟨v, i1, e1⟩, h1, h2⟩ := Out.bind_eq_ok.1 h
    have := hf _ _ _ _ _ h1
    have := ih _ _ _ _ _ _ h2
    omega

theorem entries_forward {key : V D → Out Text} {f : Nat → Bool → Out (V D × Nat × Bool)} (hf : Forward f) : ∀ n i e acc l j e',
    dumpEntries key f n i e acc = .ok (l, j, e') → i ≤ j := by
  intro n
  induction n with
  | zero => intro i e acc l j e' h; injection h with h; injection h with _ h; injection h with h; omega
  | succ n ih =>
    intro i e acc l j e' h
    unfold dumpEntries at h
    obtain ⟨⟨p, i1, e1⟩, h1, h2⟩ := Out.bind_eq_ok.1 h
    obtain ⟨⟨v, i2, e2⟩, h3, h4⟩ := Out.bind_eq_ok.1 h2
    have := hf _ _ _ _ _ h1
    have := hf _ _ _ _ _ h3
    dsimp only at h4
    split at h4
    · injection h4 with h; injection h with _ h; injection h with h; omega
    · obtain ⟨k, h5, h6⟩ := Out.bind_eq_ok.1 h4
      have := ih _ _ _ _ _ _ h6
      omega

theorem dump_forward (fl : Floats D) (sp : Seps) (other : V D → Out Text) (data : Text) (cap : Nat) (T : List Tok) (fuel : Nat) :
    Forward (dump fl sp other data cap T fuel) := by
  induction fuel with
  | zero => intro i e v j e' h; cases h
  | succ fuel ih =>
    intro i e v j e' h
    unfold dump at h
    have fin : ∀ {x : V D × Nat × Bool}, Out.ok x = Out.ok (v, j, e') → i ≤ x.2.1 → i ≤ j := by
      intro x hx h1; injection hx with hx; subst hx; exact h1
    split at h
    · exact fin h (Nat.le_refl _)
    · obtain ⟨t, h1, h2⟩ := Out.bind_eq_ok.1 h
      cases hf : t.fin with
      | none => rw [hf] at h2; exact fin h2 (Nat.le_refl _)
      | some e0 =>
        rw [hf] at h2
        dsimp only at h2
        split at h2
        · exact fin h2 (Nat.le_refl _)
        · cases hk : t.kind with
          | undef => rw [hk] at h2; exact fin h2 (Nat.le_refl _)
          | str =>
            rw [hk] at h2
            obtain ⟨u, h3, h4⟩ := Out.bind_eq_ok.1 h2
            exact fin h4 (Nat.le_succ _)
          | prim =>
            rw [hk] at h2
            dsimp only at h2
            split at h2
            · exact fin h2 (Nat.le_succ _)
            · split at h2
              · exact fin h2 (Nat.le_succ _)
              · split at h2
                · exact fin h2 (Nat.le_succ _)
                · split at h2
                  · exact fin h2 (Nat.le_succ _)
                  · exact fin h2 (Nat.le_succ _)
          | arr =>
            rw [hk] at h2
            obtain ⟨⟨l, j', e2⟩, h3, h4⟩ := Out.bind_eq_ok.1 h2
            have := items_forward ih _ _ _ _ _ _ _ h3
            exact fin h4 (by dsimp only; omega)
          | obj =>
            rw [hk] at h2
            obtain ⟨⟨l, j', e2⟩, h3, h4⟩ := Out.bind_eq_ok.1 h2
            have := entries_forward ih _ _ _ _ _ _ _ h3
            exact fin h4 (by dsimp only; omega)

/-- The same from an index on. -/
def Alike (i0 : Nat) (f g : Nat → Bool → Out (V D × Nat × Bool)) : Prop := ∀ i e, i0 ≤ i → f i e = g i e

theorem items_alike {i0 : Nat} {f g : Nat → Bool → Out (V D × Nat × Bool)} (hf : Forward f) (h : Alike i0 f g) : ∀ n i e acc,
    i0 ≤ i → dumpItems f n i e acc = dumpItems g n i e acc := by
  intro n
  induction n with
  | zero => intro i e acc _; rfl
  | succ n ih =>
    intro i e acc hi
    unfold dumpItems
    rw [← h i e hi]
    cases hd : f i e with
    | ok x =>
      obtain ⟨v, i1, e1⟩ := x
      have := hf _ _ _ _ _ hd
      exact ih _ _ _ (by omega)
    | ub => rfl
    | exit => rfl

theorem entries_alike {key : V D → Out Text} {i0 : Nat} {f g : Nat → Bool → Out (V D × Nat × Bool)} (hf : Forward f)
    (h : Alike i0 f g) : ∀ n i e acc, i0 ≤ i → dumpEntries key f n i e acc = dumpEntries key g n i e acc := by
  intro n
  induction n with
  | zero => intro i e acc _; rfl
  | succ n ih =>
    intro i e acc hi
    unfold dumpEntries
    rw [← h i e hi]
    cases hd : f i e with
    | ok x =>
      obtain ⟨v, i1, e1⟩ := x
      have h1 := hf _ _ _ _ _ hd
      rw [Out.ok_bind, Out.ok_bind]
      dsimp only
      rw [← h i1 e1 (by omega)]
      cases hd' : f i1 e1 with
      | ok x =>
        obtain ⟨v', i2, e2⟩ := x
        have h2 := hf _ _ _ _ _ hd'
        rw [Out.ok_bind, Out.ok_bind]
        dsimp only
        split
        · rfl
        · cases key v with
          | ok k => rw [Out.ok_bind, Out.ok_bind]; exact ih _ _ _ (by omega)
          | ub => rfl
          | exit => rfl
      | ub => rfl
      | exit => rfl
    | ub => rfl
    | exit => rfl

/-- More fuel than tokens changes nothing. -/
theorem dump_fuel (fl : Floats D) (sp : Seps) (other : V D → Out Text) (data : Text) (cap : Nat) (T : List Tok) (f : Nat) :
    ∀ f' i e, f ≤ f' → cap ≤ f + i → dump fl sp other data cap T (f + 1) i e = dump fl sp other data cap T (f' + 1) i e := by
  induction f with
  | zero =>
    intro f' i e _ hc
    unfold dump
    split
    · rfl
    · have : tokAt cap T i = .ub := by unfold tokAt; rw [if_neg (by omega)]
      rw [this]
      rfl
  | succ f ih =>
    intro f' i e hf hc
    obtain ⟨f'', rfl⟩ : ∃ k, f' = k + 1 := ⟨f' - 1, by omega⟩
    have ha : Alike (i + 1) (dump fl sp other data cap T (f + 1)) (dump fl sp other data cap T (f'' + 1)) := by
      intro j e hj
      exact ih f'' j e (by omega) (by omega)
    conv => lhs; unfold dump
    conv => rhs; unfold dump
    split
    · rfl
    · cases tokAt cap T i with
      | ub => rfl
      | exit => rfl
      | ok t =>
        rw [Out.ok_bind, Out.ok_bind]
        cases t.fin with
        | none => rfl
        | some e0 =>
          dsimp only
          split
          · rfl
          · cases t.kind with
            | undef => rfl
            | str => rfl
            | prim => rfl
            | arr =>
              dsimp only
              rw [items_alike (dump_forward fl sp other data cap T (f + 1)) ha _ _ _ _ (Nat.le_refl _)]
            | obj =>
              dsimp only
              rw [entries_alike (dump_forward fl sp other data cap T (f + 1)) ha _ _ _ _ (Nat.le_refl _)]

end Verif.Lemmas.Json
