import Verif.Model.Regex
import Verif.Spec.Regex

/-!
# Searching and replacing with patterns: lemmas
-/

namespace Verif.Lemmas.Rx
open Verif Verif.Model Verif.Model.Rx Verif.Spec.Rx

/-- The library function for a pattern: it sees a text of its own, with nothing before it. -/
def searchOf (p : Pattern) : Search := fun t => (p [] t).map fun h => some (h.start, h.stop) :: h.groups

theorem bind_ok {α β : Type} (a : α) (f : α → Out β) : (Out.ok a).bind f = f a := rfl

theorem cstring_eq {t : Text} (h : (0 : UInt8) ∉ t) : cstring t = t := by
  unfold cstring
  rw [List.filter_eq_self]
  intro c hc
  have : c ≠ 0 := fun e => h (e ▸ hc)
  simpa using this

theorem option_short {o : Text} (h0 : (0 : UInt8) ∉ o) (hl : o.length < 256) (c : UInt8) : option c o = o.contains c := by
  unfold option
  rw [cstring_eq h0, Nat.mod_eq_of_lt hl, List.take_length]

theorem groups_eq {t : Text} : ∀ (gs : List Group) (n : Nat), none ∉ gs → gs.length ≤ n →
    (∀ a b, some (a, b) ∈ gs → a ≤ b ∧ b ≤ t.length) →
    groups t gs n = .ok (gs.map fun
      | some (a, b) => part t a b
      | none => [])
  | [], _, _, _, _ => by unfold groups; rfl
  | none :: _, _, h, _, _ => absurd List.mem_cons_self h
  | some (a, b) :: gs, n + 1, h, hl, hw => by
    have := hw a b List.mem_cons_self
    unfold groups
    rw [if_neg (by omega), groups_eq gs n (fun e => h (List.mem_cons_of_mem _ e)) (by simpa using hl)
      (fun x y e => hw x y (List.mem_cons_of_mem _ e))]
    rfl
  | some _ :: _, 0, _, hl, _ => absurd hl (by simp)

theorem handed_eq {t : Text} {h : Hit} (hw : h.Within t) (hf : none ∉ h.groups ∧ h.groups.length ≤ 254) :
    groups t (some (h.start, h.stop) :: h.groups) 255 = .ok (handed t h) := by
  rw [groups_eq]
  · rfl
  · intro e
    rcases List.mem_cons.1 e with e | e
    · cases e
    · exact hf.1 e
  · simp only [List.length_cons]; omega
  · intro a b e
    rcases List.mem_cons.1 e with e | e
    · injection e with e
      injection e with e1 e2
      subst e1 e2
      exact ⟨hw.1, hw.2.1⟩
    · exact hw.2.2 a b e

variable {σ : Type}

theorem loop_eq (p : Pattern) (hs : p.Sound) (hb : p.Blind) (hf : p.Filled) (hg : p.Full)
    (block : Block σ) (hok : ∀ st gs, (block st gs).2.1 = false) :
    ∀ (n : Nat) (before hay new : Text) (st : σ), hay.length < n →
      ∃ s' out, loop (searchOf p) block n ⟨hay, new, false, st⟩ = .ok (some s') ∧ s'.new ++ s'.hay = new ++ out ∧
        s'.err = false ∧ Replaced p block before hay st out false s'.st := by
  intro n
  induction n with
  | zero => intro _ _ _ _ h; omega
  | succ n ih =>
    intro before hay new st hl
    unfold loop round searchOf
    cases hp : p [] hay with
    | none =>
      exact ⟨_, hay, rfl, rfl, rfl, .done (by rw [hb]; exact hp)⟩
    | some h =>
      have hw := hs [] hay h hp
      have hlt := hf [] hay h hp
      have h1 := hw.2.1
      have hokk := hok st (handed hay h)
      dsimp only [Option.map_some, List.head?_cons]
      rw [handed_eq hw (hg [] hay h hp), bind_ok]
      generalize hbl : block st (handed hay h) = x at hokk
      obtain ⟨r, e, st'⟩ := x
      dsimp only at hokk
      subst hokk
      rw [bind_ok]
      obtain ⟨s', out, a1, a2, a3, a4⟩ := ih (before ++ hay.take h.stop) (hay.drop h.stop) (new ++ hay.take h.start ++ r) st'
        (by rw [List.length_drop]; omega)
      refine ⟨s', hay.take h.start ++ r ++ out, a1, ?_, a3, ?_⟩
      · rw [a2]; simp only [List.append_assoc]
      · exact .hit (by rw [hb]; exact hp) hlt hbl a4

/-- More rounds than needed change nothing. -/
theorem loop_more (search : Search) (block : Block σ) : ∀ (n m : Nat) (s s' : St σ), n ≤ m →
    loop search block n s = .ok (some s') → loop search block m s = .ok (some s')
  | 0, _, _, _, _, h => by cases h
  | n + 1, 0, _, _, hm, _ => by omega
  | n + 1, m + 1, s, s', hm, h => by
    unfold loop at h ⊢
    cases hr : round search block s with
    | ub => rw [hr] at h; cases h
    | exit => rw [hr] at h; cases h
    | ok x =>
      rw [hr] at h
      cases x with
      | none => exact h
      | some t => exact loop_more search block n m t s' (by omega) h

theorem groups_head {t : Text} {h : Hit} (hw : h.Within t) : ∃ gs,
    groups t (some (h.start, h.stop) :: h.groups) 255 = .ok (part t h.start h.stop :: gs) := by
  have main : ∀ (gs : List Group) (n : Nat), (∀ a b, some (a, b) ∈ gs → a ≤ b ∧ b ≤ t.length) →
      ∃ r, groups t gs n = .ok r := by
    intro gs
    induction gs with
    | nil => intro n _; exact ⟨[], by unfold groups; rfl⟩
    | cons g gs ih =>
      intro n hw
      cases n with
      | zero => exact ⟨[], by cases g <;> rfl⟩
      | succ n =>
        cases g with
        | none => exact ⟨[], rfl⟩
        | some q =>
          obtain ⟨a, b⟩ := q
          have := hw a b List.mem_cons_self
          obtain ⟨r, hr⟩ := ih n (fun x y e => hw x y (List.mem_cons_of_mem _ e))
          refine ⟨(t.take b).drop a :: r, ?_⟩
          unfold groups
          rw [if_neg (by omega), hr, bind_ok]
  obtain ⟨gs, hgs⟩ := main h.groups 254 hw.2.2
  refine ⟨gs, ?_⟩
  have h1 := hw.1
  have h2 := hw.2.1
  unfold groups
  rw [if_neg (by omega), hgs]
  rfl

theorem part_split {t : Text} {h : Hit} (hw : h.Within t) :
    t = t.take h.start ++ part t h.start h.stop ++ t.drop h.stop := by
  unfold part
  have h1 : t.take h.start = (t.take h.stop).take h.start := by
    rw [List.take_take, Nat.min_eq_left hw.1]
  rw [h1, List.take_append_drop, List.take_append_drop]

theorem part_ne {t : Text} {h : Hit} (hw : h.Within t) (hl : h.start < h.stop) : part t h.start h.stop ≠ [] := by
  unfold part
  intro e
  have := congrArg List.length e
  rw [List.length_drop, List.length_take, Nat.min_eq_left hw.2.1, List.length_nil] at this
  omega

theorem loop_pieces (p : Pattern) (hs : p.Sound) (hf : p.Filled) (block : Block σ) :
    ∀ (n : Nat) (hay new : Text) (e : Bool) (st : σ), hay.length < n →
      ∃ s' ps, loop (searchOf p) block n ⟨hay, new, e, st⟩ = .ok (some s') ∧
        hay = ps.flatMap (fun q : Piece => q.kept ++ q.found) ++ s'.hay ∧
        s'.new = new ++ ps.flatMap (fun q => q.kept ++ q.answer) ∧ p [] s'.hay = none ∧
        (p [] hay = none → s'.st = st ∧ ps = []) ∧ (p [] hay ≠ none → ps ≠ []) ∧
        ∀ q ∈ ps, q.found ≠ [] ∧ ∃ st gs, (block st (q.found :: gs)).1 = q.answer := by
  intro n
  induction n with
  | zero => intro _ _ _ _ h; omega
  | succ n ih =>
    intro hay new e st hl
    unfold loop round searchOf
    cases hp : p [] hay with
    | none =>
      exact ⟨_, [], rfl, rfl, (List.append_nil _).symm, hp, fun _ => ⟨rfl, rfl⟩, fun h => absurd rfl h,
        by intro q hq; cases hq⟩
    | some h =>
      have hw := hs [] hay h hp
      have hlt := hf [] hay h hp
      have h1 := hw.2.1
      obtain ⟨gs, hgs⟩ := groups_head hw
      dsimp only [Option.map_some, List.head?_cons]
      rw [hgs, bind_ok]
      generalize hbl : block st (part hay h.start h.stop :: gs) = x
      obtain ⟨r, e', st'⟩ := x
      dsimp only
      rw [bind_ok]
      obtain ⟨s', ps, a1, a2, a3, a4, _, _, a5⟩ := ih (hay.drop h.stop) (new ++ hay.take h.start ++ r) (e || e') st'
        (by rw [List.length_drop]; omega)
      refine ⟨s', ⟨hay.take h.start, part hay h.start h.stop, r⟩ :: ps, a1, ?_, ?_, a4, (by intro e; cases e),
        (by intro _ e; cases e), ?_⟩
      · rw [List.flatMap_cons, List.append_assoc, ← a2]
        exact part_split hw
      · rw [a3, List.flatMap_cons]
        simp only [List.append_assoc]
      · intro q hq
        rcases List.mem_cons.1 hq with rfl | hq
        · exact ⟨part_ne hw hlt, st, gs, by rw [hbl]⟩
        · exact a5 q hq

end Verif.Lemmas.Rx
