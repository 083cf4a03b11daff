import Verif.Model.Render
import Verif.Spec.Render

/-!
# Drawing the text of a text field (C114)
-/

namespace Verif.Props.Render
open Verif Verif.Model Verif.Model.Render Verif.Spec.Render

theorem bind_ok {α β : Type} (a : α) (f : α → Out β) : (Out.ok a).bind f = f a := rfl

theorem chars_cons (b e i line : Nat) {c : UInt8} (r : Text) (h : c ≠ 13) :
    chars b e i line (c :: r) = (line, c, decide (b ≤ i ∧ i < e)) :: chars b e (i + 1) line r := by
  rw [chars]
  intro r' h1
  exact absurd h1 h

theorem normal_drop {p r : Text} (h : Normal (p ++ r)) : Normal r := by
  intro pre r' e
  exact h (p ++ pre) r' (by rw [e, List.append_assoc])

/-- The stop conditions of the inner loop. -/
def Turn (on : Bool) (b e : Nat) (st : Bool) (i : Nat) : Prop :=
  on = true ∧ (st = false ∧ i = b ∨ st = true ∧ i = e)

theorem scan_spec (on : Bool) (b e : Nat) (st : Bool) (line : Nat) (hon : on = decide (b ≠ e)) (hbe : b ≤ e) :
    ∀ (rest : Text) (i : Nat), (st = decide (b ≤ i ∧ i < e) ∨ Turn on b e st i) →
      rest = (scan on b e st i rest).1 ++ (scan on b e st i rest).2 ∧
      chars b e i line rest = (scan on b e st i rest).1.map (fun c => (line, c, st)) ++
        chars b e (i + (scan on b e st i rest).1.length) line (scan on b e st i rest).2 ∧
      ((scan on b e st i rest).2 = [] ∨ (scan on b e st i rest).2.head? = some 13 ∨
        Turn on b e st (i + (scan on b e st i rest).1.length))
  | [], i, _ => by
    rw [scan]
    exact ⟨rfl, rfl, Or.inl rfl⟩
  | c :: r, i, h => by
    rw [scan]
    by_cases hc : c ≠ 13 ∧ (on = false ∨ ((i ≠ b ∨ st = true) ∧ (i ≠ e ∨ st = false)))
    · rw [if_pos hc]
      have hnt : ¬ Turn on b e st i := by
        rintro ⟨h1, h2⟩
        rcases hc.2 with h3 | ⟨h3, h4⟩
        · rw [h1] at h3; cases h3
        · rcases h2 with ⟨h5, h6⟩ | ⟨h5, h6⟩
          · rcases h3 with h7 | h7
            · exact h7 h6
            · rw [h5] at h7; cases h7
          · rcases h4 with h7 | h7
            · exact h7 h6
            · rw [h5] at h7; cases h7
      have hst : st = decide (b ≤ i ∧ i < e) := h.resolve_right hnt
      have hnext : st = decide (b ≤ i + 1 ∧ i + 1 < e) ∨ Turn on b e st (i + 1) := by
        unfold Turn
        subst hon
        by_cases h1 : b ≤ i ∧ i < e
        · rw [decide_eq_true h1] at hst
          by_cases h2 : i + 1 = e
          · exact Or.inr ⟨by simp; omega, Or.inr ⟨hst, h2⟩⟩
          · exact Or.inl (by rw [hst]; symm; simp; omega)
        · rw [decide_eq_false h1] at hst
          by_cases h2 : i + 1 = b
          · by_cases h3 : b = e
            · exact Or.inl (by rw [hst]; symm; simp; omega)
            · exact Or.inr ⟨by simp; omega, Or.inl ⟨hst, h2⟩⟩
          · exact Or.inl (by rw [hst]; symm; simp; omega)
      obtain ⟨h1, h2, h3⟩ := scan_spec on b e st line hon hbe r (i + 1) hnext
      dsimp only
      refine ⟨by rw [List.cons_append, ← h1], ?_, ?_⟩
      · rw [chars_cons _ _ _ _ _ hc.1, h2, ← hst, List.map_cons, List.cons_append, List.length_cons, Nat.add_assoc,
          Nat.add_comm 1]
      · rw [List.length_cons, show i + ((scan on b e st (i + 1) r).1.length + 1) = i + 1 + (scan on b e st (i + 1) r).1.length by omega]
        exact h3
    · rw [if_neg hc]
      refine ⟨rfl, rfl, ?_⟩
      by_cases h13 : c = 13
      · exact Or.inr (Or.inl (by rw [h13]; rfl))
      · refine Or.inr (Or.inr ?_)
        have hno : ¬ (on = false ∨ ((i ≠ b ∨ st = true) ∧ (i ≠ e ∨ st = false))) := fun h => hc ⟨h13, h⟩
        unfold Turn
        rw [List.length_nil, Nat.add_zero]
        cases on
        · exact absurd (Or.inl rfl) hno
        · refine ⟨rfl, ?_⟩
          cases st
          · refine Or.inl ⟨rfl, ?_⟩
            by_cases hb : i = b
            · exact hb
            · exact absurd (Or.inr ⟨Or.inl hb, Or.inr rfl⟩) hno
          · refine Or.inr ⟨rfl, ?_⟩
            by_cases hb : i = e
            · exact hb
            · exact absurd (Or.inr ⟨Or.inr rfl, Or.inl hb⟩) hno

/-- What the items show: the bytes, whether they are shown as selected, and at which height. -/
def shownBytes (items : List Item) : List (UInt8 × Bool × Nat) :=
  items.flatMap fun it => it.text.map fun c => (c, it.sel, it.y)

/-- The part of the text that is to be seen, line by line. -/
def expected (v : View) (l : List (Nat × UInt8 × Bool)) : List (UInt8 × Bool × Nat) :=
  (l.filter fun t => decide (v.off ≤ t.1 ∧ t.1 ≤ v.off + v.max)).map fun t => (t.2.1, t.2.2, v.py + (t.1 - v.off) * v.lh)

/-- Where a piece at height `y` begins: after the piece before it, if that is at the same height, else at the left edge. -/
def start (px y : Nat) : Option (Nat × Nat) → Nat
  | some (x, y') => if y = y' then x else px
  | none => px

/-- Pieces at the same height are placed one after the other, from the left edge on. -/
def Laid (px : Nat) (w : Text → Nat) : Option (Nat × Nat) → List Item → Prop
  | _, [] => True
  | p, it :: l => it.x = start px it.y p ∧ Laid px w (some (it.x + w it.text, it.y)) l

/-- All kept pictures were drawn with this font and these colours. -/
def Alike (look : Nat) (cache : List (Option Entry)) : Prop := ∀ en, some en ∈ cache → en.look = look

theorem paint_spec (look : Nat) (cache : List (Option Entry)) (q : Nat) (p : Text) (st : Bool) (hq : q < cache.length)
    (ha : ∀ en, some en ∈ cache → en.text ≠ []) :
    ∃ s cache', paint look cache q p st = .ok (s, cache') ∧ cache'.length = cache.length ∧
      (∀ en, some en ∈ cache' → en.text ≠ []) ∧ (s = none ↔ p = []) ∧
      (Alike look cache → Alike look cache' ∧ ∀ l, s = some l → l = look) := by
  have hget : cache[q]? = some cache[q] := List.getElem?_eq_getElem hq
  have hmem : cache[q] ∈ cache := List.getElem_mem hq
  have hfresh : ∃ s cache', (if p = [] then Out.ok (none, cache.set q none)
      else .ok (some look, cache.set q (some ⟨p, st, look⟩))) = .ok (s, cache') ∧ cache'.length = cache.length ∧
      (∀ en, some en ∈ cache' → en.text ≠ []) ∧ (s = none ↔ p = []) ∧
      (Alike look cache → Alike look cache' ∧ ∀ l, s = some l → l = look) := by
    by_cases hp : p = []
    · rw [if_pos hp]
      refine ⟨_, _, rfl, List.length_set, ?_, by simp [hp], ?_⟩
      · intro en h
        rcases List.mem_or_eq_of_mem_set h with h | h
        · exact ha en h
        · cases h
      · intro hal
        refine ⟨?_, nofun⟩
        intro en h
        rcases List.mem_or_eq_of_mem_set h with h | h
        · exact hal en h
        · cases h
    · rw [if_neg hp]
      refine ⟨_, _, rfl, List.length_set, ?_, by simp [hp], ?_⟩
      · intro en h
        rcases List.mem_or_eq_of_mem_set h with h | h
        · exact ha en h
        · cases h; exact hp
      · intro hal
        refine ⟨?_, fun l h => by cases h; rfl⟩
        intro en h
        rcases List.mem_or_eq_of_mem_set h with h | h
        · exact hal en h
        · cases h; rfl
  unfold paint
  rw [hget]
  dsimp only
  cases hc : cache[q] with
  | none => exact hfresh
  | some en =>
    dsimp only
    rw [hc] at hmem
    by_cases hh : en.sel = st ∧ en.text = p
    · rw [if_pos hh]
      refine ⟨_, _, rfl, rfl, ha, ?_, fun hal => ⟨hal, fun l h => by cases h; exact hal en hmem⟩⟩
      constructor
      · intro h; cases h
      · intro h; exact absurd (hh.2.trans h) (ha en hmem)
    · rw [if_neg hh]
      exact hfresh

theorem shown_append (a b : List Item) : shownBytes (a ++ b) = shownBytes a ++ shownBytes b := List.flatMap_append

theorem expected_append (v : View) (a b : List (Nat × UInt8 × Bool)) : expected v (a ++ b) = expected v a ++ expected v b := by
  unfold expected
  rw [List.filter_append, List.map_append]

theorem expected_piece (v : View) (p : Text) (line : Nat) (st : Bool) :
    expected v (p.map fun c => (line, c, st)) =
      if v.off ≤ line ∧ line ≤ v.off + v.max then p.map fun c => (c, st, v.py + (line - v.off) * v.lh) else [] := by
  unfold expected
  induction p with
  | nil => split <;> rfl
  | cons c p ih =>
    rw [List.map_cons, List.filter_cons]
    by_cases h : v.off ≤ line ∧ line ≤ v.off + v.max
    · rw [if_pos h] at ih ⊢
      rw [if_pos (by simpa using h), List.map_cons, ih]
      rfl
    · rw [if_neg h] at ih ⊢
      rw [if_neg (by simpa using h), ih]

/-- The piece that was drawn, if any. -/
def drawn (p : Text) (st : Bool) (x y : Nat) : Option Nat → List Item
  | some l => [⟨p, st, l, x, y⟩]
  | none => []

/-- The end of the last piece that was drawn. -/
def after (prev : Option (Nat × Nat)) (x y : Nat) : Option Nat → Option (Nat × Nat)
  | some _ => some (x, y)
  | none => prev

/-- Where the next piece will be. -/
def Place (v : View) (line x y : Nat) (p : Option (Nat × Nat)) : Prop :=
  v.off + v.max < line ∨ (y = v.py + (line - v.off) * v.lh ∧ (p = none → x = v.px) ∧ (line < v.off → p = none) ∧
    ∀ x' y', p = some (x', y') → (y = y' ∧ x = x') ∨ (y' < y ∧ x = v.px))

/-- Result of the loop. -/
structure Good (v : View) (w : Text → Nat) (look : Nat) (b e i line : Nat) (rest : Text) (prev : Option (Nat × Nat))
    (cache : List (Option Entry)) (items : List Item) (cache' : List (Option Entry)) : Prop where
  size : cache'.length = 400
  full : ∀ en, some en ∈ cache' → en.text ≠ []
  bytes : shownBytes items = expected v (chars b e i line rest)
  laid : Laid v.px w prev items
  alike : Alike look cache → Alike look cache' ∧ ∀ it ∈ items, it.look = look

theorem loop_spec (v : View) (w : Text → Nat) (look : Nat) (on : Bool) (b e : Nat) (hon : on = decide (b ≠ e)) (hbe : b ≤ e)
    (hv : v.off % 200 + v.max < 400) (hlh : 0 < v.lh) :
    ∀ (fuel : Nat) (st : Bool) (i : Nat) (rest : Text) (line x y : Nat) (cache : List (Option Entry)) (prev : Option (Nat × Nat)),
      rest.length < fuel → Normal rest → (i < b → st = false) → cache.length = 400 → (∀ en, some en ∈ cache → en.text ≠ []) →
      Place v line x y prev →
      ∃ items cache', loop v w look on b e fuel st i rest line x y cache = .ok (items, cache') ∧
        Good v w look b e i line rest prev cache items cache'
  | 0, _, _, _, _, _, _, _, _, hf, _, _, _, _, _ => absurd hf (by omega)
  | fuel + 1, st, i, rest, line, x, y, cache, prev, hf, hn, hs, hc, ha, hp => by
    rw [loop]
    by_cases hr : rest = []
    · subst hr
      rw [if_pos rfl]
      exact ⟨_, _, rfl, hc, ha, rfl, by rw [Laid]; trivial, fun h => ⟨h, by intro it h; cases h⟩⟩
    · rw [if_neg hr]
      dsimp only
      have hst : (if e ≤ i then false else if b ≤ i then true else st) = decide (b ≤ i ∧ i < e) := by
        by_cases h1 : e ≤ i
        · rw [if_pos h1]; symm; simp; omega
        · rw [if_neg h1]
          by_cases h2 : b ≤ i
          · rw [if_pos h2]; symm; simp; omega
          · rw [if_neg h2, hs (by omega)]; symm; simp; omega
      rw [hst]
      generalize hS : decide (b ≤ i ∧ i < e) = S at *
      obtain ⟨h1, h2, h3⟩ := scan_spec on b e S line hon hbe rest i (Or.inl hS.symm)
      have hprog : (scan on b e S i rest).2.head? = some 13 ∨ (scan on b e S i rest).2 = [] ∨ (scan on b e S i rest).1 ≠ [] := by
        rcases h3 with h | h | h
        · exact Or.inr (Or.inl h)
        · exact Or.inl h
        · refine Or.inr (Or.inr ?_)
          intro hh
          rw [hh] at h
          obtain ⟨h5, h6⟩ := h
          rw [hon] at h5
          simp only [decide_eq_true_eq] at h5
          rcases h6 with ⟨h6, h7⟩ | ⟨h6, h7⟩
          · rw [← hS] at h6
            simp only [decide_eq_false_iff_not, List.length_nil] at h6 h7
            omega
          · rw [← hS] at h6
            simp only [decide_eq_true_eq, List.length_nil] at h6 h7
            omega
      generalize hpp : (scan on b e S i rest).1 = p at *
      generalize hrr : (scan on b e S i rest).2 = r at *
      have hlen : rest.length = p.length + r.length := by rw [h1, List.length_append]
      have hnr : Normal r := normal_drop (p := p) (by rw [← h1]; exact hn)
      -- the piece
      have hpiece : ∃ s cache1, (if decide (v.off ≤ line ∧ line ≤ v.off + v.max) = true then
            paint look cache (v.off % 200 + (line - v.off)) p S else .ok (none, cache)) = .ok (s, cache1) ∧
          cache1.length = 400 ∧ (∀ en, some en ∈ cache1 → en.text ≠ []) ∧
          (v.off ≤ line ∧ line ≤ v.off + v.max → (s = none ↔ p = [])) ∧
          (¬ (v.off ≤ line ∧ line ≤ v.off + v.max) → s = none) ∧
          (Alike look cache → Alike look cache1 ∧ ∀ l, s = some l → l = look) := by
        by_cases hvis : v.off ≤ line ∧ line ≤ v.off + v.max
        · rw [if_pos (decide_eq_true hvis)]
          obtain ⟨s, c1, g1, g2, g3, g4, g5⟩ := paint_spec look cache (v.off % 200 + (line - v.off)) p S (by omega) ha
          exact ⟨s, c1, g1, g2.trans hc, g3, fun _ => g4, fun h => absurd hvis h, g5⟩
        · rw [if_neg (by simpa using hvis)]
          exact ⟨none, cache, rfl, hc, ha, fun h => absurd h hvis, fun _ => rfl, fun h => ⟨h, nofun⟩⟩
      obtain ⟨s, cache1, g1, g2, g3, g4, g5, g6⟩ := hpiece
      rw [g1]
      rw [bind_ok]
      dsimp only
      -- the rest
      have hitem : shownBytes (drawn p S x y s) =
          expected v (p.map fun c => (line, c, S)) := by
        rw [expected_piece]
        by_cases hvis : v.off ≤ line ∧ line ≤ v.off + v.max
        · rw [if_pos hvis]
          have hy : y = v.py + (line - v.off) * v.lh := by
            rcases hp with h | h
            · omega
            · exact h.1
          cases s with
          | none => rw [(g4 hvis).1 rfl]; rfl
          | some l => rw [← hy]; simp [shownBytes, drawn]
        · rw [if_neg hvis, g5 hvis]
          rfl
      have finish : ∀ (i' line' x' y' : Nat) (r' : Text), r'.length < fuel → Normal r' → (i' < b → S = false) →
          Place v line' x' y' (after prev (x + w p) y s) →
          chars b e (i + p.length) line r = chars b e i' line' r' →
          ∃ items cache', (loop v w look on b e fuel S i' r' line' x' y' cache1).bind (fun (items, cache) =>
              .ok ((drawn p S x y s) ++ items, cache)) = .ok (items, cache') ∧
            Good v w look b e i line rest prev cache items cache' := by
        intro i' line' x' y' r' k1 k2 k3 k4 k5
        obtain ⟨items, cache', q1, q2⟩ := loop_spec v w look on b e hon hbe hv hlh fuel S i' r' line' x' y' cache1 _ k1 k2 k3 g2 g3 k4
        rw [q1]
        refine ⟨_, _, rfl, q2.size, q2.full, ?_, ?_, ?_⟩
        · rw [shown_append, q2.bytes, hitem, h2, expected_append, k5]
        · have q3 := q2.laid
          cases s with
          | none => exact q3
          | some l =>
            show Laid v.px w prev (⟨p, S, l, x, y⟩ :: items)
            rw [Laid]
            refine ⟨?_, q3⟩
            have hvis : v.off ≤ line ∧ line ≤ v.off + v.max := by
              by_cases h : v.off ≤ line ∧ line ≤ v.off + v.max
              · exact h
              · cases g5 h
            rcases hp with h | ⟨_, h5, hab, h6⟩
            · omega
            · cases prev with
              | none => exact h5 rfl
              | some xy =>
                obtain ⟨x0, y0⟩ := xy
                show x = if y = y0 then x0 else v.px
                rcases h6 x0 y0 rfl with h7 | h7
                · rw [if_pos h7.1]; exact h7.2
                · rw [if_neg (by omega)]; exact h7.2
        · intro hal
          obtain ⟨a1, a2⟩ := g6 hal
          obtain ⟨a3, a4⟩ := q2.alike a1
          refine ⟨a3, ?_⟩
          intro it hit
          rcases List.mem_append.1 hit with hit | hit
          · cases s with
            | none => cases hit
            | some l =>
              cases List.mem_singleton.1 hit
              exact a2 l rfl
          · exact a4 it hit
      -- where the next piece of this line will be
      have hplace : Place v line (if decide (v.off ≤ line ∧ line ≤ v.off + v.max) = true then x + w p else x) y
          (after prev (x + w p) y s) ∨ p = [] := by
        by_cases hp0 : p = []
        · exact Or.inr hp0
        · left
          by_cases hvis : v.off ≤ line ∧ line ≤ v.off + v.max
          · rw [if_pos (decide_eq_true hvis)]
            rcases hp with h | ⟨h4, h5, hab, h6⟩
            · omega
            · cases s with
              | none => exact absurd ((g4 hvis).1 rfl) hp0
              | some l => exact Or.inr ⟨h4, nofun, fun h => by omega, fun x' y' h => by cases h; exact Or.inl ⟨rfl, rfl⟩⟩
          · rw [if_neg (by simpa using hvis), g5 hvis]
            exact hp
      by_cases h13 : r.head? = some 13
      · rw [if_pos h13]
        obtain ⟨r1, hr1⟩ : ∃ r1, r = 13 :: 10 :: r1 := by
          cases r with
          | nil => cases h13
          | cons c r0 =>
            injection h13 with h13
            subst h13
            obtain ⟨r', e'⟩ := hnr [] r0 rfl
            exact ⟨r', by rw [e']⟩
        subst hr1
        refine finish _ _ _ _ _ ?_ (normal_drop (p := [13, 10]) hnr) ?_ ?_ ?_
        · show r1.length < fuel
          rw [List.length_cons, List.length_cons] at hlen
          omega
        · intro h
          rw [← hS]; simp; omega
        · by_cases hvis : v.off ≤ line ∧ line ≤ v.off + v.max
          · rw [if_pos (decide_eq_true hvis)]
            rcases hp with h | ⟨h4, h5, hab, h6⟩
            · omega
            · right
              have hy : y + v.lh = v.py + (line + 1 - v.off) * v.lh := by
                rw [show line + 1 - v.off = line - v.off + 1 by omega, Nat.succ_mul]
                omega
              refine ⟨hy, fun _ => rfl, fun h => by omega, ?_⟩
              intro x' y' h
              right
              refine ⟨?_, rfl⟩
              cases s with
              | none =>
                rcases h6 x' y' h with h | h <;> omega
              | some l => cases h; omega
          · rw [if_neg (by simpa using hvis), g5 hvis]
            rcases hp with h | ⟨h4, h5, hab, h6⟩
            · exact Or.inl (by omega)
            · by_cases hlow : v.off + v.max < line
              · exact Or.inl (by omega)
              · right
                have e0 : line - v.off = 0 := by omega
                have e1 : line + 1 - v.off = 0 := by omega
                rw [e0] at h4
                refine ⟨by rw [e1]; omega, fun _ => rfl, fun _ => hab (by omega), ?_⟩
                intro x' y' h
                rw [hab (by omega)] at h
                cases h
        · rfl
      · rw [if_neg h13]
        by_cases hr0 : r = []
        · subst hr0
          have hn0 : Normal ([] : Text) := hnr
          have hp0 : p ≠ [] := by
            intro h
            rw [h] at h1
            exact hr h1
          have hpl := hplace.resolve_right hp0
          have hpos : 0 < p.length := List.length_pos_iff.2 hp0
          split
          · exact finish _ _ _ _ _ (by rw [List.length_nil] at hlen ⊢; omega) hn0 (fun h => by rw [← hS]; simp; omega) hpl rfl
          · split
            · exact finish _ _ _ _ _ (by rw [List.length_nil] at hlen ⊢; omega) hn0 (fun h => by rw [← hS]; simp; omega) hpl rfl
            · exact finish _ _ _ _ _ (by show 0 < fuel; omega) hn0 (fun h => by rw [← hS]; simp; omega) hpl rfl
        · have hp0 : p ≠ [] := by
            rcases hprog with h | h | h
            · exact absurd h h13
            · exact absurd h hr0
            · exact h
          have hpl := hplace.resolve_right hp0
          have hpos : 0 < p.length := List.length_pos_iff.2 hp0
          rcases h3 with h | h | ⟨h4, h5⟩
          · exact absurd h hr0
          · exact absurd h h13
          · rcases h5 with ⟨h5, h6⟩ | ⟨h5, h6⟩
            · rw [if_pos ⟨h4, h5, h6⟩]
              exact finish _ _ _ _ _ (by omega) hnr (fun h => by omega) hpl rfl
            · rw [if_neg (by rw [h5]; simp), if_pos ⟨h4, h5, h6⟩]
              exact finish _ _ _ _ _ (by omega) hnr (fun h => by omega) hpl rfl

/-- A drawing of a text field: whether the kept pictures were forgotten since the last one (after a click, `ink:` or a new
screen), what is visible, font and colours, the ends of the selection and the text. -/
structure Job where
  clear : Bool
  view : View
  look : Nat
  s1 : Nat
  s2 : Nat
  text : Text

/-- One drawing after the other, all with the same kept pictures. -/
def drawAll (w : Text → Nat) : List Job → List (Option Entry) → Out (List (List Item))
  | [], _ => .ok []
  | j :: js, cache => (render j.view w j.look j.s1 j.s2 j.text (if j.clear then forget else cache)).bind fun r =>
      (drawAll w js r.2).bind fun rs => .ok (r.1 :: rs)

/-- At most about two hundred lines are visible. -/
def Fits (j : Job) : Prop := Normal j.text ∧ j.view.off % 200 + j.view.max < 400 ∧ 0 < j.view.lh

/-- The drawing shows exactly the visible part of the text: every byte in its line, in order, as selected if and only if it
is, and the pieces of a line one after the other. -/
def Shows (w : Text → Nat) (j : Job) (items : List Item) : Prop :=
  shownBytes items = expected j.view (chars (min j.s1 j.s2) (max j.s1 j.s2) 0 0 j.text) ∧ Laid j.view.px w none items

/-- Every drawing shows what it should. -/
def AllShow (w : Text → Nat) : List Job → List (List Item) → Prop
  | [], [] => True
  | j :: js, o :: os => Shows w j o ∧ AllShow w js os
  | _, _ => False

theorem render_spec (w : Text → Nat) (j : Job) (hj : Fits j) (cache : List (Option Entry)) (hc : cache.length = 400)
    (ha : ∀ en, some en ∈ cache → en.text ≠ []) :
    ∃ items cache', render j.view w j.look j.s1 j.s2 j.text cache = .ok (items, cache') ∧ cache'.length = 400 ∧
      (∀ en, some en ∈ cache' → en.text ≠ []) ∧ Shows w j items ∧
      (Alike j.look cache → Alike j.look cache' ∧ ∀ it ∈ items, it.look = j.look) := by
  obtain ⟨hn, hv, hlh⟩ := hj
  have hb : (if j.s1 > j.s2 then j.s2 else j.s1) = min j.s1 j.s2 := by split <;> omega
  have he : (if j.s1 > j.s2 then j.s1 else j.s2) = max j.s1 j.s2 := by split <;> omega
  unfold render
  dsimp only
  rw [hb, he]
  obtain ⟨items, cache', h1, h2⟩ := loop_spec j.view w j.look (decide (max j.s1 j.s2 - min j.s1 j.s2 ≠ 0)) (min j.s1 j.s2)
    (max j.s1 j.s2) (by
      apply decide_eq_decide.2
      omega) (by omega) hv hlh (j.text.length + 1) false 0 j.text 0 j.view.px j.view.py cache none (by omega) hn
    (fun _ => rfl) hc ha (Or.inr ⟨by rw [Nat.zero_sub, Nat.zero_mul, Nat.add_zero], fun _ => rfl, fun _ => rfl, nofun⟩)
  exact ⟨items, cache', h1, h2.size, h2.full, ⟨h2.bytes, h2.laid⟩, h2.alike⟩

theorem forget_length : forget.length = 400 := List.length_replicate

theorem forget_mem {en : Entry} (h : some en ∈ forget) : False := by
  cases (List.mem_replicate.1 h).2

/-- Every drawing before which the pictures were forgotten has the font and the colours of its field. -/
def Fresh : List Job → List (List Item) → Prop
  | j :: js, o :: os => (j.clear = true → ∀ it ∈ o, it.look = j.look) ∧ Fresh js os
  | _, _ => True

theorem drawAll_spec (w : Text → Nat) : ∀ (js : List Job) (cache : List (Option Entry)), (∀ j ∈ js, Fits j) →
    cache.length = 400 → (∀ en, some en ∈ cache → en.text ≠ []) →
    ∃ os, drawAll w js cache = .ok os ∧ AllShow w js os ∧ Fresh js os ∧
      ∀ look, (∀ j ∈ js, j.look = look) → Alike look cache → ∀ o ∈ os, ∀ it ∈ o, it.look = look
  | [], _, _, _, _ => ⟨[], rfl, by rw [AllShow]; trivial, by rw [Fresh]; trivial; nofun, fun _ _ _ _ h => by cases h⟩
  | j :: js, cache, hf, hc, ha => by
    obtain ⟨items, cache', h1, h2, h3, h4, h5⟩ := render_spec w j (hf j List.mem_cons_self) (if j.clear then forget else cache)
      (by split
          · exact forget_length
          · exact hc)
      (by split
          · exact fun en h => (forget_mem h).elim
          · exact ha)
    obtain ⟨os, k1, k2, k4, k3⟩ := drawAll_spec w js cache' (fun x hx => hf x (List.mem_cons_of_mem _ hx)) h2 h3
    refine ⟨items :: os, ?_, ?_, ?_, ?_⟩
    · rw [drawAll, h1, bind_ok]
      dsimp only
      rw [k1, bind_ok]
    · rw [AllShow]
      exact ⟨h4, k2⟩
    · rw [Fresh]
      refine ⟨fun hcl => ?_, k4⟩
      rw [if_pos hcl] at h5
      exact (h5 fun en h => (forget_mem h).elim).2
    · intro look hl hal o ho it hit
      have hjl := hl j List.mem_cons_self
      rw [hjl] at h5
      obtain ⟨a1, a2⟩ := h5 (by
        split
        · exact fun en h => (forget_mem h).elim
        · exact hal)
      rcases List.mem_cons.1 ho with ho | ho
      · exact a2 it (ho ▸ hit)
      · exact k3 look (fun x hx => hl x (List.mem_cons_of_mem _ hx)) a1 o ho it hit

/-- **C114 (partial)**: whatever was drawn before, every drawing shows exactly the visible part of the text of its field, line
by line, with exactly the selected bytes as selected, and the pieces of a line one after the other; and if the kept pictures
were forgotten before it, or if all fields have the same font and colours, it is drawn with these. Missing: fields with
different fonts or colours (`C114_violated`) and very tall fields (`C114_violated_bounds`). -/
theorem C114_partial (w : Text → Nat) (js : List Job) (h : ∀ j ∈ js, Fits j) :
    ∃ os, drawAll w js forget = .ok os ∧ AllShow w js os ∧ Fresh js os ∧
      ∀ look, (∀ j ∈ js, j.look = look) → ∀ o ∈ os, ∀ it ∈ o, it.look = look := by
  obtain ⟨os, h1, h2, h4, h3⟩ := drawAll_spec w js forget h forget_length (fun en h => (forget_mem h).elim)
  exact ⟨os, h1, h2, h4, fun look hl => h3 look hl fun en h => (forget_mem h).elim⟩

/-- The full statement: every drawing succeeds, shows the visible part of the text and has the font and the colours of its
field. -/
def C114_full : Prop := ∀ (w : Text → Nat) (js : List Job), (∀ j ∈ js, Normal j.text ∧ 0 < j.view.lh) →
  ∃ os, drawAll w js forget = .ok os ∧ AllShow w js os ∧
    ∀ p ∈ js.zip os, ∀ it ∈ p.2, it.look = p.1.look

/-- Two fields with the text `ab`, the first in one font, the second in another. -/
def twoFields : List Job := [⟨false, ⟨0, 10, 5, 5, 12⟩, 1, 0, 0, [97, 98]⟩, ⟨false, ⟨0, 10, 5, 5, 12⟩, 2, 0, 0, [97, 98]⟩]

/-- **C114, violated**: the second field is drawn with the font and the colours of the first. -/
theorem C114_violated : drawAll List.length twoFields forget =
    .ok [[⟨[97, 98], false, 1, 5, 5⟩], [⟨[97, 98], false, 1, 5, 5⟩]] := by decide +kernel

theorem normal_lines : ∀ n, Normal ((List.replicate n [(13 : UInt8), 10]).flatten ++ [97])
  | 0 => by
    intro pre r e
    cases pre with
    | nil => simp at e
    | cons a pre => simp at e
  | n + 1 => by
    intro pre r e
    rw [List.replicate_succ, List.flatten_cons, List.append_assoc] at e
    match pre, e with
    | [], e => injection e with _ e; exact ⟨_, e.symm⟩
    | [a], e => injection e with _ e; injection e with e _; simp at e
    | a :: b :: pre, e =>
      injection e with _ e
      injection e with _ e
      exact normal_lines n pre r e

/-- A field of more than two hundred lines, scrolled down by 199 lines. -/
def tall : Job := ⟨false, ⟨199, 201, 5, 5, 12⟩, 1, 0, 0, (List.replicate 400 [(13 : UInt8), 10]).flatten ++ [97]⟩

/-- **C114, violated**: drawing a very tall field leaves the 400 pictures that are kept. -/
theorem C114_violated_bounds : Normal tall.text ∧ drawAll List.length [tall] forget = .ub :=
  ⟨normal_lines 400, by decide +kernel⟩

theorem C114_full_false : ¬ C114_full := by
  intro h
  obtain ⟨os, h1, _⟩ := h List.length [tall] (by
    intro j hj
    cases List.mem_singleton.1 hj
    exact ⟨C114_violated_bounds.1, by decide⟩)
  rw [C114_violated_bounds.2] at h1
  cases h1

/-- The hypotheses of `C114_partial` are met: a field with two lines, the selection across the line end, drawn twice. -/
example : ∀ j ∈ [(⟨false, ⟨0, 10, 5, 5, 12⟩, 1, 4, 1, [97, 98, 13, 10, 99]⟩ : Job), ⟨false, ⟨0, 10, 5, 5, 12⟩, 1, 0, 0, [97, 98]⟩], Fits j := by
  intro j hj
  have hN : Normal [97, 98, 13, 10, 99] := by
    intro pre r e
    match pre, e with
    | [], e => simp at e
    | [_], e => simp at e
    | [_, _], e => injection e with _ e; injection e with _ e; injection e with _ e; exact ⟨_, e.symm⟩
    | [_, _, _], e => simp at e
    | [_, _, _, _], e => simp at e
    | _ :: _ :: _ :: _ :: _ :: pre, e => simp at e
  have hM : Normal [97, 98] := by
    intro pre r e
    match pre, e with
    | [], e => simp at e
    | [_], e => simp at e
    | _ :: _ :: pre, e => simp at e
  rcases List.mem_cons.1 hj with rfl | hj
  · exact ⟨hN, by decide, by decide⟩
  · cases List.mem_singleton.1 hj
    exact ⟨hM, by decide, by decide⟩

/-- … and this is what is drawn. -/
example : (render ⟨0, 10, 5, 5, 12⟩ List.length 1 4 1 [97, 98, 13, 10, 99] forget).bind (fun r => .ok r.1) =
    .ok [⟨[97], false, 1, 5, 5⟩, ⟨[98], true, 1, 6, 5⟩, ⟨[99], false, 1, 5, 17⟩] := by decide +kernel

end Verif.Props.Render
