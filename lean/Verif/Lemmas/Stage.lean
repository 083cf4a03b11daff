import Verif.Model.Stage

/-!
# Lemmas about moving and colliding images
-/

namespace Verif.Lemmas.Stage
open Verif.Model.Stage Verif.Spec.Stage
open Verif (Out)

theorem px_nonneg {p : Int} (h : 0 ≤ p) : px p = p / 1048576 := by
  unfold px
  exact Int.tdiv_eq_ediv_of_nonneg h

theorem px_neg {p : Int} (h : p ≤ 0) : px p = -(-p / 1048576) := by
  unfold px
  have : p = -(-p) := by omega
  rw [this, Int.neg_tdiv, Int.tdiv_eq_ediv_of_nonneg (by omega)]
  omega

/-- `(int)` is a whole number next to the position. -/
theorem px_spec (p : Int) : (0 ≤ p → px p * 1048576 ≤ p ∧ p < px p * 1048576 + 1048576) ∧
    (p ≤ 0 → p ≤ px p * 1048576 ∧ px p * 1048576 < p + 1048576) := by
  constructor
  · intro h
    rw [px_nonneg h]
    omega
  · intro h
    rw [px_neg h]
    omega

theorem px_whole (k : Int) : px (k * 1048576) = k := by
  have := px_spec (k * 1048576)
  by_cases h : 0 ≤ k <;> omega

theorem px_floor (p : Int) : px (floorPos p) = p / 1048576 := px_whole _

theorem px_ceil (p : Int) : px (ceilPos p) = -(-p / 1048576) := by
  rw [ceilPos, ← Int.neg_mul, px_whole]

/-- A whole position. -/
def Whole (p : Int) : Prop := px p * 1048576 = p

theorem whole_mul (k : Int) : Whole (k * 1048576) := by rw [Whole, px_whole]

theorem half_nonneg {a : Int} (h : 0 ≤ a) : a.tdiv 2 = a / 2 := Int.tdiv_eq_ediv_of_nonneg h

/-! ## Boxes -/

theorem common_eq (a la b lb : Int) : common a la b lb = (max a b, min (a + la) (b + lb) - max a b) := by
  simp only [common, Prod.mk.injEq]
  constructor
  · split <;> omega
  · split <;> split <;> omega

theorem intersect_some {r r2 r3 : Box} (h : intersect r r2 = some r3) :
    0 < r.w ∧ 0 < r.h ∧ 0 < r2.w ∧ 0 < r2.h ∧
    0 < r3.w ∧ 0 < r3.h ∧
    r3.w = min (r.x + r.w) (r2.x + r2.w) - max r.x r2.x ∧ r3.h = min (r.y + r.h) (r2.y + r2.h) - max r.y r2.y := by
  simp only [intersect, common_eq] at h
  split at h
  · cases h
  · split at h
    · cases h
    · cases h
      refine ⟨by omega, by omega, by omega, by omega, by simp only; omega, by simp only; omega, rfl, rfl⟩

theorem intersect_none {r r2 : Box} (h : intersect r r2 = none) : ¬ Meet r r2 := by
  rintro ⟨a, b, h1, h2⟩
  simp only [Box.has] at h1 h2
  simp only [intersect, common_eq] at h
  split at h
  · omega
  · split at h
    · omega
    · cases h

theorem has_iff (r r2 : Box) : hasIntersection r r2 = true ↔ Meet r r2 := by
  constructor
  · intro h
    rw [hasIntersection, Option.isSome_iff_exists] at h
    obtain ⟨r3, h⟩ := h
    obtain ⟨h1, h2, h3, h4, h5, h6, h7, h8⟩ := intersect_some h
    refine ⟨max r.x r2.x, max r.y r2.y, ?_, ?_⟩ <;> simp only [Box.has] <;> omega
  · intro h
    cases h2 : intersect r r2 with
    | none => exact absurd h (intersect_none h2)
    | some r3 => rw [hasIntersection, h2]; rfl

/-! ## Pushing an image out of another one -/

/-- The image moves away from the other one or not at all. -/
def Away (right down : Bool) (m m' : Img) : Prop :=
  (if right then m'.x ≤ m.x else m.x ≤ m'.x) ∧ (if down then m'.y ≤ m.y else m.y ≤ m'.y) ∧ m'.w = m.w ∧ m'.h = m.h ∧ m'.anims = m.anims

theorem floorPos_le (p : Int) : floorPos p ≤ p := by
  unfold floorPos
  omega

theorem le_ceilPos (p : Int) : p ≤ ceilPos p := by
  unfold ceilPos
  omega

theorem xdepth_pos {r r2 r3 : Box} (h : intersect r r2 = some r3) (right : Bool) : 0 ≤ xdepth r r2 r3 right := by
  have := intersect_some h
  unfold xdepth
  split <;> split <;> omega

theorem ydepth_pos {r r2 r3 : Box} (h : intersect r r2 = some r3) (down : Bool) : 0 ≤ ydepth r r2 r3 down := by
  have := intersect_some h
  unfold ydepth
  split <;> split <;> omega

theorem resolve1_away (m : Img) (r r2 : Box) (right down : Bool) : Away right down m (resolve1 m r r2 right down) := by
  unfold resolve1
  cases hi : intersect r r2 with
  | none => cases right <;> cases down <;> simp [Away]
  | some r3 =>
    have hx := xdepth_pos hi right
    have hy := ydepth_pos hi down
    have fx := floorPos_le (m.x - xdepth r r2 r3 right * 1048576)
    have cx := le_ceilPos (m.x + xdepth r r2 r3 right * 1048576)
    have fy := floorPos_le (m.y - ydepth r r2 r3 down * 1048576)
    have cy := le_ceilPos (m.y + ydepth r r2 r3 down * 1048576)
    simp only
    split
    · cases right <;> cases down <;> simp only [Away] <;> simp <;> omega
    · cases right <;> cases down <;> simp only [Away] <;> simp <;> omega

/-- How far the image goes back across is just enough, if it does not stick out on the other side. -/
theorem xdepth_eq {r r2 r3 : Box} (h : intersect r r2 = some r3) :
    (r.x + r.w ≤ r2.x + r2.w → xdepth r r2 r3 true = r.x + r.w - r2.x) ∧ (r2.x ≤ r.x → xdepth r r2 r3 false = r2.x + r2.w - r.x) := by
  have := intersect_some h
  constructor
  · intro h
    simp only [xdepth, if_true]
    split <;> omega
  · intro h
    simp only [xdepth, Bool.false_eq_true, if_false]
    split <;> omega

/-- The same up or down. -/
theorem ydepth_eq {r r2 r3 : Box} (h : intersect r r2 = some r3) :
    (r.y + r.h ≤ r2.y + r2.h → ydepth r r2 r3 true = r.y + r.h - r2.y) ∧ (r2.y ≤ r.y → ydepth r r2 r3 false = r2.y + r2.h - r.y) := by
  have := intersect_some h
  constructor
  · intro h
    simp only [ydepth, if_true]
    split <;> omega
  · intro h
    simp only [ydepth, Bool.false_eq_true, if_false]
    split <;> omega

/-- The image does not stick out of the other one on the side to which it would have to go. -/
def NotBeyond (r r2 : Box) (right down : Bool) : Prop :=
  (if right then r.x + r.w ≤ r2.x + r2.w else r2.x ≤ r.x) ∧ (if down then r.y + r.h ≤ r2.y + r2.h else r2.y ≤ r.y)

theorem px_mono {p q : Int} (h : p ≤ q) : px p ≤ px q := by
  have h1 := px_spec p
  have h2 := px_spec q
  omega

/-- The second of the two corrections puts the image outside, wherever the first has put it. -/
theorem resolve1_apart (m m1 : Img) (r2 : Box) (right down : Bool) (ha : Away right down m m1) (hm : Meet (box m) r2)
    (hb : NotBeyond (box m) r2 right down) : ¬ Meet (box (resolve1 m1 (box m) r2 right down)) r2 := by
  unfold resolve1
  cases hi : intersect (box m) r2 with
  | none => exact absurd hm (intersect_none hi)
  | some r3 =>
    have ex := xdepth_eq hi
    have ey := ydepth_eq hi
    obtain ⟨hax, hay, haw, hah, haa⟩ := ha
    have hfw : frameW m1 = frameW m := by simp only [frameW, haw, haa]
    simp only
    split
    · cases right with
      | true =>
        simp only [NotBeyond, if_true] at hb
        have ex := ex.1 hb.1
        rintro ⟨a, b, h1, h2⟩
        simp only [Box.has, box, if_true, px_floor] at h1 h2
        have hfw' : frameW { m1 with x := floorPos (m1.x - xdepth ⟨px m.x, px m.y, frameW m, m.h⟩ r2 r3 true * 1048576) } = frameW m := hfw
        simp only [box] at ex
        have h3 : (m1.x - xdepth ⟨px m.x, px m.y, frameW m, m.h⟩ r2 r3 true * 1048576) / 1048576 + frameW m ≤ r2.x := by
          rw [ex]
          have := px_spec m.x
          simp only [if_true] at hax
          omega
        rw [hfw'] at h1
        omega
      | false =>
        simp only [NotBeyond, Bool.false_eq_true, if_false] at hb
        have ex := ex.2 hb.1
        rintro ⟨a, b, h1, h2⟩
        simp only [Box.has, box, Bool.false_eq_true, if_false, px_ceil] at h1 h2
        simp only [box] at ex
        have h3 : r2.x + r2.w ≤ -(-(m1.x + xdepth ⟨px m.x, px m.y, frameW m, m.h⟩ r2 r3 false * 1048576) / 1048576) := by
          rw [ex]
          have := px_spec m.x
          simp only [Bool.false_eq_true, if_false] at hax
          omega
        omega
    · cases down with
      | true =>
        simp only [NotBeyond, if_true] at hb
        have ey := ey.1 hb.2
        rintro ⟨a, b, h1, h2⟩
        simp only [Box.has, box, if_true, px_floor] at h1 h2
        simp only [box] at ey
        have h3 : (m1.y - ydepth ⟨px m.x, px m.y, frameW m, m.h⟩ r2 r3 true * 1048576) / 1048576 + m.h ≤ r2.y := by
          rw [ey]
          have := px_spec m.y
          simp only [if_true] at hay
          omega
        omega
      | false =>
        simp only [NotBeyond, Bool.false_eq_true, if_false] at hb
        have ey := ey.2 hb.2
        rintro ⟨a, b, h1, h2⟩
        simp only [Box.has, box, Bool.false_eq_true, if_false, px_ceil] at h1 h2
        simp only [box] at ey
        have h3 : r2.y + r2.h ≤ -(-(m1.y + ydepth ⟨px m.x, px m.y, frameW m, m.h⟩ r2 r3 false * 1048576) / 1048576) := by
          rw [ey]
          have := px_spec m.y
          simp only [Bool.false_eq_true, if_false] at hay
          omega
        omega

theorem notBeyond_of_sameSide {a b c : Box} (hs : SameSide a b c) (hf : Fits b c) (hw : 0 < b.w) (hh : 0 < b.h) (haw : a.w = b.w)
    (hah : a.h = b.h) :
    NotBeyond b c (decide (a.x + a.w.tdiv 2 < c.x + c.w.tdiv 2)) (decide (a.y + a.h.tdiv 2 < c.y + c.h.tdiv 2)) := by
  simp only [SameSide, Box.midX, Box.midY, Fits] at hs hf
  rw [half_nonneg (by omega), half_nonneg (by omega), half_nonneg (by omega), half_nonneg (by omega)]
  simp only [NotBeyond, decide_eq_true_eq]
  constructor <;> split <;> omega

/-- Somewhere else: not together, or standing on top. -/
def Settled (m m2 : Img) : Prop := ¬ Meet (box m) (box m2) ∨ (m.gravity ≠ 0 ∧ StandsOn (box m) (box m2))

theorem resolve_apart (e : Env) (m m2 : Img) (hm : Meet (box m) (box m2)) (hf : Fits (box m) (box m2))
    (hs : SameSide (box { m with x := m.ox, y := m.oy }) (box m) (box m2)) (hw : Whole m2.x) :
    ¬ Meet (box (resolve e m m2)) (box m2) := by
  have hpos : 0 < (box m).w ∧ 0 < (box m).h := by
    obtain ⟨a, b, h1, _⟩ := hm
    simp only [Box.has] at h1
    omega
  simp only [resolve]
  split
  · have h1 := hw
    simp only [Whole] at h1
    split
    · rintro ⟨a, b, h2, h3⟩
      have e1 : px (m2.x - (box m).w * 1048576) = px m2.x - (box m).w := by
        rw [← h1, ← Int.sub_mul, px_whole, px_whole]
      have e2 : box { m with x := m2.x - (box m).w * 1048576 } = ⟨px m2.x - (box m).w, px m.y, (box m).w, m.h⟩ := by
        rw [box, e1]
        rfl
      rw [e2] at h2
      simp only [Box.has, box] at h2 h3
      omega
    · rintro ⟨a, b, h2, h3⟩
      have e1 : px (m2.x + (box m2).w * 1048576) = px m2.x + (box m2).w := by
        rw [← h1, ← Int.add_mul, px_whole, px_whole]
      have e2 : box { m with x := m2.x + (box m2).w * 1048576 } = ⟨px m2.x + (box m2).w, px m.y, (box m).w, m.h⟩ := by
        rw [box, e1]
        rfl
      rw [e2] at h2
      simp only [Box.has, box] at h2 h3
      omega
  · exact resolve1_apart m _ (box m2) _ _ (resolve1_away m _ _ _ _) hm
      (notBeyond_of_sameSide hs hf hpos.1 hpos.2 rfl rfl)

theorem resolve_gravity (e : Env) (m m2 : Img) : (resolve e m m2).gravity = m.gravity := by
  have h1 : ∀ (m : Img) (r r2 : Box) (a b : Bool), (resolve1 m r r2 a b).gravity = m.gravity := by
    intro m r r2 a b
    unfold resolve1
    split
    · rfl
    · split <;> split <;> rfl
  simp only [resolve]
  split
  · split <;> rfl
  · rw [h1, h1]

theorem box_bounce (m : Img) (d : Int) : box { m with dir := d } = box m := rfl

theorem solidHit_settled (e : Env) (m m2 : Img) (hm : Meet (box m) (box m2)) (hf : Fits (box m) (box m2))
    (hs : SameSide (box { m with x := m.ox, y := m.oy }) (box m) (box m2)) (hx : Whole m2.x) (hy : Whole m2.y) :
    Settled (solidHit e m m2).1 m2 := by
  by_cases hl : lands m m2
  · right
    simp only [solidHit, if_pos hl]
    refine ⟨by split <;> exact hl.1, ?_⟩
    have e2 : px (m2.y - m.h * 1048576 + 1048576) = px m2.y - m.h + 1 := by
      simp only [Whole] at hy
      have : m2.y - m.h * 1048576 + 1048576 = (px m2.y - m.h + 1) * 1048576 := by omega
      rw [this, px_whole]
    have e3 : ∀ (g d : Int), box { m with y := m2.y - m.h * 1048576 + 1048576, gspeed := g, dir := d } =
        ⟨px m.x, px m2.y - m.h + 1, frameW m, m.h⟩ := by
      intro g d
      rw [box, e2]
      rfl
    have e4 : box { m with y := m2.y - m.h * 1048576 + 1048576, gspeed := 0 } = ⟨px m.x, px m2.y - m.h + 1, frameW m, m.h⟩ := by
      rw [box, e2]
      rfl
    intro a b h1 h2
    split at h1
    · rw [e3] at h1
      simp only [Box.has, box] at h1 h2 ⊢
      omega
    · rw [e4] at h1
      simp only [Box.has, box] at h1 h2 ⊢
      omega
  · left
    simp only [solidHit, if_neg hl]
    have h1 := resolve_apart e m m2 hm hf hs hx
    split <;> exact h1

/-- Images that are not solid, or do not touch, do not matter. -/
theorem detectLoop_skip (e : Env) (i : Nat) (r : Box) (l : List Img) (j : Nat) (m : Img)
    (h : ∀ k m2, l[k]? = some m2 → j + k ≠ i → m2.fixed = false → m2.alive = true → m2.solid = true → ¬ Meet r (box m2)) :
    (detectLoop e i r l j m).1 = m := by
  induction l generalizing j with
  | nil => rfl
  | cons m2 l ih =>
    have ih := ih (j + 1) fun k m3 h1 h2 => h (k + 1) m3 h1 (by omega)
    rw [detectLoop]
    split
    · exact ih
    · rename_i hskip
      split
      · rename_i hhit
        rw [has_iff] at hhit
        have hns : ¬ (m2.solid ∧ m.solid = false ∧ m.ghost = false) := fun hc =>
          h 0 m2 rfl (by simpa using fun he => hskip (Or.inl he)) (by
            cases hfx : m2.fixed with
            | false => rfl
            | true => exact absurd (Or.inr (Or.inr (Or.inl hfx))) hskip) (by
            cases hal : m2.alive with
            | true => rfl
            | false => exact absurd (Or.inr (Or.inr (Or.inr (Or.inr hal)))) hskip) hc.1 hhit
        simp only [if_neg hns]
        exact ih
      · exact ih

/-- One solid image that may touch, at place `k`. -/
theorem detectLoop_one (e : Env) (i : Nat) (r : Box) (l : List Img) (j : Nat) (m m2 : Img) (k : Nat) (hk : l[k]? = some m2)
    (hki : j + k ≠ i) (hm : m.fixed = false ∧ m.alive = true ∧ m.solid = false ∧ m.ghost = false)
    (hm2 : m2.fixed = false ∧ m2.alive = true ∧ m2.solid = true)
    (h : ∀ k' m3, l[k']? = some m3 → k' ≠ k → j + k' ≠ i → m3.fixed = false → m3.alive = true → m3.solid = true → ¬ Meet r (box m3))
    (hmeet : Meet r (box m2)) : (detectLoop e i r l j m).1 = (solidHit e m m2).1 := by
  induction l generalizing j k with
  | nil => simp at hk
  | cons a l ih =>
    cases k with
    | zero =>
      simp at hk
      subst hk
      rw [detectLoop, if_neg (by simp [hm, hm2]; omega), if_pos ((has_iff _ _).2 hmeet)]
      simp only [if_pos (show a.solid = true ∧ m.solid = false ∧ m.ghost = false from ⟨hm2.2.2, hm.2.2⟩)]
      exact detectLoop_skip _ i r l (j + 1) _ fun k' m3 h1 h2 => h (k' + 1) m3 h1 (by omega) (by omega)
    | succ k =>
      have ih := ih (j + 1) k (by simpa using hk) (by omega) fun k' m3 h1 h2 h3 => h (k' + 1) m3 h1 (by omega) (by omega)
      rw [detectLoop]
      split
      · exact ih
      · rename_i hskip
        split
        · rename_i hhit
          rw [has_iff] at hhit
          have hns : ¬ (a.solid ∧ m.solid = false ∧ m.ghost = false) := fun hc =>
            h 0 a rfl (by omega) (by simpa using fun he => hskip (Or.inl he)) (by
              cases hfx : a.fixed with
              | false => rfl
              | true => exact absurd (Or.inr (Or.inr (Or.inl hfx))) hskip) (by
              cases hal : a.alive with
              | true => rfl
              | false => exact absurd (Or.inr (Or.inr (Or.inr (Or.inr hal)))) hskip) hc.1 hhit
          simp only [if_neg hns]
          exact ih
        · exact ih

/-! ### Messages -/

theorem resolve_flags (e : Env) (m m2 : Img) :
    (resolve e m m2).fixed = m.fixed ∧ (resolve e m m2).alive = m.alive ∧ (resolve e m m2).collidable = m.collidable := by
  have h1 : ∀ (m : Img) (r r2 : Box) (a b : Bool), (resolve1 m r r2 a b).fixed = m.fixed ∧
      (resolve1 m r r2 a b).alive = m.alive ∧ (resolve1 m r r2 a b).collidable = m.collidable := by
    intro m r r2 a b
    unfold resolve1
    split
    · exact ⟨rfl, rfl, rfl⟩
    · split <;> split <;> exact ⟨rfl, rfl, rfl⟩
  simp only [resolve]
  split
  · split <;> exact ⟨rfl, rfl, rfl⟩
  · simp only [h1, and_self]

theorem solidHit_flags (e : Env) (m m2 : Img) : (solidHit e m m2).1.fixed = m.fixed ∧ (solidHit e m m2).1.alive = m.alive ∧
    (solidHit e m m2).1.collidable = m.collidable := by
  have h := resolve_flags e m m2
  simp only [solidHit]
  split <;> split <;> first | exact h | exact ⟨rfl, rfl, rfl⟩

/-- Image `j` of the list takes part and shares a pixel with the box. -/
def Touches (i : Nat) (r : Box) (j : Nat) (m2 : Img) : Prop := j ≠ i ∧ m2.fixed = false ∧ m2.alive = true ∧ Meet r (box m2)

theorem detectLoop_events (e : Env) (i : Nat) (r : Box) (l : List Img) (j : Nat) (m : Img) (hm : m.fixed = false ∧ m.alive = true)
    (ev : Event) : ev ∈ (detectLoop e i r l j m).2 ↔
      ∃ k m2, l[k]? = some m2 ∧ Touches i r (j + k) m2 ∧
        ((ev = ⟨i, j + k⟩ ∧ m.collidable = true) ∨ (ev = ⟨j + k, i⟩ ∧ m2.collidable = true)) := by
  induction l generalizing e j m with
  | nil => simp [detectLoop]
  | cons a l ih =>
    have split0 : ∀ (P : Nat → Img → Prop), (∃ k m2, (a :: l)[k]? = some m2 ∧ P (j + k) m2) ↔
        (P j a ∨ ∃ k m2, l[k]? = some m2 ∧ P (j + 1 + k) m2) := by
      intro P
      constructor
      · rintro ⟨k, m2, h1, h2⟩
        cases k with
        | zero =>
          simp at h1
          subst h1
          exact Or.inl h2
        | succ k =>
          refine Or.inr ⟨k, m2, by simpa using h1, ?_⟩
          rw [show j + 1 + k = j + (k + 1) by omega]
          exact h2
      · rintro (h | ⟨k, m2, h1, h2⟩)
        · exact ⟨0, a, rfl, h⟩
        · refine ⟨k + 1, m2, by simpa using h1, ?_⟩
          rw [show j + (k + 1) = j + 1 + k by omega]
          exact h2
    have e0 := split0 fun n m2 => Touches i r n m2 ∧
        ((ev = ⟨i, n⟩ ∧ m.collidable = true) ∨ (ev = ⟨n, i⟩ ∧ m2.collidable = true))
    rw [e0, detectLoop]
    split
    · rename_i hs
      rw [ih e (j + 1) m hm]
      constructor
      · exact Or.inr
      · rintro (h | h)
        · have := h.1
          simp only [Touches] at this
          simp [hm, this] at hs
        · exact h
    · rename_i hs
      simp [hm] at hs
      split
      · rename_i hh
        rw [has_iff] at hh
        simp only [List.mem_append]
        have hfl : ∀ x : Img × Int, x = (if a.solid = true ∧ m.solid = false ∧ m.ghost = false then solidHit e m a else (m, e.jump)) →
            x.1.fixed = m.fixed ∧ x.1.alive = m.alive ∧ x.1.collidable = m.collidable := by
          intro x hx
          subst hx
          split
          · exact solidHit_flags e m a
          · exact ⟨rfl, rfl, rfl⟩
        have hfl := hfl _ rfl
        rw [ih _ (j + 1) _ (by rw [hfl.1, hfl.2.1]; exact hm), hfl.2.2]
        constructor
        · rintro ((h | h) | h)
          · left
            refine ⟨⟨hs.1, hs.2.1, hs.2.2, hh⟩, Or.inl ?_⟩
            split at h <;> simp_all
          · left
            refine ⟨⟨hs.1, hs.2.1, hs.2.2, hh⟩, Or.inr ?_⟩
            split at h <;> simp_all
          · exact Or.inr h
        · rintro (⟨_, h | h⟩ | h)
          · exact Or.inl (Or.inl (by simp [h]))
          · exact Or.inl (Or.inr (by simp [h]))
          · exact Or.inr h
      · rename_i hh
        rw [has_iff] at hh
        rw [ih e (j + 1) m hm]
        constructor
        · exact Or.inr
        · rintro (h | h)
          · exact absurd h.1.2.2.2 hh
          · exact h

/-! ### The window -/

theorem keepInWindow_ok (mode jump width height : Int) (m m' : Img) (hmode : mode < 5)
    (h : keepInWindow mode jump width height m = .ok m') (hfit : (box m).w ≤ width ∧ (box m).h ≤ height) :
    (box m').w = (box m).w ∧ (box m').h = (box m).h ∧
      0 ≤ (box m').x ∧ (box m').x + (box m').w ≤ width ∧ (box m').y + (box m').h ≤ height ∧
      ((mode ≠ 1 ∨ jump = 0) → 0 ≤ (box m').y) := by
  simp only [keepInWindow, if_pos hmode] at h
  by_cases ha : m.anims = 0
  · simp [ha] at h
  · simp only [if_neg ha, Out.ok.injEq] at h
    have hw : m.w.tdiv m.anims = frameW m := by simp [frameW, ha]
    rw [hw] at h
    simp only [box] at hfit
    have key : ∀ lim p : Int, 0 ≤ lim → p ≤ lim * 1048576 → px p ≤ lim := by
      intro lim p h0 hp
      have := px_mono hp
      rwa [px_whole] at this
    have key0 : ∀ p : Int, 0 ≤ p → 0 ≤ px p := by
      intro p hp
      have := px_mono hp
      rwa [show (0 : Int) = 0 * 1048576 by rfl, px_whole] at this
    have hx : m'.w = m.w ∧ m'.h = m.h ∧ m'.anims = m.anims ∧ 0 ≤ m'.x ∧ m'.x ≤ (width - frameW m) * 1048576 ∧
        m'.y ≤ (height - m.h) * 1048576 ∧ ((mode ≠ 1 ∨ jump = 0) → 0 ≤ m'.y) := by
      subst h
      have h1 : 0 ≤ (width - frameW m) * 1048576 := by omega
      have h2 : 0 ≤ (height - m.h) * 1048576 := by omega
      by_cases c1 : m.x > (width - frameW m) * 1048576 <;> by_cases c2 : m.y > (height - m.h) * 1048576 <;>
        by_cases c3 : mode ≠ 1 ∨ jump = 0 <;> simp only [c1, c2, c3, if_true, if_false] <;>
        (repeat' split) <;> refine ⟨rfl, rfl, rfl, ?_, ?_, ?_, fun hc => ?_⟩ <;>
        first | exact absurd hc c3 | exact hc.elim | ((try dsimp only at *) <;> omega)
    obtain ⟨h1, h2, h3, h4, h5, h6, h7⟩ := hx
    have hfw : frameW m' = frameW m := by simp [frameW, h1, h3]
    simp only [box, hfw, h2, true_and]
    have h8 := key _ _ (by omega) h5
    have h9 := key _ _ (by omega) h6
    exact ⟨key0 _ h4, by omega, by omega, fun hc => key0 _ (h7 hc)⟩

/-! ### Clicks -/

/-- The test of `clicked`. -/
def Hit (bx by_ : Int) (m : Img) : Prop :=
  m.x < bx * 1048576 ∧ m.y < by_ * 1048576 ∧ m.x + frameW m * 1048576 > bx * 1048576 ∧ m.y + m.h * 1048576 > by_ * 1048576 ∧ m.alive

theorem clicked_mem (bx by_ : Int) (l : List Img) (j n : Nat) :
    n ∈ clicked bx by_ l j ↔ ∃ k m, l[k]? = some m ∧ n = j + k ∧ Hit bx by_ m := by
  induction l generalizing j with
  | nil => simp [clicked]
  | cons a l ih =>
    have e0 : (∃ k m, (a :: l)[k]? = some m ∧ n = j + k ∧ Hit bx by_ m) ↔
        ((n = j ∧ Hit bx by_ a) ∨ ∃ k m, l[k]? = some m ∧ n = j + 1 + k ∧ Hit bx by_ m) := by
      constructor
      · rintro ⟨k, m2, h1, h2⟩
        cases k with
        | zero =>
          simp at h1
          subst h1
          exact Or.inl h2
        | succ k => exact Or.inr ⟨k, m2, by simpa using h1, by omega, h2.2⟩
      · rintro (h | ⟨k, m2, h1, h2⟩)
        · exact ⟨0, a, rfl, h⟩
        · exact ⟨k + 1, m2, by simpa using h1, by omega, h2.2⟩
    rw [e0, clicked]
    split
    · rename_i h
      rw [List.mem_cons, ih]
      have : Hit bx by_ a := h
      simp [this]
    · rename_i h
      rw [ih]
      have : ¬ Hit bx by_ a := h
      simp [this]

theorem clicked_ge (bx by_ : Int) (l : List Img) (j n : Nat) (h : n ∈ clicked bx by_ l j) : j ≤ n := by
  obtain ⟨k, m, _, h2, _⟩ := (clicked_mem bx by_ l j n).1 h
  omega

theorem clicked_sorted (bx by_ : Int) (l : List Img) (j : Nat) : (clicked bx by_ l j).Pairwise (· < ·) := by
  induction l generalizing j with
  | nil => simp [clicked]
  | cons a l ih =>
    rw [clicked]
    split
    · refine List.pairwise_cons.2 ⟨fun n hn => ?_, ih (j + 1)⟩
      have := clicked_ge bx by_ l (j + 1) n hn
      omega
    · exact ih (j + 1)

theorem hit_whole (bx by_ : Int) (m : Img) (hx : Whole m.x) (hy : Whole m.y) :
    Hit bx by_ m ↔ ((box m).has bx by_ ∧ bx ≠ (box m).x ∧ by_ ≠ (box m).y ∧ m.alive = true) := by
  simp only [Whole] at hx hy
  simp only [Hit, Box.has, box]
  constructor
  · rintro ⟨h1, h2, h3, h4, h5⟩
    exact ⟨by omega, by omega, by omega, h5⟩
  · rintro ⟨h1, h2, h3, h5⟩
    exact ⟨by omega, by omega, by omega, by omega, h5⟩

theorem hit_near (bx by_ : Int) (m : Img) (h0 : 0 ≤ m.x ∧ 0 ≤ m.y) (h : Hit bx by_ m) :
    (box m).x < bx ∧ bx ≤ (box m).x + (box m).w ∧ (box m).y < by_ ∧ by_ ≤ (box m).y + (box m).h ∧ m.alive = true := by
  obtain ⟨h1, h2, h3, h4, h5⟩ := h
  have e1 := px_nonneg h0.1
  have e2 := px_nonneg h0.2
  simp only [box, e1, e2]
  exact ⟨by omega, by omega, by omega, by omega, h5⟩

theorem hit_inner (bx by_ : Int) (m : Img) (h0 : 0 ≤ m.x ∧ 0 ≤ m.y) (ha : m.alive = true)
    (h : (box m).has bx by_ ∧ bx ≠ (box m).x ∧ by_ ≠ (box m).y) : Hit bx by_ m := by
  have e1 := px_nonneg h0.1
  have e2 := px_nonneg h0.2
  simp only [Box.has, box, e1, e2] at h
  exact ⟨by omega, by omega, by omega, by omega, ha⟩

end Verif.Lemmas.Stage
