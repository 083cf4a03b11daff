import Verif.Lemmas.Camera
import Verif.Props.Stage

/-!
# The camera and animated images: C97, C100, and clicks with a camera (C99)
-/

namespace Verif.Props.Camera
open Verif Verif.Spec.Stage Verif.Spec.Camera Verif.Model.Stage Verif.Model.Camera Verif.Lemmas.Stage Verif.Lemmas.Camera
open Verif.Props.Stage (plain wall)

/-! ### C97: the view stays in the level -/

/-- The camera with sizes that the program changes. -/
def follows' : Cam → List (View × Option Img) → Out Cam
  | c, [] => .ok c
  | c, (v, p) :: l => camera v true c p >>= fun c1 => follows' c1 l

/-- C97 in full: from the corner, whatever the player and the sizes do, the view stays in the level; a player that stands still
comes into view; and the images of a frame are drawn at the same distances from each other as they have in the level. -/
def C97_full : Prop :=
  (∀ (l : List (View × Option Img)) (v : View) (p : Option Img) (c' : Cam),
    (∀ x ∈ l, 0 < x.1.w ∧ 0 < x.1.h ∧ x.1.width = v.width ∧ x.1.height = v.height) →
    follows' ⟨0, 0⟩ (l ++ [(v, p)]) = .ok c' → Within c'.x v.w v.width ∧ Within c'.y v.h v.height) ∧
  (∀ (v : View) (p : Img), 0 < v.w → 0 < v.h → v.w ≤ v.width → v.h ≤ v.height → p.anims ≠ 0 → 0 ≤ p.x → 0 ≤ p.y → 0 ≤ (box p).w →
    0 ≤ (box p).h → (box p).midX < v.width → (box p).midY < v.height →
    ∃ n c', follows v ⟨0, 0⟩ (List.replicate n (some p)) = .ok c' ∧ Sees c'.x v.w (box p).midX ∧ Sees c'.y v.h (box p).midY) ∧
  (∀ (v : View) (c c' : Cam) (l : List (Option Img × Img)) (r : List Box), drawAll v c l = .ok (r, c') →
    ∃ dx dy, ∀ (k : Nat) (p : Option Img) (m : Img) (b : Box), l[k]? = some (p, m) → r[k]? = some b → m.fixed = false → b.x = (drawnBox m).x + dx ∧ b.y = (drawnBox m).y + dy)

/-- The view stays in the level, whatever the player does, however often the camera moves. Missing: changes of the sizes. -/
theorem C97_view_partial (v : View) (l : List (Option Img)) (c' : Cam) (h : follows v ⟨0, 0⟩ l = .ok c') :
    Within c'.x v.w v.width ∧ Within c'.y v.h v.height :=
  follows_within h (within_start _ _) (within_start _ _)

/-- And it can always be computed, if every player has at least one piece. -/
theorem C97_total (v : View) (l : List (Option Img)) (h : ∀ q, some q ∈ l → q.anims ≠ 0) : ∃ c', follows v ⟨0, 0⟩ l = .ok c' :=
  follows_total v _ l h

/-- A camera of 320 by 200 in a level of 1000 by 600. -/
def usual : View := ⟨320, 200, 1000, 600, 0, 0⟩

example : follows usual ⟨0, 0⟩ (List.replicate 50 (some (plain 500 300 500 300 32 32))) = .ok ⟨50, 50⟩ := by decide +kernel

example : ∃ c', follows usual ⟨0, 0⟩ (List.replicate 50 (some (plain 500 300 500 300 32 32))) = .ok c' :=
  C97_total usual _ (by
    intro q hq
    have := List.eq_of_mem_replicate hq
    simp only [Option.some.injEq] at this
    subst this
    decide)

/-- A player that stands still comes into view and remains there, from anywhere in the level: it takes no more moves of the camera
than the level has pixels. Missing: cameras of less than four pixels, and such that are much wider than high. -/
theorem C97_finds_partial (v : View) (c : Cam) (p : Img) (hc : Within c.x v.w v.width ∧ Within c.y v.h v.height)
    (hw : 4 ≤ v.w) (hh : 3 * v.w < 10 * v.h) (ha : p.anims ≠ 0) (h0 : 0 ≤ p.x ∧ 0 ≤ p.y)
    (hb : 0 ≤ (box p).w ∧ 0 ≤ (box p).h) (hin : (box p).midX < v.width ∧ (box p).midY < v.height) (n : Nat)
    (hn : v.width ≤ n ∧ v.height ≤ n) :
    ∃ c', follows v c (List.replicate n (some p)) = .ok c' ∧ Sees c'.x v.w (box p).midX ∧ Sees c'.y v.h (box p).midY := by
  refine ⟨_, follows_again v (some p) _ (middle_ok p ha h0 hb) n c, ?_, ?_⟩
  all_goals
    have hbo := border_spec (w := v.w) (by omega)
    simp only [box] at hb hin
    have e1 := px_nonneg h0.1
    have e2 := px_nonneg h0.2
    simp only [Box.midX, Box.midY, e1, e2] at hin
    simp only [Within] at hc
  · refine again_finds (by omega) ?_ n c.x hc.1 ?_ <;> simp only [Box.midX, box, e1] <;> omega
  · refine again_finds (by omega) ?_ n c.y hc.2 ?_ <;> simp only [Box.midY, box, e2] <;> omega

example : ∃ c', follows usual ⟨0, 0⟩ (List.replicate 1000 (some (plain 700 500 700 500 32 32))) = .ok c' ∧ Sees c'.x 320 716 ∧
    Sees c'.y 200 516 :=
  C97_finds_partial usual ⟨0, 0⟩ (plain 700 500 700 500 32 32) (by decide) (by decide) (by decide) (by decide) (by decide)
    (by decide +kernel) (by decide +kernel) 1000 (by decide)

/-- While the player is away from the borders of the view, everything is drawn at one distance from where it is. Missing: frames
in which the camera moves. -/
theorem C97_together_partial (v : View) (c c' : Cam) (l : List (Option Img × Img)) (r : List Box) (h : drawAll v c l = .ok (r, c'))
    (hw : 0 ≤ v.w)
    (hp : ∀ p m, (p, m) ∈ l → ∃ q, p = some q ∧ q.anims ≠ 0 ∧ 0 ≤ q.x ∧ 0 ≤ q.y ∧ 0 ≤ (box q).w ∧ 0 ≤ (box q).h ∧
      10 * c.x + 3 * v.w ≤ 10 * (box q).midX ∧ 10 * (box q).midX ≤ 10 * c.x + 7 * v.w ∧
      10 * c.y + 3 * v.w ≤ 10 * (box q).midY ∧ 10 * (box q).midY ≤ 10 * c.y + 10 * v.h - 3 * v.w) :
    c' = c ∧ ∀ (k : Nat) (p : Option Img) (m : Img) (b : Box), l[k]? = some (p, m) → r[k]? = some b → m.fixed = false →
      b.x = (drawnBox m).x + (v.left - c.x) ∧ b.y = (drawnBox m).y + (v.top - c.y) := by
  have hbo := border_spec (w := v.w) hw
  rw [drawAll_calm v c l (by
    intro p m hm
    obtain ⟨q, rfl, h1, h2, h3, h4, h5, h6, h7, h8, h9⟩ := hp p m hm
    exact ⟨_, middle_ok q h1 ⟨h2, h3⟩ ⟨h4, h5⟩, by simp only [Calm]; omega⟩)] at h
  simp only [Out.ok.injEq, Prod.mk.injEq] at h
  refine ⟨h.2.symm, fun k p m b h1 h2 h3 => ?_⟩
  rw [← h.1, List.getElem?_map, h1] at h2
  simp only [Option.map_some, h3, Bool.false_eq_true, if_false, Option.some.injEq] at h2
  subst h2
  simp only [place]
  omega

example : drawAll usual ⟨100, 100⟩ [(some (plain 250 184 250 184 32 32), plain 150 150 0 0 10 10),
    (some (plain 250 184 250 184 32 32), plain 250 184 250 184 32 32)] =
    .ok ([⟨50, 50, 10, 10⟩, ⟨150, 84, 32, 32⟩], ⟨100, 100⟩) := by decide +kernel

example : ([⟨50, 50, 10, 10⟩, ⟨150, 84, 32, 32⟩] : List Box)[0]? = some ⟨50, 50, 10, 10⟩ ∧ (⟨100, 100⟩ : Cam) = ⟨100, 100⟩ := by
  have h := C97_together_partial usual ⟨100, 100⟩ ⟨100, 100⟩ [(some (plain 250 184 250 184 32 32), plain 150 150 0 0 10 10),
    (some (plain 250 184 250 184 32 32), plain 250 184 250 184 32 32)] [⟨50, 50, 10, 10⟩, ⟨150, 84, 32, 32⟩] (by decide +kernel) (by decide) (by
      intro p m hm
      have : p = some (plain 250 184 250 184 32 32) := by
        simp only [List.mem_cons, Prod.mk.injEq, List.not_mem_nil, or_false] at hm
        rcases hm with hm | hm <;> exact hm.1
      subst this
      exact ⟨_, rfl, by decide +kernel⟩)
  exact ⟨rfl, h.1⟩

/-- An image of which any pixel is in view is drawn, in its full size, where it belongs. -/
theorem C97_shown (v : View) (c : Cam) (r : Box) (h : Meet r ⟨c.x, c.y, v.w, v.h⟩) :
    place v c r = ⟨r.x - c.x + v.left, r.y - c.y + v.top, r.w, r.h⟩ := place_shown v c r h

example : place usual ⟨100, 100⟩ ⟨95, 290, 10, 30⟩ = ⟨-5, 190, 10, 30⟩ :=
  C97_shown usual ⟨100, 100⟩ ⟨95, 290, 10, 30⟩ ⟨100, 291, by decide, by decide⟩

/-- An image with more columns than pieces is drawn in full, as large as one of its pieces, where it is in the view. -/
theorem C97_drawn (v : View) (c : Cam) (m : Img) (ha : 1 ≤ m.anims ∧ m.anims < m.w) (h : Meet (box m) ⟨c.x, c.y, v.w, v.h⟩) :
    place v c (drawnBox m) = ⟨px m.x - c.x + v.left, px m.y - c.y + v.top, m.w / m.anims, m.h⟩ := by
  have e : drawnBox m = ⟨px m.x, px m.y, m.w / m.anims, m.h⟩ := by
    simp only [drawnBox, drawnW, if_pos (show m.anims > 0 ∧ m.w > m.anims by omega), Int.tdiv_eq_ediv_of_nonneg (show 0 ≤ m.w by omega)]
  have e' : box m = ⟨px m.x, px m.y, m.w / m.anims, m.h⟩ := by
    simp only [box, frameW, if_neg (show ¬ m.anims = 0 by omega), Int.tdiv_eq_ediv_of_nonneg (show 0 ≤ m.w by omega)]
  rw [e'] at h
  rw [e, C97_shown v c _ h]

example : place usual ⟨100, 100⟩ (drawnBox { plain 110 290 110 290 40 30 with anims := 4 }) = ⟨10, 190, 10, 30⟩ :=
  C97_drawn usual ⟨100, 100⟩ { plain 110 290 110 290 40 30 with anims := 4 } (by decide) ⟨111, 291, by decide +kernel, by decide⟩

/-- At the beginning of a screen the view is in the level, wherever it was on the screen before. -/
theorem C97_start (v : View) (c c' : Cam) (p : Option Img) (h : camera v false c p = .ok c') :
    Within c'.x v.w v.width ∧ Within c'.y v.h v.height := by
  simp only [camera, Out.bind_eq_ok, Out.ok.injEq, Bool.false_eq_true, if_false] at h
  obtain ⟨_, _, rfl⟩ := h
  exact ⟨within_start _ _, within_start _ _⟩

example : ∃ c', camera usual false ⟨5000, 3000⟩ (some (plain 500 300 500 300 32 32)) = .ok c' := ⟨⟨0, 0⟩, by decide +kernel⟩

/-- A camera that is made larger shows what is beyond the level. -/
theorem C97_violated_larger : ∃ (l : List (View × Option Img)) (v : View) (p : Option Img) (c' : Cam),
    (∀ x ∈ l, 0 < x.1.w ∧ 0 < x.1.h ∧ x.1.width = v.width ∧ x.1.height = v.height) ∧ v.w ≤ v.width ∧
    follows' ⟨0, 0⟩ (l ++ [(v, p)]) = .ok c' ∧ v.width < c'.x + v.w :=
  ⟨List.replicate 10 (⟨20, 20, 40, 40, 0, 0⟩, some (plain 30 0 30 0 8 8)), ⟨40, 20, 40, 40, 0, 0⟩, some (plain 30 0 30 0 8 8), ⟨10, 0⟩, by
    intro x hx
    have := List.eq_of_mem_replicate hx
    subst this
    decide, by decide, by decide +kernel, by decide⟩

/-- With a camera that is much wider than high the player may stand where it is never seen. -/
theorem C97_violated_flat : ∃ (v : View) (p : Img), 0 < v.w ∧ 0 < v.h ∧ v.w ≤ v.width ∧ v.h ≤ v.height ∧ p.anims ≠ 0 ∧ 0 ≤ p.x ∧ 0 ≤ p.y ∧
    0 ≤ (box p).w ∧ 0 ≤ (box p).h ∧ (box p).midX < v.width ∧ (box p).midY < v.height ∧
    ∀ n c', follows v ⟨0, 0⟩ (List.replicate n (some p)) = .ok c' → ¬ Sees c'.y v.h (box p).midY := by
  refine ⟨⟨640, 100, 640, 1000, 0, 0⟩, plain 0 140 0 140 20 20, by decide, by decide, by decide, by decide, by decide, by decide, by decide,
    by decide +kernel, by decide +kernel, by decide +kernel, by decide +kernel, ?_⟩
  have hfix : follows ⟨640, 100, 640, 1000, 0, 0⟩ ⟨0, 0⟩ [some (plain 0 140 0 140 20 20)] = .ok ⟨0, 0⟩ := by decide +kernel
  have hcam : camera ⟨640, 100, 640, 1000, 0, 0⟩ true ⟨0, 0⟩ (some (plain 0 140 0 140 20 20)) = .ok ⟨0, 0⟩ := by decide +kernel
  have hall : ∀ n, follows ⟨640, 100, 640, 1000, 0, 0⟩ ⟨0, 0⟩ (List.replicate n (some (plain 0 140 0 140 20 20))) = .ok ⟨0, 0⟩ := by
    intro n
    induction n with
    | zero => rfl
    | succ n ih => rw [List.replicate_succ, follows, hcam, Out.ok_bind, ih]
  intro n c' h
  rw [hall n] at h
  cases h
  decide +kernel

/-- While the camera moves, two images at the same place are drawn at different places of one frame. -/
theorem C97_violated_apart : ∃ (v : View) (c c' : Cam) (p m m' : Img) (b b' : Box), m.x = m'.x ∧ m.y = m'.y ∧ m.fixed = false ∧
    m'.fixed = false ∧ drawAll v c [(some p, m), (some p, m')] = .ok ([b, b'], c') ∧ b.x ≠ b'.x :=
  ⟨usual, ⟨0, 0⟩, ⟨2, 0⟩, plain 300 90 300 90 20 20, plain 200 50 200 50 20 20, plain 200 50 200 50 30 30, ⟨199, 50, 20, 20⟩, ⟨198, 50, 30, 30⟩, rfl, rfl, rfl,
    rfl, by decide +kernel, by decide⟩

/-- A player of no pieces: a division by zero. -/
theorem C97_violated_pieces (v : View) (c : Cam) (p : Img) (h : p.anims = 0) (ready : Bool) : camera v ready c (some p) = .ub := by
  simp only [camera, middle, if_pos h, Out.ub_bind]

example : camera usual true ⟨0, 0⟩ (some { plain 300 90 300 90 20 20 with anims := 0 }) = .ub := C97_violated_pieces _ _ _ rfl _

theorem C97_violated : ¬ C97_full := by
  rintro ⟨h, _⟩
  obtain ⟨l, v, p, c', h1, h2, h3, h4⟩ := C97_violated_larger
  have h5 := (h l v p c' h1 h3).1
  have h6 : 0 < c'.x := by omega
  simp only [Within] at h5
  omega

/-! ### C99 with a camera -/

/-- A click on an image that the camera has moved is lost, although no pixel of its edge is hit. -/
theorem C99_violated_camera : ∃ (v : View) (c : Cam) (m : Img) (bx by_ : Int), m.alive = true ∧ m.visible = true ∧ m.fixed = false ∧
    (place v c (drawnBox m)).has bx by_ ∧ bx ≠ (place v c (drawnBox m)).x ∧ by_ ≠ (place v c (drawnBox m)).y ∧ clicked bx by_ [m] 0 = [] :=
  ⟨usual, ⟨100, 0⟩, plain 150 20 150 20 20 20, 60, 30, rfl, rfl, rfl, by decide +kernel, by decide +kernel, by decide +kernel, by decide +kernel⟩

/-! ### C100: animated images -/

/-- C100 in full: what is shown of a picture of some pieces is one of them. -/
def C100_full : Prop :=
  ∀ (w n rate : Int) (byTime moving : Bool) (ticks : Nat) (x : Int), 1 ≤ n → n ≤ w →
    ∃ k a b, part w n rate byTime moving ticks x = .ok (a, b) ∧ Piece w n k a b

/-- An image that moves shows the next piece whenever it has gone `rate` pixels. Missing: places left of the window. -/
theorem C100_moving_partial (w n rate : Int) (ticks : Nat) (x : Int) (hn : 1 ≤ n) (hw : 0 ≤ w) (hr : 1 ≤ rate) (hx : 0 ≤ x) :
    ∃ a b, part w n rate false true ticks x = .ok (a, b) ∧ Piece w n ((x / (rate * 1048576)) % n) a b := by
  refine ⟨w / n * ((x / (rate * 1048576)) % n), w / n, ?_, piece_of hn ⟨Int.emod_nonneg _ (by omega), Int.emod_lt_of_pos _ (by omega)⟩⟩
  have h1 : x.fdiv (rate * 1048576) = x / (rate * 1048576) := Int.fdiv_eq_ediv_of_nonneg x (by omega)
  have h2 : 0 ≤ x / (rate * 1048576) := Int.ediv_nonneg hx (by omega)
  have h3 : ¬ (n = 0 ∨ rate = 0) := by omega
  simp only [part, pieceNo, Bool.false_eq_true, if_false, if_true, if_neg h3, Out.ok_bind, part_width hw hn, h1]
  rw [Int.tmod_eq_emod_of_nonneg h2]

example : ∃ a b, part 128 4 5 false true 0 (37 * 1048576) = .ok (a, b) ∧ Piece 128 4 3 a b :=
  C100_moving_partial 128 4 5 0 (37 * 1048576) (by decide) (by decide) (by decide) (by decide)

/-- The rate that counts: from 0 to 99. -/
def rateOf (rate : Int) : Int := min 99 (max 0 rate)

/-- An image that is animated by the time shows the next piece every `1000 - 10 * rate` milliseconds, where rates below 0 count as 0
and those above 99 as 99. Missing: more than 24 days. -/
theorem C100_time_partial (w n rate : Int) (moving : Bool) (ticks : Nat) (x : Int) (hn : 1 ≤ n) (hw : 0 ≤ w)
    (ht : ticks < 2147483648) :
    ∃ a b, part w n rate true moving ticks x = .ok (a, b) ∧ Piece w n (((ticks : Int) / (1000 - 10 * rateOf rate)) % n) a b := by
  have hr : 0 ≤ rateOf rate ∧ rateOf rate ≤ 99 := by unfold rateOf; omega
  have hc : (if (if rate ≥ 100 then 99 else rate) < 0 then 0 else (if rate ≥ 100 then 99 else rate)) = rateOf rate := by
    unfold rateOf; split <;> split <;> omega
  refine ⟨w / n * (((ticks : Int) / (1000 - 10 * rateOf rate)) % n), w / n, ?_,
    piece_of hn ⟨Int.emod_nonneg _ (by omega), Int.emod_lt_of_pos _ (by omega)⟩⟩
  have h2 : 0 ≤ (ticks : Int) / (1000 - 10 * rateOf rate) := Int.ediv_nonneg (by omega) (by omega)
  simp only [part, pieceNo, if_true, hc, if_neg (show ¬ (n = 0 ∨ 1000 - rateOf rate * 10 = 0) by omega), if_neg (show ¬ n = 0 by omega),
    Out.ok_bind, toInt_small ht]
  rw [Int.tdiv_eq_ediv_of_nonneg hw, Int.tdiv_eq_ediv_of_nonneg (show (0 : Int) ≤ ticks by omega), Int.mul_comm (rateOf rate) 10, Int.tmod_eq_emod_of_nonneg h2]

example : ∃ a b, part 128 4 50 true false 1600 0 = .ok (a, b) ∧ Piece 128 4 3 a b :=
  C100_time_partial 128 4 50 false 1600 0 (by decide) (by decide) (by decide)

example : ∃ a b, part 128 4 100 true false 25 0 = .ok (a, b) ∧ Piece 128 4 2 a b :=
  C100_time_partial 128 4 100 false 25 0 (by decide) (by decide) (by decide)

/-- An image at rest shows its first piece. -/
theorem C100_rest (w n rate : Int) (ticks : Nat) (x : Int) (hn : 1 ≤ n) (hw : 0 ≤ w) :
    ∃ a b, part w n rate false false ticks x = .ok (a, b) ∧ Piece w n 0 a b := by
  refine ⟨w / n * 0, w / n, ?_, piece_of hn ⟨by omega, by omega⟩⟩
  simp only [part, pieceNo, Bool.false_eq_true, if_false, Out.ok_bind, part_width hw hn]

example : ∃ a b, part 128 4 5 false false 7 (37 * 1048576) = .ok (a, b) ∧ Piece 128 4 0 a b :=
  C100_rest 128 4 5 7 (37 * 1048576) (by decide) (by decide)

/-- Left of the window, and after 24 days and some 20 hours, a part is shown that is not in the picture. -/
theorem C100_violated_outside :
    (∃ x a b, part 128 4 5 false true 0 x = .ok (a, b) ∧ a < 0) ∧ (∃ t a b, part 128 4 50 true false t 0 = .ok (a, b) ∧ a < 0) :=
  ⟨⟨-1048576, -32, 32, by decide +kernel, by decide⟩, ⟨2147484148, -64, 32, by decide +kernel, by decide⟩⟩

/-- No pieces, or a rate of 0: undefined. -/
theorem C100_violated_zero (w n rate : Int) (ticks : Nat) (x : Int) : part w 0 rate true true ticks x = .ub ∧
    part w 0 rate false true ticks x = .ub ∧ part w n 0 false true ticks x = .ub := by
  refine ⟨?_, ?_, ?_⟩
  · simp only [part, pieceNo, if_true, true_or, Out.ub_bind]
  · simp only [part, pieceNo, Bool.false_eq_true, if_false, if_true, true_or, Out.ub_bind]
  · simp only [part, pieceNo, Bool.false_eq_true, if_false, if_true, or_true, Out.ub_bind]

theorem C100_violated : ¬ C100_full := by
  intro h
  obtain ⟨k, a, b, h1, h2⟩ := h 128 4 0 false true 0 0 (by decide) (by decide)
  rw [(C100_violated_zero 128 4 0 0 0).2.2] at h1
  cases h1

end Verif.Props.Camera
