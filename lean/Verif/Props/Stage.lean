import Verif.Lemmas.Stage

/-!
# Images that collide, stay in the window and are clicked on: C95, C96, C99
-/

namespace Verif.Props.Stage
open Verif Verif.Spec.Stage Verif.Model.Stage Verif.Lemmas.Stage

/-- An image that takes part in collisions. -/
def Active (m : Img) : Prop := m.fixed = false ∧ m.alive = true

/-- An image that solid images stop. -/
def Stopped (m : Img) : Prop := m.solid = false ∧ m.ghost = false

/-- A position on the grid of pixels. -/
def OnGrid (p : Int) : Prop := ∃ k, p = k * 1048576

/-- Apart, or the one (which falls) standing on the other. -/
def ApartOrOn (m m2 : Img) : Prop := ¬ Meet (box m) (box m2) ∨ (m.gravity ≠ 0 ∧ StandsOn (box m) (box m2))

/-- C95 in full: when the collisions of an image have been dealt with, it is not inside any solid image. -/
def C95_full : Prop :=
  ∀ (e : Env) (l : List Img) (i : Nat) (m : Img), Active m → Stopped m →
    ∀ k m2, l[k]? = some m2 → k ≠ i → Active m2 → m2.solid = true → ApartOrOn (detect e l i m).1 m2

/-- C95 for one solid image, on the grid, that the image is not larger than and whose middle it has not passed since the last
frame, all other solid images being elsewhere: whatever the speeds, directions and places, the image is outside it or stands
on it. Missing: images larger than the solid one, several solid images at once, and long leaps. -/
theorem C95_outside_partial (e : Env) (l : List Img) (i : Nat) (m : Img) (hm : Active m) (hs : Stopped m)
    (k : Nat) (m2 : Img) (hk : l[k]? = some m2) (hki : k ≠ i) (hm2 : Active m2) (hsolid : m2.solid = true)
    (hothers : ∀ k' m3, l[k']? = some m3 → k' ≠ k → k' ≠ i → Active m3 → m3.solid = true → ¬ Meet (box m) (box m3))
    (hfit : Fits (box m) (box m2)) (hside : SameSide (box { m with x := m.ox, y := m.oy }) (box m) (box m2))
    (hgrid : OnGrid m2.x ∧ OnGrid m2.y) : ApartOrOn (detect e l i m).1 m2 := by
  by_cases hmeet : Meet (box m) (box m2)
  · obtain ⟨⟨a, ha⟩, b, hb⟩ := hgrid
    rw [detect, detectLoop_one e i (box m) l 0 m m2 k hk (by omega) ⟨hm.1, hm.2, hs.1, hs.2⟩ ⟨hm2.1, hm2.2, hsolid⟩
      (fun k' m3 h1 h2 h3 h4 h5 h6 => hothers k' m3 h1 h2 (by omega) ⟨h4, h5⟩ h6) hmeet]
    exact solidHit_settled e m m2 hmeet hfit hside (by rw [ha]; exact whole_mul a) (by rw [hb]; exact whole_mul b)
  · left
    rw [detect, detectLoop_skip e i (box m) l 0 m fun k' m3 h1 h2 h3 h4 h5 hc => by
      by_cases hkk : k' = k
      · subst hkk
        rw [h1] at hk
        cases hk
        exact hmeet hc
      · exact hothers k' m3 h1 hkk (by omega) ⟨h3, h4⟩ h5 hc]
    exact hmeet

/-- An image of this size at these pixels, where it was before, not special in any way. -/
def plain (x y ox oy w h : Int) : Img :=
  ⟨x * 1048576, y * 1048576, ox * 1048576, oy * 1048576, w, h, 1, 0, 0, 0, 0, false, true, false, false, false, true, true⟩

/-- A wall of this size at these pixels. -/
def wall (x y w h : Int) : Img := { plain x y x y w h with solid := true, collidable := false }

/-- Nobody plays. -/
def alone : Env := ⟨false, 0, 0⟩

/-- A ball of 10 pixels runs into a wall from the left. It is moved back by the common 5 pixels twice. -/
example : Meet (box (plain 95 20 85 20 10 10)) (box (wall 100 0 40 200)) ∧ (detect alone [plain 95 20 85 20 10 10, wall 100 0 40 200] 0
    (plain 95 20 85 20 10 10)).1.x = 85 * 1048576 := by
  refine ⟨⟨100, 20, by decide +kernel, by decide +kernel⟩, by decide +kernel⟩

example : ApartOrOn (detect alone [plain 95 20 85 20 10 10, wall 100 0 40 200, wall 300 0 5 5] 0 (plain 95 20 85 20 10 10)).1
    (wall 100 0 40 200) :=
  C95_outside_partial alone [plain 95 20 85 20 10 10, wall 100 0 40 200, wall 300 0 5 5] 0 (plain 95 20 85 20 10 10) ⟨rfl, rfl⟩ ⟨rfl, rfl⟩
    1 (wall 100 0 40 200) rfl (by decide) ⟨rfl, rfl⟩ rfl
    (by
      intro k' m3 h1 h2 h3 _ _
      match k', h1 with
      | 2, h1 =>
        simp at h1
        subst h1
        rintro ⟨a, b, h4, h5⟩
        simp [Box.has, box, wall, plain, px, frameW] at h4 h5
        omega)
    (by decide +kernel) (by decide +kernel) ⟨⟨100, rfl⟩, ⟨0, rfl⟩⟩

/-- An image without solid images at its place stays where it went. -/
theorem C95_free (e : Env) (l : List Img) (i : Nat) (m : Img)
    (h : ∀ k m2, l[k]? = some m2 → k ≠ i → Active m2 → m2.solid = true → ¬ Meet (box m) (box m2)) : (detect e l i m).1 = m :=
  detectLoop_skip e i (box m) l 0 m fun k m2 h1 h2 h3 h4 h5 => h k m2 h1 (by omega) ⟨h3, h4⟩ h5

example : (detect alone [plain 5 5 0 0 10 10, plain 8 8 8 8 10 10, wall 100 0 40 200] 0 (plain 5 5 0 0 10 10)).1 = plain 5 5 0 0 10 10 :=
  C95_free alone _ 0 _ (by
    intro k m2 h1 h2 _ h3
    match k, h1 with
    | 1, h1 =>
      simp at h1
      subst h1
      simp [plain] at h3
    | 2, h1 =>
      simp at h1
      subst h1
      rintro ⟨a, b, h4, h5⟩
      simp [Box.has, box, wall, plain, px, frameW] at h4 h5
      omega)

/-- Who is told of a collision: in the turn of image `i`, it is told of every image that takes part and shares a pixel with it, and
each of these is told of it, if they want to know; nobody is told of anything else. -/
theorem C95_told (e : Env) (l : List Img) (i : Nat) (m : Img) (hm : Active m) (told of : Nat) :
    (⟨told, of⟩ : Event) ∈ (detect e l i m).2 ↔
      (told = i ∧ m.collidable = true ∧ ∃ m2, l[of]? = some m2 ∧ of ≠ i ∧ Active m2 ∧ Meet (box m) (box m2)) ∨
      (of = i ∧ ∃ m2, l[told]? = some m2 ∧ m2.collidable = true ∧ told ≠ i ∧ Active m2 ∧ Meet (box m) (box m2)) := by
  rw [detect, detectLoop_events e i (box m) l 0 m hm]
  simp only [Touches, Event.mk.injEq, Nat.zero_add]
  constructor
  · rintro ⟨k, m2, h1, ⟨h2, h3, h4, h5⟩, (⟨⟨h6, h7⟩, h8⟩ | ⟨⟨h6, h7⟩, h8⟩)⟩
    · subst h7
      exact Or.inl ⟨h6, h8, m2, h1, h2, ⟨h3, h4⟩, h5⟩
    · subst h6
      exact Or.inr ⟨h7, m2, h1, h8, h2, ⟨h3, h4⟩, h5⟩
  · rintro (⟨h1, h2, m2, h3, h4, h5, h6⟩ | ⟨h1, m2, h2, h3, h4, h5, h6⟩)
    · exact ⟨of, m2, h3, ⟨h4, h5.1, h5.2, h6⟩, Or.inl ⟨⟨h1, rfl⟩, h2⟩⟩
    · exact ⟨told, m2, h2, ⟨h4, h5.1, h5.2, h6⟩, Or.inr ⟨⟨rfl, h1⟩, h3⟩⟩

example : (detect alone [plain 5 5 0 0 10 10, plain 8 8 8 8 10 10, wall 9 9 40 200] 0 (plain 5 5 0 0 10 10)).2 =
    [⟨0, 1⟩, ⟨1, 0⟩, ⟨0, 2⟩] := by decide +kernel

/-- An image larger than the solid one stays inside it: it is moved by the width of the solid image only. -/
theorem C95_violated_large : ∃ (e : Env) (l : List Img) (i : Nat) (m : Img) (k : Nat) (m2 : Img), Active m ∧ Stopped m ∧
    l[k]? = some m2 ∧ k ≠ i ∧ Active m2 ∧ m2.solid = true ∧ SameSide (box { m with x := m.ox, y := m.oy }) (box m) (box m2) ∧
    ¬ ApartOrOn (detect e l i m).1 m2 := by
  refine ⟨alone, [plain 0 0 0 0 100 100, wall 60 0 10 100], 0, plain 0 0 0 0 100 100, 1, wall 60 0 10 100, ⟨rfl, rfl⟩, ⟨rfl, rfl⟩, rfl,
    by decide, ⟨rfl, rfl⟩, rfl, by decide +kernel, ?_⟩
  rintro (h | h)
  · exact h ⟨60, 50, by decide +kernel, by decide +kernel⟩
  · exact h.1 (by decide +kernel)

/-- Two walls at once: the image is corrected for each of them as if it still were where it was before, and ends up in a third
that it had not even touched. -/
theorem C95_violated_two : ∃ (e : Env) (l : List Img) (i : Nat) (m : Img) (k : Nat) (m2 : Img), Active m ∧ Stopped m ∧
    l[k]? = some m2 ∧ k ≠ i ∧ Active m2 ∧ m2.solid = true ∧ Fits (box m) (box m2) ∧
    SameSide (box { m with x := m.ox, y := m.oy }) (box m) (box m2) ∧ ¬ Meet (box m) (box m2) ∧ ¬ ApartOrOn (detect e l i m).1 m2 := by
  refine ⟨alone, [plain 95 95 85 95 10 10, wall 100 50 40 50, wall 100 100 40 50, wall 60 50 28 100], 0, plain 95 95 85 95 10 10, 3,
    wall 60 50 28 100, ⟨rfl, rfl⟩, ⟨rfl, rfl⟩, rfl, by decide, ⟨rfl, rfl⟩, rfl, by decide +kernel, by decide +kernel, ?_, ?_⟩
  · rintro ⟨a, b, h4, h5⟩
    simp [Box.has, box, wall, plain, px, frameW] at h4 h5
    omega
  · rintro (h | h)
    · exact h ⟨85, 96, by decide +kernel, by decide +kernel⟩
    · exact h.1 (by decide +kernel)

/-- An image that runs into a wall may end up further away from it than it was before it moved: it is moved back twice. -/
theorem C95_violated_back : ∃ (e : Env) (m m2 : Img), Active m ∧ Stopped m ∧ Active m2 ∧ m2.solid = true ∧ Fits (box m) (box m2) ∧
    m.oy = m.y ∧ m.ox < m.x ∧ (box { m with x := m.ox, y := m.oy }).x + (box m).w < (box m2).x ∧ (detect e [m, m2] 0 m).1.x < m.ox :=
  ⟨alone, plain 95 20 88 20 10 10, wall 100 0 40 200, ⟨rfl, rfl⟩, ⟨rfl, rfl⟩, ⟨rfl, rfl⟩, rfl, by decide +kernel, rfl, by decide +kernel,
    by decide +kernel, by decide +kernel⟩

theorem C95_violated : ¬ C95_full := by
  intro h
  obtain ⟨e, l, i, m, k, m2, h2, h3, h4, h5, h6, h7, _, h8⟩ := C95_violated_large
  exact h8 (h e l i m h2 h3 k m2 h4 h5 h6 h7)

/-! ### C96 -/

/-- C96 in full: after its turn in a frame, whatever the motion, the player is in the window. -/
def C96_full : Prop :=
  ∀ (e : Env) (l : List Img) (i : Nat) (width height : Int) (m : Img), e.mode < 5 → (box m).w ≤ width →
    (box m).h ≤ height → (e.mode ≠ 1 ∨ e.jump = 0) →
    ∃ m', keepInWindow e.mode e.jump width height m = .ok m' ∧ Inside (box (detect e l i m').1) width height

/-- C96 for a player with at least one piece: wherever it has been moved to (by keys, gravity, a platform or the program), it is
in the window, except that a jump may lead it beyond the top. Missing: the collisions afterwards, see `C96_free_partial`. -/
theorem C96_window_partial (mode jump width height : Int) (m : Img) (hmode : mode < 5)
    (hfit : (box m).w ≤ width ∧ (box m).h ≤ height) (ha : m.anims ≠ 0) :
    ∃ m', keepInWindow mode jump width height m = .ok m' ∧ (box m').w = (box m).w ∧ (box m').h = (box m).h ∧
      0 ≤ (box m').x ∧ (box m').x + (box m').w ≤ width ∧ (box m').y + (box m').h ≤ height ∧
      ((mode ≠ 1 ∨ jump = 0) → Inside (box m') width height) := by
  have hok : ∃ m', keepInWindow mode jump width height m = .ok m' := by
    simp only [keepInWindow, if_pos hmode, if_neg ha]
    exact ⟨_, rfl⟩
  obtain ⟨m', hm'⟩ := hok
  obtain ⟨h1, h2, h3, h4, h5, h6⟩ := keepInWindow_ok mode jump width height m m' hmode hm' hfit
  exact ⟨m', hm', h1, h2, h3, h4, h5, fun hc => ⟨h3, h4, h6 hc, h5⟩⟩

example : ∃ m', keepInWindow 1 0 640 480 (plain 700 (-3) 630 0 32 32) = .ok m' ∧ m'.x = 608 * 1048576 ∧ m'.y = 0 :=
  ⟨_, rfl, by decide +kernel, by decide +kernel⟩

example : ∃ m', keepInWindow 1 0 640 480 (plain 700 (-3) 630 0 32 32) = .ok m' ∧ Inside (box m') 640 480 := by
  obtain ⟨m', h1, _, _, _, _, _, h2⟩ := C96_window_partial 1 0 640 480 (plain 700 (-3) 630 0 32 32) (by decide) (by decide +kernel)
    (by decide)
  exact ⟨m', h1, h2 (Or.inr rfl)⟩

/-- A player that is in the window already stays where it is. -/
theorem C96_still (mode jump width height : Int) (m : Img) (ha : m.anims ≠ 0)
    (hx : 0 ≤ m.x ∧ m.x ≤ (width - (box m).w) * 1048576) (hy : 0 ≤ m.y ∧ m.y ≤ (height - (box m).h) * 1048576) :
    keepInWindow mode jump width height m = .ok m := by
  have hw : m.w.tdiv m.anims = (box m).w := by simp [box, frameW, ha]
  have hh : m.h = (box m).h := rfl
  simp only [keepInWindow, if_neg ha, hw]
  rw [← hh] at hy
  simp only [if_neg (show ¬ m.x > (width - (box m).w) * 1048576 by omega), if_neg (show ¬ m.y > (height - m.h) * 1048576 by omega),
    if_neg (show ¬ m.x < 0 by omega), if_neg (show ¬ m.y < 0 by omega), ite_self]

example : keepInWindow 1 0 640 480 (plain 600 40 630 0 32 32) = .ok (plain 600 40 630 0 32 32) :=
  C96_still 1 0 640 480 _ (by decide) (by decide +kernel) (by decide +kernel)

/-- C96 for the whole turn: a player that touches no solid image afterwards is in the window. Missing: solid images. -/
theorem C96_free_partial (e : Env) (l : List Img) (i : Nat) (width height : Int) (m : Img) (hmode : e.mode < 5)
    (hfit : (box m).w ≤ width ∧ (box m).h ≤ height) (ha : m.anims ≠ 0)
    (hj : e.mode ≠ 1 ∨ e.jump = 0) :
    ∃ m', keepInWindow e.mode e.jump width height m = .ok m' ∧
      ((∀ k m2, l[k]? = some m2 → k ≠ i → Active m2 → m2.solid = true → ¬ Meet (box m') (box m2)) →
        Inside (box (detect e l i m').1) width height) := by
  obtain ⟨m', h1, _, _, _, _, _, h2⟩ := C96_window_partial e.mode e.jump width height m hmode hfit ha
  refine ⟨m', h1, fun hfree => ?_⟩
  rw [C95_free e l i m' hfree]
  exact h2 hj

example : ∃ m', keepInWindow 1 0 640 480 (plain 700 (-3) 630 0 32 32) = .ok m' ∧
    Inside (box (detect ⟨true, 1, 0⟩ [plain 700 (-3) 630 0 32 32, wall 0 400 640 80] 0 m').1) 640 480 := by
  obtain ⟨m', h1, h2⟩ := C96_free_partial ⟨true, 1, 0⟩ [plain 700 (-3) 630 0 32 32, wall 0 400 640 80] 0 640 480 (plain 700 (-3) 630 0 32 32)
    (by decide) (by decide +kernel) (by decide) (Or.inr rfl)
  refine ⟨m', h1, h2 ?_⟩
  have : m' = plain 608 0 630 0 32 32 := by
    have h3 : keepInWindow 1 0 640 480 (plain 700 (-3) 630 0 32 32) = .ok (plain 608 0 630 0 32 32) := by decide +kernel
    have h4 := h1.symm.trans h3
    simpa using h4
  subst this
  intro k m2 h5 h6 _ _
  match k, h5 with
  | 1, h5 =>
    simp at h5
    subst h5
    rintro ⟨a, b, h7, h8⟩
    simp [Box.has, box, wall, plain, px, frameW] at h7 h8
    omega

/-- A solid image pushes the player out of the window. -/
theorem C96_violated_pushed : ∃ (e : Env) (l : List Img) (m m' : Img), e.mode < 5 ∧ (e.mode ≠ 1 ∨ e.jump = 0) ∧ m.anims ≠ 0 ∧
    keepInWindow e.mode e.jump 640 480 m = .ok m' ∧ Inside (box m') 640 480 ∧ ¬ Inside (box (detect e l 0 m').1) 640 480 := by
  exact ⟨⟨true, 1, 0⟩, [plain 0 100 0 100 32 32, wall 20 50 100 100], plain 0 100 0 100 32 32, plain 0 100 0 100 32 32, by decide, by decide, by decide,
    by decide +kernel, by decide +kernel, by decide +kernel⟩

/-- A player of no pieces: a division by zero. -/
theorem C96_violated_pieces (mode jump width height : Int) (m : Img) (hmode : mode < 5) (ha : m.anims = 0) :
    keepInWindow mode jump width height m = .ub := by
  simp only [keepInWindow, if_pos hmode, if_pos ha]

example : keepInWindow 1 0 640 480 { plain 0 100 0 100 32 32 with anims := 0 } = .ub :=
  C96_violated_pieces 1 0 640 480 _ (by decide) rfl

theorem C96_violated : ¬ C96_full := by
  intro h
  obtain ⟨e, l, m, m', h1, h2, h3, h4, h5, h6⟩ := C96_violated_pushed
  have hb : (box m).w = (box m').w ∧ (box m).h = (box m').h := by
    simp only [keepInWindow, if_pos h1, if_neg h3, Out.ok.injEq] at h4
    subst h4
    constructor <;> ((repeat' split) <;> rfl)
  simp only [Inside] at h5
  obtain ⟨m'', h7, h8⟩ := h e l 0 640 480 m h1 (by omega) (by omega) h2
  rw [h4] at h7
  cases h7
  exact h6 h8

/-! ### C99 -/

/-- C99 in full: the images that are told of a click are those that are shown at that pixel. -/
def C99_full : Prop :=
  ∀ (l : List Img) (bx by_ : Int) (k : Nat),
    k ∈ clicked bx by_ l 0 ↔ ∃ m, l[k]? = some m ∧ m.alive = true ∧ m.visible = true ∧ (box m).has bx by_

/-- C99 for images on the grid: exactly those are told that cover the pixel other than with their first column or row.
Missing: the first column and row; images that are hidden are told as well, and the camera is not taken into account. -/
theorem C99_grid_partial (l : List Img) (hgrid : ∀ m ∈ l, OnGrid m.x ∧ OnGrid m.y) (bx by_ : Int) (k : Nat) :
    k ∈ clicked bx by_ l 0 ↔
      ∃ m, l[k]? = some m ∧ m.alive = true ∧ (box m).has bx by_ ∧ bx ≠ (box m).x ∧ by_ ≠ (box m).y := by
  rw [clicked_mem]
  have hh : ∀ m ∈ l, (Hit bx by_ m ↔ ((box m).has bx by_ ∧ bx ≠ (box m).x ∧ by_ ≠ (box m).y ∧ m.alive = true)) := by
    intro m hm
    obtain ⟨⟨a, ha⟩, b, hb⟩ := hgrid m hm
    exact hit_whole bx by_ m (by rw [ha]; exact whole_mul a) (by rw [hb]; exact whole_mul b)
  constructor
  · rintro ⟨k', m, h1, h2, h3⟩
    rw [hh m (List.mem_of_getElem? h1)] at h3
    refine ⟨m, ?_, h3.2.2.2, h3.1, h3.2.1, h3.2.2.1⟩
    rw [h2, Nat.zero_add]
    exact h1
  · rintro ⟨m, h1, h2, h3, h4, h5⟩
    exact ⟨k, m, h1, by omega, (hh m (List.mem_of_getElem? h1)).2 ⟨h3, h4, h5, h2⟩⟩

example : clicked 10 10 [plain 5 5 0 0 10 10, plain 10 8 8 8 10 10, plain 8 8 8 8 10 10] 0 = [0, 2] := by decide +kernel

example : ∀ m ∈ [plain 5 5 0 0 10 10, plain 10 8 8 8 10 10], OnGrid m.x ∧ OnGrid m.y := by
  intro m hm
  simp only [List.mem_cons, List.not_mem_nil, or_false] at hm
  rcases hm with rfl | rfl
  · exact ⟨⟨5, rfl⟩, ⟨5, rfl⟩⟩
  · exact ⟨⟨10, rfl⟩, ⟨8, rfl⟩⟩

/-- C99 for images between pixels: an image is told if the pixel is in it, but in its first column or row; an image that is told
covers the pixel or the one before it. -/
theorem C99_near_partial (l : List Img) (bx by_ : Int) (k : Nat) (m : Img) (hk : l[k]? = some m) (h0 : 0 ≤ m.x ∧ 0 ≤ m.y) :
    (m.alive = true → (box m).has bx by_ → bx ≠ (box m).x → by_ ≠ (box m).y → k ∈ clicked bx by_ l 0) ∧
    (k ∈ clicked bx by_ l 0 → m.alive = true ∧
      ((box m).has bx by_ ∨ (box m).has (bx - 1) by_ ∨ (box m).has bx (by_ - 1) ∨ (box m).has (bx - 1) (by_ - 1))) := by
  constructor
  · intro h1 h2 h3 h4
    rw [clicked_mem]
    exact ⟨k, m, hk, by omega, hit_inner bx by_ m h0 h1 ⟨h2, h3, h4⟩⟩
  · rw [clicked_mem]
    rintro ⟨k', m', h1, h2, h3⟩
    rw [Nat.zero_add] at h2
    subst h2
    rw [hk] at h1
    cases h1
    have h4 := hit_near bx by_ m h0 h3
    refine ⟨h4.2.2.2.2, ?_⟩
    simp only [Box.has]
    omega

example : 0 ∈ clicked 8 8 [{ plain 5 5 0 0 10 10 with x := 5 * 1048576 + 1000 }] 0 :=
  (C99_near_partial _ 8 8 0 _ rfl (by decide +kernel)).1 rfl (by decide +kernel) (by decide +kernel) (by decide +kernel)

/-- The images are told one after the other, in the order in which they were made, each of them once. -/
theorem C99_order (l : List Img) (bx by_ : Int) : (clicked bx by_ l 0).Pairwise (· < ·) := clicked_sorted bx by_ l 0

example : (clicked 10 10 [plain 5 5 0 0 10 10, plain 10 8 8 8 10 10, plain 8 8 8 8 10 10] 0).length = 2 := by decide +kernel

/-- A click on the first column of an image is lost. -/
theorem C99_violated_edge : ∃ (m : Img) (bx by_ : Int), m.alive = true ∧ m.visible = true ∧ (box m).has bx by_ ∧ clicked bx by_ [m] 0 = [] :=
  ⟨plain 5 5 5 5 10 10, 5, 9, rfl, rfl, by decide +kernel, by decide +kernel⟩

/-- An image that is not shown is told of clicks. -/
theorem C99_violated_hidden : ∃ (m : Img) (bx by_ : Int), m.visible = false ∧ 0 ∈ clicked bx by_ [m] 0 :=
  ⟨{ plain 5 5 5 5 10 10 with visible := false }, 7, 9, rfl, by decide +kernel⟩

theorem C99_violated : ¬ C99_full := by
  intro h
  obtain ⟨m, bx, by_, h1, h2⟩ := C99_violated_hidden
  obtain ⟨m', h3, _, h4, _⟩ := (h [m] bx by_ 0).1 h2
  simp at h3
  subst h3
  rw [h1] at h4
  cases h4

end Verif.Props.Stage
