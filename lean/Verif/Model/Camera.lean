import Verif.Model.Stage

/-!
# Model of the camera and of animated images of the media plugin

`plugins/media/media.c:692-711` (pieces of a picture), `1035-1093` (camera), `1095-1098`, `1412-1414`, `1724-1740` (a frame).
Positions as in `Verif.Model.Stage`.
-/

namespace Verif.Model.Camera
open Verif.Spec.Stage (Box)
open Verif.Model.Stage (Img px frameW)

/-- `static SDL_Rect camera`, `media.c:1036`: the place of the view. -/
structure Cam where
  x : Int
  y : Int
  deriving DecidableEq, Repr

/-- `CtrMediaCamera` (`media.c:80`), `windowWidth`, `windowHeight` (`150-151`), `CtrMediaViewport` (`81`). -/
structure View where
  w : Int
  h : Int
  width : Int
  height : Int
  left : Int
  top : Int
  deriving DecidableEq, Repr

/-- `int border = CtrMediaCamera.w * 0.3`, `media.c:1037`. The product of an `int` and the `double` 0.3 is rounded to the `double`
nearest to it, which is the whole number if three tenths is one, so that the integral part is that of the exact product. -/
def border (w : Int) : Int := (3 * w).tdiv 10

/-- The middle of the player, `media.c:1044-1049`. The division by the number of pieces is undefined for 0. -/
def middle : Option Img → Out (Int × Int)
  | none => .ok (0, 0)
  | some p =>
    if p.anims = 0 then .ub
    else .ok (px (p.x + ((p.w.tdiv p.anims).tdiv 2) * 1048576), px (p.y + p.h.tdiv 2 * 1048576))

/-- One direction of `media.c:1050-1061`: the view begins at `c`, is `size` of `whole`. -/
def follow (c size whole b mid : Int) : Int :=
  let first := c + b
  let last := c + size - b
  let c1 := if mid > last ∧ c < whole - size then c + 1 else c
  if mid < first ∧ c1 > 0 then c1 - 1 else c1

/-- `ctr_internal_media_camera`, `media.c:1035-1069`: the new place of the view. `ready` is `CtrMediaCameraInit`. -/
def camera (v : View) (ready : Bool) (c : Cam) (player : Option Img) : Out Cam :=
  middle player >>= fun p =>
    .ok (if ready then ⟨follow c.x v.w v.width (border v.w) p.1, follow c.y v.h v.height (border v.w) p.2⟩ else ⟨0, 0⟩)

/-- Where a box is drawn, `media.c:1079-1092`. -/
def place (v : View) (c : Cam) (r : Box) : Box :=
  let x := r.x - c.x
  let y := r.y - c.y
  let gone := x > v.w ∨ x + r.w < 0 ∨ y > v.h ∨ y + r.h < 0
  ⟨x + v.left, y + v.top, if gone then 0 else r.w, if gone then 0 else r.h⟩

/-- `r->w`, `media.c:705`: the width of what is drawn. -/
def drawnW (m : Img) : Int := if m.anims > 0 ∧ m.w > m.anims then m.w.tdiv m.anims else m.w

/-- `media.c:1733-1734`, `705-706`: the box of an image that is drawn. -/
def drawnBox (m : Img) : Box := ⟨px m.x, px m.y, drawnW m, m.h⟩

/-- The images of a frame that are drawn, `media.c:1724-1740` and `1096-1098`: each with the player as it is by then. Fixed images
are drawn where they are, all other move the camera first. -/
def drawAll (v : View) : Cam → List (Option Img × Img) → Out (List Box × Cam)
  | c, [] => .ok ([], c)
  | c, (p, m) :: l =>
    if m.fixed then drawAll v c l >>= fun r => .ok (drawnBox m :: r.1, r.2)
    else
      camera v true c p >>= fun c1 =>
        drawAll v c1 l >>= fun r => .ok (place v c1 (drawnBox m) :: r.1, r.2)

/-- A frame: the camera moves for the background (`media.c:1412-1414`), and then the images are drawn. -/
def frame (v : View) (ready : Bool) (c : Cam) (player : Option Img) (l : List (Option Img × Img)) : Out (List Box × Cam) :=
  camera v ready c player >>= fun c1 => drawAll v c1 l

/-- Everything that moves the view while a screen is shown: calls with the player as it is by then. The first one begins at
the corner (`media.c:1062-1069`, `1364`). -/
def follows (v : View) : Cam → List (Option Img) → Out Cam
  | c, [] => .ok c
  | c, p :: l => camera v true c p >>= fun c1 => follows v c1 l

/-- Conversion of the number of milliseconds to `int` (`media.c:700`). -/
def toInt (ticks : Nat) : Int := (BitVec.ofNat 32 ticks).toInt

/-- `step_offset`, `media.c:696-704`: which piece is shown, with the time (`nodirani == 2`) or with the place. Undefined: no pieces,
a division by zero, and a rate of 0 (conversion of an infinity or NaN to `int`). -/
def pieceNo (n rate : Int) (byTime moving : Bool) (ticks : Nat) (x : Int) : Out Int :=
  if byTime then
    let rate := if rate ≥ 100 then 99 else rate
    let rate := if rate < 0 then 0 else rate
    if n = 0 ∨ 1000 - rate * 10 = 0 then .ub else .ok (((toInt ticks).tdiv (1000 - rate * 10)).tmod n)
  else if moving then
    if n = 0 ∨ rate = 0 then .ub else .ok ((x.fdiv (rate * 1048576)).tmod n)
  else .ok 0

/-- `ctr_internal_media_anim_frames`, `media.c:692-711`: left and width of the part of the picture that is shown. -/
def part (w n rate : Int) (byTime moving : Bool) (ticks : Nat) (x : Int) : Out (Int × Int) :=
  pieceNo n rate byTime moving ticks x >>= fun k =>
    let width := w.tdiv (if n = 0 then 1 else n)
    .ok (width * k, width)

end Verif.Model.Camera
