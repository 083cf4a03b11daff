import Verif.Basic
import Verif.Spec.Stage

/-!
# Model of moving and colliding images of the media plugin

`plugins/media/media.c:283-334` (boxes), `713-816` and `986-1033` (collisions), `1214-1234` (the window), `1724-1731` (a frame).

The `double`s for positions, speeds and directions are whole numbers of 2^-20 (1048576 to a pixel). Sums, differences,
`floor` and `ceil` of such numbers below 2^31 are exact, so that nothing is lost by this; a position that is no such
number is not covered. Sizes and pixels are `int`s without overflow. Images are not turned: control modes other than 1 and
4, and 1 if the player has gravity (`media.c:291-292`). Messages about collisions are noted; what a program does when it
gets them is left out.
-/

namespace Verif.Model.Stage
open Verif.Spec.Stage (Box)

/-- The part of `MediaIMG` (`media.c:94-120`) that matters here. `alive` is `ref != NULL`. -/
structure Img where
  x : Int
  y : Int
  ox : Int
  oy : Int
  w : Int
  h : Int
  anims : Int
  gravity : Int
  gspeed : Int
  mov : Int
  dir : Int
  solid : Bool
  collidable : Bool
  ghost : Bool
  fixed : Bool
  bounce : Bool
  alive : Bool
  visible : Bool
  deriving DecidableEq, Repr

/-- `(int)` of a position (`media.c:285-286`). -/
def px (p : Int) : Int := p.tdiv 1048576

/-- `floor` of a position (`media.c:733`, `740`). -/
def floorPos (p : Int) : Int := p / 1048576 * 1048576

/-- `ceil` of a position (`media.c:735`, `742`). -/
def ceilPos (p : Int) : Int := -(-p / 1048576 * 1048576)

/-- The width of one picture of the image: `m->w/(m->anims ? m->anims : 1)` (`media.c:288`, `1000-1001`). -/
def frameW (m : Img) : Int := m.w.tdiv (if m.anims = 0 then 1 else m.anims)

/-- `ctr_internal_media_image_maprect`, `media.c:283-292`, without turning. -/
def box (m : Img) : Box := ⟨px m.x, px m.y, frameW m, m.h⟩

/-- `SDL_IntersectRect` (`media.c:720`) for one direction: begin and length of what two intervals have in common. -/
def common (a la b lb : Int) : Int × Int :=
  let lo := if b > a then b else a
  let hi := if b + lb < a + la then b + lb else a + la
  (lo, hi - lo)

/-- `SDL_IntersectRect`, `media.c:720`: what two boxes have in common. -/
def intersect (r r2 : Box) : Option Box :=
  if r.w ≤ 0 ∨ r.h ≤ 0 ∨ r2.w ≤ 0 ∨ r2.h ≤ 0 then none
  else
    let a := common r.x r.w r2.x r2.w
    let b := common r.y r.h r2.y r2.h
    if a.2 ≤ 0 ∨ b.2 ≤ 0 then none else some ⟨a.1, b.1, a.2, b.2⟩

/-- `SDL_HasIntersection`, `media.c:1003`. -/
def hasIntersection (r r2 : Box) : Bool := (intersect r r2).isSome

/-- How far to go back across (`media.c:721-725`). -/
def xdepth (r r2 r3 : Box) (right : Bool) : Int :=
  if right then (if r.x > r2.x then r.x - r2.x else 0) + r3.w
  else (if r.x + r.w < r2.x + r2.w then (r2.x + r2.w) - (r.x + r.w) else 0) + r3.w

/-- How far to go back up or down (`media.c:726-730`). -/
def ydepth (r r2 r3 : Box) (down : Bool) : Int :=
  if down then (if r.y > r2.y then r.y - r2.y else 0) + r3.h
  else (if r.y + r.h < r2.y + r2.h then (r2.y + r2.h) - (r.y + r.h) else 0) + r3.h

/-- `ctr_internal_media_image_resolvecollision1`, `media.c:713-746`. -/
def resolve1 (m : Img) (r r2 : Box) (right down : Bool) : Img :=
  match intersect r r2 with
  | none => m
  | some r3 =>
    if xdepth r r2 r3 right ≤ ydepth r r2 r3 down then
      if right then { m with x := floorPos (m.x - xdepth r r2 r3 right * 1048576) }
      else { m with x := ceilPos (m.x + xdepth r r2 r3 right * 1048576) }
    else
      if down then { m with gspeed := 0, y := floorPos (m.y - ydepth r r2 r3 down * 1048576) }
      else { m with y := ceilPos (m.y + ydepth r r2 r3 down * 1048576) }

/-- What the collisions depend on besides the images: is the image the player, `CtrMediaControlMode`, `CtrMediaJump`
(`media.c:63`, `153`). -/
structure Env where
  isPlayer : Bool
  mode : Int
  jump : Int
  deriving DecidableEq, Repr

/-- The player is about to be crushed by a moving platform: the conditions of `media.c:774-781` and `791-798`, which differ
in the direction only. -/
def crushed (e : Env) (m m2 : Img) : Prop :=
  e.isPlayer ∧ e.mode = 1 ∧ m.gravity ≥ 1048576 ∧ m2.mov ≠ 0 ∧ m2.gravity = 0 ∧
    (m2.dir > 188743680 ∨ m2.dir < 188743680) ∧ m2.y < m.y ∧ e.jump = 0

instance (e : Env) (m m2 : Img) : Decidable (crushed e m m2) := by unfold crushed; infer_instance

/-- `ctr_internal_media_image_resolvecollision`, `media.c:748-816`. -/
def resolve (e : Env) (m m2 : Img) : Img :=
  let r := box m
  let rold := box { m with x := m.ox, y := m.oy }
  let r2 := box m2
  let cx1 := rold.x + rold.w.tdiv 2
  let cx2 := r2.x + r2.w.tdiv 2
  let cy1 := rold.y + rold.h.tdiv 2
  let cy2 := r2.y + r2.h.tdiv 2
  if crushed e m m2 then
    if m.x < cx2 * 1048576 then { m with x := m2.x - r.w * 1048576 } else { m with x := m2.x + r2.w * 1048576 }
  else
    let m := resolve1 m { r with y := rold.y } r2 (cx1 < cx2) (cy1 < cy2)
    resolve1 m r r2 (cx1 < cx2) (cy1 < cy2)

/-- The image comes down on the other one (`media.c:1005`). -/
def lands (m m2 : Img) : Prop :=
  m.gravity ≠ 0 ∧ m.x + frameW m * 1048576 ≥ m2.x ∧ m.x ≤ m2.x + frameW m2 * 1048576 ∧
    m.y + m.h * 1048576 ≤ m2.y + m.h.tdiv 2 * 1048576

instance (m m2 : Img) : Decidable (lands m m2) := by unfold lands; infer_instance

/-- The collision with a solid image (`media.c:1004-1021`). -/
def solidHit (e : Env) (m m2 : Img) : Img × Int :=
  let m' : Img :=
    if lands m m2 then { m with y := m2.y - m.h * 1048576 + 1048576, gspeed := 0 } else { resolve e m m2 with mov := 0 }
  let jump := if e.isPlayer ∧ e.jump = 2 then 3 else if e.isPlayer ∧ e.jump = 3 then 0 else e.jump
  (if m'.bounce then { m' with dir := ((px m'.dir + 145).tmod 360) * 1048576 } else m', jump)

/-- The image `told` gets the message that it collides with the image `of` (`media.c:1022-1029`). -/
structure Event where
  told : Nat
  of : Nat
  deriving DecidableEq, Repr

/-- The loop of `ctr_internal_media_detect_collisions`, `media.c:986-1033`, from image `j` on, for image `i` with box `r`. The
box stays as it was at the beginning. -/
def detectLoop (e : Env) (i : Nat) (r : Box) : List Img → Nat → Img → Img × List Event
  | [], _, m => (m, [])
  | m2 :: l, j, m =>
    if j = i ∨ m.fixed ∨ m2.fixed ∨ m.alive = false ∨ m2.alive = false then detectLoop e i r l (j + 1) m
    else if hasIntersection r (box m2) then
      let hit := if m2.solid ∧ m.solid = false ∧ m.ghost = false then solidHit e m m2 else (m, e.jump)
      let rest := detectLoop { e with jump := hit.2 } i r l (j + 1) hit.1
      (rest.1, (if m.collidable then [⟨i, j⟩] else []) ++ (if m2.collidable then [⟨j, i⟩] else []) ++ rest.2)
    else detectLoop e i r l (j + 1) m

/-- The collisions of image `i` in a frame (`media.c:1729-1730`). -/
def detect (e : Env) (l : List Img) (i : Nat) (m : Img) : Img × List Event := detectLoop e i (box m) l 0 m

/-- The end of `ctr_internal_media_image_calculate_motion`, `media.c:1214-1234`, for the player: it has moved in some way, and
is kept in the window. The division by `anims` is undefined for 0. -/
def keepInWindow (mode jump width height : Int) (m : Img) : Out Img :=
  if mode < 5 then
    if m.anims = 0 then .ub
    else
      let xmax := width - m.w.tdiv m.anims
      let ymax := height - m.h
      let m : Img := if m.x > xmax * 1048576 then { m with x := xmax * 1048576 } else m
      let m : Img := if m.y > ymax * 1048576 then { m with y := ymax * 1048576 } else m
      let m : Img := if m.x < 0 then { m with x := 0 } else m
      .ok (if mode ≠ 1 ∨ jump = 0 then (if m.y < 0 then { m with y := 0 } else m) else m)
  else .ok m

/-- The images that get the message that they are clicked on, in order: the loop of `ctr_internal_media_mouse_down`,
`media.c:818-856`, from image `j` on. Text fields and the end of a program within a message are left out. -/
def clicked (bx by_ : Int) : List Img → Nat → List Nat
  | [], _ => []
  | m :: l, j =>
    if m.x < bx * 1048576 ∧ m.y < by_ * 1048576 ∧ m.x + frameW m * 1048576 > bx * 1048576 ∧ m.y + m.h * 1048576 > by_ * 1048576 ∧ m.alive
    then j :: clicked bx by_ l (j + 1)
    else clicked bx by_ l (j + 1)

end Verif.Model.Stage
