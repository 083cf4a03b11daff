import Verif.Basic
import Verif.Spec.Keys

/-!
# Model of the arrow keys of the media plugin

`plugins/media/media.c:858-972` and the cases of `1457-1475`, `1577-1640`, `1706-1722` of the loop of the screen. Text fields only
matter in that they take the keys; what the keys do to their text is in `Verif.Model.Editor`. A text field keeps the focus once
it has it (`829`). Touch screens and game pads call the same functions and are left out.
-/

namespace Verif.Model.Keys
open Verif.Spec.Keys (Key Ev)

/-- `dir` and `c4speed` (`media.c:1359`), `CtrMediaRotation` (`62`), `CtrMediaJump` (`153`), `CtrMediaInputFreeze` (`71`), a text field has
the focus (`focusObject`), `CtrMediaSelectStart`; `seen` is the direction the player has (`1713`), −1 as in `2357` if none yet. -/
structure St where
  dir : Int
  speed : Int
  rotation : Int
  jump : Int
  frozen : Bool
  focus : Bool
  select : Bool
  seen : Int
  deriving DecidableEq, Repr

/-- `media.c:1359-1399`. -/
def init : St := ⟨-1, 0, 0, 0, false, false, false, -1⟩

/-- `CtrMediaControlMode`, whether there is a player and whether its gravity is 1 or more. -/
structure Env where
  mode : Int
  player : Bool
  falls : Bool
  deriving DecidableEq, Repr

/-- A key press reaches the player: `media.c:859`, `867`. -/
def reaches (v : Env) (s : St) : Prop := s.focus = false ∧ v.player = true ∧ s.frozen = false

instance (v : Env) (s : St) : Decidable (reaches v s) := by unfold reaches; infer_instance

/-- `ctr_internal_media_keydown_left`, `media.c:858-876`. -/
def downLeft (v : Env) (s : St) : St :=
  if reaches v s then
    if v.mode = 1 ∨ v.mode = 3 then { s with dir := 180 } else if v.mode = 4 then { s with rotation := 5 } else s
  else s

/-- `ctr_internal_media_keydown_right`, `media.c:878-898`. -/
def downRight (v : Env) (s : St) : St :=
  if reaches v s then
    if v.mode = 1 ∨ v.mode = 3 then { s with dir := 0 } else if v.mode = 4 then { s with rotation := -5 } else s
  else s

/-- `ctr_internal_media_keydown_down`, `media.c:900-919`. -/
def downDown (v : Env) (s : St) : St :=
  if reaches v s then
    if v.falls = false ∧ (v.mode = 1 ∨ v.mode = 2) then { s with dir := 270 } else if v.mode = 4 then { s with speed := -1 } else s
  else s

/-- `ctr_internal_media_keydown_up`, `media.c:941-972`. -/
def downUp (v : Env) (s : St) : St :=
  if reaches v s then
    if v.falls = true ∧ v.mode = 1 then (if s.jump = 0 then { s with jump := 1 } else s)
    else if v.mode = 1 ∨ v.mode = 2 then { s with dir := 90 }
    else if v.mode = 4 then { s with speed := 1 } else s
  else s

/-- `ctr_internal_media_keyup_right`, `media.c:933-939`. -/
def upAcross (v : Env) (s : St) : St := if v.mode ≠ 4 then { s with dir := -1 } else { s with rotation := 0 }

/-- `ctr_internal_media_keyup_down`, `media.c:921-931`. -/
def upDown (v : Env) (s : St) : St :=
  if v.mode ≠ 4 then (if v.player = true ∧ v.falls = false then { s with dir := -1 } else s) else { s with speed := 0 }

/-- The events: `media.c:1635-1640`, `1656`, `1580-1592`, `1601-1606`, `1464-1472`, `828-841`, `2530`; a frame: `1706-1722` (the jump is
begun, the jump height being given; how it ends is left to `Verif.Model.Stage`). Releasing a mouse button while something is being selected reads the text
field that has the focus; without one this is a read from address 0 (`196`, `1466-1467`). -/
def step (v : Env) (s : St) : Ev → Out St
  | .press .left => .ok (downLeft v s)
  | .press .right => .ok (downRight v s)
  | .press .up => .ok (downUp v s)
  | .press .down => .ok (downDown v s)
  | .release .left => .ok (upAcross v s)
  | .release .right => .ok (upAcross v s)
  | .release .up => .ok (upDown v s)
  | .release .down => .ok (upDown v s)
  | .freeze b => .ok { s with frozen := b }
  | .shiftDown => .ok { s with select := true }
  | .shiftUp => .ok { s with select := false }
  | .mouseDown field twice => .ok (if field then { s with focus := true, select := !twice } else s)
  | .mouseUp => if s.select then (if s.focus then .ok { s with select := false } else .ub) else .ok s
  | .frame =>
    let d := s.dir + s.rotation
    let dir := if v.mode = 4 then (if d > 359 then 0 else if d < 0 then 359 else d) else s.dir
    .ok { s with dir := dir, seen := if dir > -1 ∧ v.player = true then dir else s.seen,
                 jump := if v.player = true ∧ s.jump = 1 then 2 else s.jump }

/-- A history. -/
def run (v : Env) : St → List Ev → Out St
  | s, [] => .ok s
  | s, e :: h => step v s e >>= fun s => run v s h

end Verif.Model.Keys
