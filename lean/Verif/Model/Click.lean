import Verif.Model.Editor

/-!
# Clicks into a text field (`plugins/media/media.c`)

The part of `Model/Editor.lean` that needs the mouse: where the cursor goes after a click, and the word that a double click
selects.
-/

namespace Verif.Model.Click
open Verif Verif.Model Verif.Model.Editor

/-- `ctr_internal_media_move_cursor_left`, `media.c:391-411`, one step that does not jump over line ends. -/
def moveLeft0 (mem : Text) (i : Nat) : Out Nat :=
  if i = 0 then .ok i
  else (skipL mem (i - 1)).bind fun j => (rd mem j).bind fun b => if b = 10 then .ok (j + 1) else .ok j

/-- The measuring buffer: the text from the beginning of the line to the cursor, `media.c:661-663`, `687`. -/
def segment (mem : Text) (start i : Nat) : Text := (mem.drop start).take (i - start)

/-- The loop of `media.c:674-688`; `w` is `TTF_SizeUTF8`, `seg` is `line_segment_width`. -/
def near (mem : Text) (len : Nat) (w : Text → Nat) (relx : Int) (start : Nat) : Nat → Nat → Int → Out Nat
  | 0, _, _ => .ub
  | fuel + 1, i, seg =>
    if i ≤ start then .ok i
    else
      let last := seg
      let seg : Int := w (segment mem start i)
      if seg < relx then (if last - relx < relx - seg then moveRight mem len false 1 i else .ok i)
      else (moveLeft0 mem i).bind fun j => near mem len w relx start fuel j seg

/-- `ctr_internal_media_infercursorpos`, `media.c:638-690`, for an image with a text; `relx` and `rely` are the place of the
click in the text, `off` is `CtrMediaCursorOffsetY`, `lh` the line height. Simplification: numbers do not exceed an `int`;
reading the line to be measured beyond the memory is excluded by the loop before. -/
def click (mem : Text) (len : Nat) (w : Text → Nat) (off lh : Nat) (relx rely : Int) : Out Nat :=
  if len = 0 then .ok 0
  else if lh = 0 then .ub
  else
    let line : Int := off + rely.tdiv lh
    (again (nextFirst mem len) line.toNat 0).bind fun start => (endLine mem len start).bind fun stop =>
      if start = stop then .ok stop
      else
        let total : Int := w (segment mem start stop)
        if total < relx then endLine mem len stop
        else near mem len w relx start (stop - start + 1) stop total

/-- A byte that ends a word, `media.c:482-484`, `489-491`. -/
def gap (b : UInt8) : Bool := b == 10 || b == 13 || b == 32

/-- The loop of `media.c:481-485`. -/
def wordLeft (mem : Text) : Nat → Out Nat
  | 0 => .ok 0
  | i + 1 => (rd mem i).bind fun b => if gap b then .ok (i + 1) else wordLeft mem i

/-- The loop of `media.c:488-492`. -/
def wordRight (mem : Text) (len : Nat) : Nat → Nat → Out Nat
  | 0, _ => .ub
  | fuel + 1, i => if i < len then (rd mem i).bind fun b => if gap b then .ok i else wordRight mem len fuel (i + 1) else .ok i

/-- `ctr_internal_media_select_word`, `media.c:478-495`: the beginning and the end of the selection. -/
def selectWord (mem : Text) (len i : Nat) : Out (Nat × Nat) :=
  (wordLeft mem i).bind fun b => (wordRight mem len (len + 1) i).bind fun e => .ok (b, e)

end Verif.Model.Click
