import Verif.Basic
import Verif.Model.Text
import Verif.Model.Lines

/-!
# Model of text fields in the media plugin

`plugins/media/media.c`: the cursor (`370-452`, `464-476`, `615-635`), inserting and removing (`497-587`), keys
(`858-985`, `1586-1697`), what happens once per frame (`2921-2928`). Not modelled: drawing, the mouse (it needs the widths
of letters), images that are not editable, the length of an `int` (texts have less than 2^31 bytes).

The cursor and the ends of the selection are `int`s; here they are natural numbers. Where the code makes one negative and
then reads at it, the outcome is `ub`.
-/

namespace Verif.Model.Editor

/-- The text of the image with the focus and the global variables (`media.c:52`, `112`): `mem` is the memory (`text`),
`len` is `textlength`, `buf` is `textbuffer`, `idx` is `CtrMediaInputIndex`, the others are `CtrMediaSelectStart`,
`CtrMediaSelectBegin` and `CtrMediaSelectEnd`. -/
structure Ed where
  mem : Text
  len : Nat
  buf : Nat
  idx : Nat
  start : Bool
  selB : Nat
  selE : Nat
  deriving DecidableEq, Repr

/-- `text[i]`. -/
def rd (mem : Text) (i : Nat) : Out UInt8 :=
  match mem[i]? with
  | some b => .ok b
  | none => .ub

/-- `(b & 0x80) != 0x00 && (b & 0xC0) != 0xC0`, `media.c:377-378`. -/
def cont (b : UInt8) : Bool := b &&& 0x80 != 0 && b &&& 0xC0 != 0xC0

/-- The loop of `media.c:375-379`; it ends at `len` at the latest. -/
def skipR (mem : Text) (len : Nat) : Nat → Nat → Out Nat
  | 0, _ => .ub
  | fuel + 1, i => if i < len then (rd mem i).bind fun b => if cont b then skipR mem len fuel (i + 1) else .ok i else .ok i

/-- `ctr_internal_media_move_cursor_right`, `media.c:370-389`. -/
def moveRight (mem : Text) (len : Nat) (jump : Bool) : Nat → Nat → Out Nat
  | 0, i => .ok i
  | n + 1, i =>
    if i = len then .ok i
    else (skipR mem len (len + 1) (i + 1)).bind fun j => (rd mem j).bind fun b =>
      if b = 10 then .ok (if jump then j + 1 else j - 1) else moveRight mem len jump n j

/-- The loop of `media.c:397-401`. -/
def skipL (mem : Text) : Nat → Out Nat
  | 0 => .ok 0
  | i + 1 => (rd mem (i + 1)).bind fun b => if cont b then skipL mem i else .ok (i + 1)

/-- `ctr_internal_media_move_cursor_left`, `media.c:391-411`, for one step over line ends (all keys; the other use is the
mouse). An index of -1, which a text that begins with a line feed gives, counts as undefined. -/
def moveLeft (mem : Text) (i : Nat) : Out Nat :=
  if i = 0 then .ok i
  else (skipL mem (i - 1)).bind fun j => (rd mem j).bind fun b =>
    if b = 10 then (if j = 0 then .ub else .ok (j - 1)) else .ok j

/-- The loop of `media.c:414-417` and `421-424`: whether a carriage return was found, and where it ended. -/
def toCr (mem : Text) (len : Nat) : Nat → Nat → Out (Bool × Nat)
  | 0, _ => .ub
  | fuel + 1, i => (rd mem i).bind fun b =>
    if b = 13 then .ok (true, i) else if i = len then .ok (false, i) else toCr mem len fuel (i + 1)

/-- `ctr_internal_media_move_cursor_to_end_of_cur_line`, `media.c:413-418`. -/
def endLine (mem : Text) (len i : Nat) : Out Nat := (toCr mem len (mem.length + 1) i).bind fun r => .ok r.2

/-- `ctr_internal_media_move_cursor_to_first_char_of_cur_line`, `media.c:428-434`. -/
def firstChar (mem : Text) : Nat → Out Nat
  | 0 => (rd mem 0).bind fun b => .ok (if b = 10 then 1 else 0)
  | i + 1 => (rd mem (i + 1)).bind fun b => if b = 10 then .ok (i + 2) else firstChar mem i

/-- `ctr_internal_media_move_cursor_to_first_char_of_prev_line`, `media.c:448-451`, with `436-440`. If the index gets
negative, `text[-1]` is read (`429`). -/
def prevFirst (mem : Text) (i : Nat) : Out Nat :=
  (firstChar mem i).bind fun i =>
    if i = 0 then firstChar mem 0 else if i < 3 then .ub else firstChar mem (i - 3)

/-- `ctr_internal_media_move_cursor_to_first_char_of_next_line`, `media.c:442-446`, with `420-426`. -/
def nextFirst (mem : Text) (len i : Nat) : Out Nat :=
  (toCr mem len (mem.length + 1) i).bind fun r =>
    .ok (if r.1 then (if r.2 = len + 1 then len else r.2 + 2) else r.2)

/-- The loop of `media.c:467-473`: the number of characters that begin on the way, and whether it stopped before 0. -/
def charLoop (mem : Text) : Nat → Out (Nat × Bool)
  | 0 => (rd mem 0).bind fun _ => .ok (0, false)
  | i + 1 => (rd mem (i + 1)).bind fun b =>
    if b = 10 then .ok (0, true)
    else (charLoop mem i).bind fun r => .ok (if cont b then r.1 else r.1 + 1, r.2)

/-- `ctr_internal_media_get_current_char_line`, `media.c:464-476`; -1 as a `ctr_size` is the largest number. -/
def charLine (mem : Text) (i : Nat) : Out Nat :=
  (charLoop mem i).bind fun r =>
    .ok (if r.2 then (if r.1 = 0 then 18446744073709551615 else r.1 - 1) else r.1)

/-- One line up, `media.c:620-624`. -/
def lineUp (mem : Text) (len i : Nat) : Out Nat :=
  (charLine mem i).bind fun offset => (prevFirst mem i).bind fun i => moveRight mem len false offset i

/-- One line down, `media.c:625-629`. -/
def lineDown (mem : Text) (len i : Nat) : Out Nat :=
  (charLine mem i).bind fun offset => (nextFirst mem len i).bind fun i => moveRight mem len false offset i

/-- Again and again (`media.c:634-635`). -/
def again (f : Nat → Out Nat) : Nat → Nat → Out Nat
  | 0, i => .ok i
  | n + 1, i => (f i).bind (again f n)

/-- The keys that move the cursor. -/
inductive Key where
  | left | right | up | down | home | toEnd | pageUp | pageDown
  deriving DecidableEq, Repr

/-- `ctr_internal_cursormove`, `media.c:615-636`. -/
def cursormove (mem : Text) (len : Nat) : Key → Nat → Out Nat
  | .left => moveLeft mem
  | .right => moveRight mem len true 1
  | .up => lineUp mem len
  | .down => lineDown mem len
  | .home => firstChar mem
  | .toEnd => endLine mem len
  | .pageUp => again (lineUp mem len) 10
  | .pageDown => again (lineDown mem len) 10

/-- `memcpy(text + dst, text + src, n)`. If `strict`, ranges that overlap are undefined, as the C standard says; else they
are copied as by `memmove`, as some C libraries do. -/
def memcpy (strict : Bool) (mem : Text) (dst src n : Nat) : Out Text :=
  if mem.length < dst + n ∨ mem.length < src + n then .ub
  else if strict ∧ dst < src + n ∧ src < dst + n then .ub
  else .ok (mem.take dst ++ (mem.drop src).take n ++ mem.drop (dst + n))

/-- Store bytes (`memcpy` from elsewhere, `memset`, one assignment). -/
def store (mem : Text) (dst : Nat) (d : Text) : Out Text :=
  if mem.length < dst + d.length then .ub else .ok (mem.take dst ++ d ++ mem.drop (dst + d.length))

/-- `a - b` as the size for `memcpy`: below 0 it is so large that the memory does not suffice. -/
def size (a b : Nat) : Out Nat := if a < b then .ub else .ok (a - b)

/-- `media.c:503-512`, the text `"\b"`. -/
def insBackspace (strict : Bool) (e : Ed) : Out Ed :=
  if e.idx = 0 then .ok e
  else (moveLeft e.mem e.idx).bind fun i => (size e.len e.idx).bind fun n => (memcpy strict e.mem i e.idx n).bind fun mem =>
    let len := e.len - (e.idx - i)
    (store mem len (List.replicate (e.idx - i) 0)).bind fun mem => .ok { e with mem := mem, len := len, idx := i }

/-- `media.c:513-522`, the text `"\x7F"`. -/
def insDelete (strict : Bool) (e : Ed) : Out Ed :=
  if e.idx = e.len then .ok e
  else (moveRight e.mem e.len true 1 e.idx).bind fun i => (size e.len i).bind fun n => (memcpy strict e.mem e.idx i n).bind fun mem =>
    let len := e.len - (i - e.idx)
    (store mem len [0]).bind fun mem => .ok { e with mem := mem, len := len }

/-- `media.c:523-531`: any other text. `ctr_heap_reallocate` gives zero bytes behind the old ones. -/
def insOther (strict : Bool) (e : Ed) (t : Text) : Out Ed :=
  let len := e.len + t.length
  let grow := decide (e.buf < len + 1)
  let buf := if grow then len + 500 else e.buf
  let mem := if grow then e.mem ++ List.replicate (buf + 1 - e.mem.length) 0 else e.mem
  (size e.len e.idx).bind fun n => (memcpy strict mem (e.idx + t.length) e.idx n).bind fun mem =>
    (store mem e.idx t).bind fun mem => (store mem (len + 1) [0]).bind fun mem =>
      .ok { e with mem := mem, len := len, buf := buf, idx := e.idx + t.length }

/-- `ctr_internal_media_textinsert`, `media.c:497-532`, for an image with a text. -/
def textinsert (strict : Bool) (e : Ed) (t : Text) : Out Ed :=
  let e := { e with selB := e.selE }
  if t = [8] then insBackspace strict e
  else if t = [127] then insDelete strict e
  else insOther strict e t

/-- `ctr_img_text_del`, `media.c:543-560` (`Image cut`, and keys with a selection). -/
def textDel (strict : Bool) (e : Ed) : Out Ed :=
  let b := min e.selB e.selE
  let f := max e.selB e.selE
  (if f = b then .ok e
   else (size e.len f).bind fun n => (memcpy strict e.mem b f n).bind fun mem =>
    let len := e.len - (f - b)
    (store mem len (List.replicate (f - b) 0)).bind fun mem => .ok { e with mem := mem, len := len }).bind fun e =>
  .ok { e with idx := b, selB := e.selE }

/-- `ctr_img_text_ins`, `media.c:572-587` (`Image append:`). -/
def textIns (strict : Bool) (e : Ed) (t : Text) : Out Ed :=
  let b := min e.selB e.selE
  (if b < max e.selB e.selE then (textDel strict e).bind fun e => .ok { e with idx := b } else .ok e).bind fun e =>
  textinsert strict e t

/-- What happens in a text field: text that arrives from the keyboard (`media.c:1700-1713`), keys (`1597-1697`), Shift going
down and up, a frame that is drawn, and the messages `Image cut`, `append:` and `write:`. -/
inductive Ev where
  | typed (t : Text)
  | ret | tab | backspace | delete
  | key (k : Key)
  | shiftDown | shiftUp
  | frame
  | cut
  | append (t : Text)
  | write (t : Text)
  deriving DecidableEq, Repr

/-- `ctr_internal_media_arrowkey_selection`, `media.c:453-463`. -/
def arrowkeySelection (e : Ed) : Ed :=
  if e.start then { e with selE := e.idx } else { e with selB := e.idx, selE := e.idx }

/-- A key that moves the cursor: `media.c:858-957` for arrows, `1643-1682` for the others. -/
def pressKey (e : Ed) (k : Key) : Out Ed :=
  match k with
  | .left | .up | .down =>
    let e := arrowkeySelection e
    (cursormove e.mem e.len k e.idx).bind fun i =>
      .ok (if e.start then { e with idx := i, selE := i } else { e with idx := i })
  | .right =>
    let e := arrowkeySelection e
    (cursormove e.mem e.len k e.idx).bind fun i =>
      .ok (if e.start then { e with idx := i, selE := i } else { e with idx := i, selB := 0, selE := 0 })
  | .home | .toEnd | .pageUp | .pageDown =>
    (cursormove e.mem e.len k e.idx).bind fun i =>
      .ok (if e.start then { e with idx := i, selE := i } else { e with idx := i })

/-- `media.c:2926-2928`, once per frame. -/
def frame (e : Ed) : Ed :=
  { e with
    idx := if e.idx > e.len then 0 else e.idx
    selB := if e.selB > e.len then 0 else e.selB
    selE := if e.selE > e.len then 0 else e.selE }

/-- `Image write:`, `media.c:3107-3120`. The cursor stays where it was. -/
def write (e : Ed) (t : Text) : Out Ed :=
  (Lines.normalize (t ++ [0])).bind fun mem => (Lines.cstring mem).bind fun c =>
    .ok { e with mem := mem, len := c.length, buf := c.length }

/-- One event. -/
def step (strict : Bool) (e : Ed) : Ev → Out Ed
  | .typed t =>
    let e := { e with selB := e.selE }
    if t = [] then .ok e else textinsert strict e t
  | .ret => textinsert strict e [13, 10]
  | .tab => textinsert strict e [32, 32, 32, 32]
  | .backspace => if e.selB ≠ e.selE then textDel strict e else textinsert strict e [8]
  | .delete => if e.selB ≠ e.selE then textDel strict e else textinsert strict e [127]
  | .key k => pressKey e k
  | .shiftDown => .ok { e with selB := e.idx, start := true }
  | .shiftUp => .ok { e with start := false }
  | .frame => .ok (frame e)
  | .cut => textDel strict e
  | .append t => textIns strict e t
  | .write t => write e t

/-- Events, one after the other. -/
def run (strict : Bool) (e : Ed) : List Ev → Out Ed
  | [] => .ok e
  | v :: l => (step strict e v).bind fun e => run strict e l

/-- A text field with this text after `Image write:` of it and `Media screen:` (`media.c:1360-1363`, `3107-3120`), for a
text that `Image write:` does not change (`C86`). -/
def opened (t : Text) : Ed := ⟨t ++ [0], t.length, t.length, 0, false, 0, 0⟩

/-- `Image text`, `media.c:3190-3196`. -/
def textOf (e : Ed) : Out Text := Lines.cstring e.mem

end Verif.Model.Editor
