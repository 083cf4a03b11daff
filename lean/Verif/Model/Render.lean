import Verif.Basic
import Verif.Model.Text

/-!
# Drawing the text of a text field (`plugins/media/media.c`)
-/

namespace Verif.Model.Render
open Verif Verif.Model

/-- A drawn line that is kept, `media.c:87-93` (`CtrMediaTextRenderCacheItem`): the text, whether it is selected, and how it
was drawn: font and colours of the image it was drawn for. Entries without a picture are `none`. -/
structure Entry where
  text : Text
  sel : Bool
  look : Nat
  deriving DecidableEq

/-- What is visible: first line (`CtrMediaCursorOffsetY`), number of lines (`CtrMediaMaxLines`), paddings and line height. -/
structure View where
  off : Nat
  max : Nat
  px : Nat
  py : Nat
  lh : Nat

/-- A piece of text that is drawn: the text, whether as selected, with which font and colours, and where. -/
structure Item where
  text : Text
  sel : Bool
  look : Nat
  x : Nat
  y : Nat
  deriving DecidableEq

/-- `ctr_internal_media_clear_edcache`, `media.c:215-224`; also the state at the start (`media.c:93`, `237`). -/
def forget : List (Option Entry) := List.replicate 400 none

/-- The inner loop, `media.c:3006`, from position `i`; `on` is `len`. Answers the bytes that are passed and the rest. The
byte after the text is not a carriage return. -/
def scan (on : Bool) (b e : Nat) (st : Bool) : Nat → Text → Text × Text
  | _, [] => ([], [])
  | i, c :: r =>
    if c ≠ 13 ∧ (on = false ∨ ((i ≠ b ∨ st = true) ∧ (i ≠ e ∨ st = false))) then
      (c :: (scan on b e st (i + 1) r).1, (scan on b e st (i + 1) r).2)
    else ([], c :: r)

/-- `media.c:3013-3043`: the kept picture number `q`, or a new one, which is kept. The library draws nothing for an empty
text. There are 400 entries. Simplification: texts contain no zero bytes, so that `strlen` and `strncmp` compare them. -/
def paint (look : Nat) (cache : List (Option Entry)) (q : Nat) (text : Text) (st : Bool) :
    Out (Option Nat × List (Option Entry)) :=
  match cache[q]? with
  | none => .ub
  | some ent =>
    match ent with
    | some en =>
      if en.sel = st ∧ en.text = text then .ok (some en.look, cache)
      else if text = [] then .ok (none, cache.set q none)
      else .ok (some look, cache.set q (some ⟨text, st, look⟩))
    | none =>
      if text = [] then .ok (none, cache.set q none)
      else .ok (some look, cache.set q (some ⟨text, st, look⟩))

/-- The loop of `ctr_internal_img_render_text`, `media.c:3002-3058`; `w` is `TTF_SizeUTF8`. Every round gets over at least
one byte, so that `fuel` does not run out (theorem `C114_partial`). The rest of the text is given instead of the text and
a position in it; the position `i` is kept for the comparisons. -/
def loop (v : View) (w : Text → Nat) (look : Nat) (on : Bool) (b e : Nat) :
    Nat → Bool → Nat → Text → Nat → Nat → Nat → List (Option Entry) → Out (List Item × List (Option Entry))
  | 0, _, _, _, _, _, _, _ => .ub
  | fuel + 1, st, i, rest, line, x, y, cache =>
    if rest = [] then .ok ([], cache) else
    let st := if b ≤ i then true else st
    let st := if e ≤ i then false else st
    let p := (scan on b e st i rest).1
    let r := (scan on b e st i rest).2
    let i := i + p.length
    let seen := decide (v.off ≤ line ∧ line ≤ v.off + v.max)
    (if seen then paint look cache (v.off % 200 + (line - v.off)) p st else .ok (none, cache)).bind fun (shown, cache) =>
      let x' := if seen then x + w p else x
      let h := if seen then v.lh else 0
      (if r.head? = some 13 then loop v w look on b e fuel st (i + 2) (r.drop 2) (line + 1) v.px (y + h) cache
        else if on = true ∧ st = false ∧ i = b then loop v w look on b e fuel st i r line x' y cache
        else if on = true ∧ st = true ∧ i = e then loop v w look on b e fuel st i r line x' y cache
        else loop v w look on b e fuel st (i + 1) (r.drop 1) line x' y cache).bind fun (items, cache) =>
          .ok ((match shown with
            | some l => [⟨p, st, l, x, y⟩]
            | none => []) ++ items, cache)

/-- `ctr_internal_img_render_text`, `media.c:2974-3061`, with `ctr_internal_media_get_selection`, `media.c:336-344`. `s1` and
`s2` are the ends of the selection. -/
def render (v : View) (w : Text → Nat) (look : Nat) (s1 s2 : Nat) (text : Text) (cache : List (Option Entry)) :
    Out (List Item × List (Option Entry)) :=
  let b := if s1 > s2 then s2 else s1
  let e := if s1 > s2 then s1 else s2
  loop v w look (decide (e - b ≠ 0)) b e (text.length + 1) false 0 text 0 v.px v.py cache

end Verif.Model.Render
