import Verif.Basic
import Verif.Model.Text

/-!
# Model of line endings in the media plugin

`plugins/media/media.c`: `ctr_internal_media_normalize_line_endings` (`3067-3095`), `Image write:` and `Image text`
(`3107-3120`, `3190-3196`), `Media clipboard` (`3208-3231`). Texts are lists of bytes; memory that the allocator gives is
zero (`C19`). Not modelled: drawing.
-/

namespace Verif.Model.Lines

/-- `normalized_text[d + i] = c`: `out` are the bytes written so far (`d + i` many), `size` is the size of the memory. -/
def put (size : Nat) (out : Text) (c : UInt8) : Out Text := if out.length < size then .ok (out ++ [c]) else .ub

/-- The loop of `media.c:3075-3092`: `len` bytes were there at the beginning, `d` bytes have been added, `prev` is
`current_char` of the round before. The memory has `len + d + 1` bytes. -/
def loop (len : Nat) : Text → Nat → UInt8 → Text → Out (Nat × Text)
  | [], d, _, out => .ok (d, out)
  | c :: t, d, prev, out =>
    let c := if c = 9 then 32 else c
    (if c = 10 ∧ prev ≠ 13 then (put (len + d + 1) out 13).bind fun out => .ok (d + 1, out) else .ok (d, out)).bind fun (d, out) =>
    (if prev = 13 ∧ c ≠ 10 then (put (len + d + 1) out 10).bind fun out => .ok (d + 1, out) else .ok (d, out)).bind fun (d, out) =>
    (put (len + d + 1) out c).bind fun out => loop len t d c out

/-- The C string in a memory: the bytes up to the first zero byte, which must be there. -/
def cstring (mem : Text) : Out Text := if 0 ∈ mem then .ok (mem.takeWhile (· != 0)) else .ub

/-- `ctr_internal_media_normalize_line_endings`, `media.c:3067-3095`, for a memory with a C string. The answer is the
memory; what was not written is zero. -/
def normalize (mem : Text) : Out Text :=
  (cstring mem).bind fun t => (loop t.length t 0 0 []).bind fun (d, out) =>
    .ok (out ++ List.replicate (t.length + d + 1 - out.length) 0)

/-- `Image write:`, `media.c:3107-3120`, then `Image text`, `3190-3196`. `ctr_heap_allocate_cstring` copies the bytes of
the text and a zero byte. -/
def writeText (t : Text) : Out Text := (normalize (t ++ [0])).bind cstring

/-- `Media clipboard`, `media.c:3208-3231`: the bytes are copied to a memory of just as many bytes. `slack` many zero bytes
follow it that do not belong to it: none with `calloc`, the rest of the block with the pool (`C18`). -/
def clipboard (slack : Nat) (t : Text) : Out Text := (normalize (t ++ List.replicate slack 0)).bind cstring

end Verif.Model.Lines
