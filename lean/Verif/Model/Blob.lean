import Verif.Basic
import Verif.Model.Seq
import Verif.Model.Lines

/-!
# Model of blobs of the media plugin

`plugins/media/media.c:3381-3504`. A blob is memory that is handed to libraries. The elements of sequences are numbers,
truncated towards zero. Not modelled: `deref` and blobs of a type (they hold addresses), the libraries.
-/

namespace Verif.Model.Blob

/-- `(char)` of a number, `media.c:3384`, where `char` has a sign (x86): other numbers are undefined. -/
def toByte (v : Int) : Out UInt8 := if -128 ≤ v ∧ v ≤ 127 then .ok (UInt8.ofNat (v % 256).toNat) else .ub

/-- The number for a `char`, `media.c:3497`. -/
def ofByte (b : UInt8) : Int := if b.toNat < 128 then b.toNat else (b.toNat : Int) - 256

/-- `Blob new:`, `media.c:3420-3430`. -/
def new (size : Nat) : Text := List.replicate size 0

/-- Store one byte. -/
def store (mem : Text) (i : Nat) (b : UInt8) : Out Text := if i < mem.length then .ok (mem.set i b) else .ub

/-- The loop of `media.c:3383-3385`: `k` elements from `i` on. -/
def fillLoop (s : Seq Int) (mem : Text) : Nat → Nat → Out Text
  | 0, _ => .ok mem
  | k + 1, i => (s.read i).bind fun v => (toByte v).bind fun b => (store mem i b).bind fun mem => fillLoop s mem k (i + 1)

/-- `ctr_blob_fill`, `media.c:3381-3387`: all elements from the beginning of the buffer up to `head`. -/
def fill (mem : Text) (s : Seq Int) : Out Text := fillLoop s mem s.head 0

/-- The loop of `media.c:3492-3500`: `k` bytes from the number `i` on, pushed to the new sequence. -/
def readLoop (mem : Text) (dst : Seq Int) : Nat → Int → Out (Seq Int)
  | 0, _ => .ok dst
  | k + 1, i =>
    if i < 1 then .ub
    else match mem[(i - 1).toNat]? with
      | none => .ub
      | some b => (dst.push (ofByte b)).bind fun dst => readLoop mem dst k (i + 1)

/-- `ctr_blob_read`, `media.c:3482-3503`. The sum is an `int`. -/
def read (mem : Text) (start len : Int) : Out (Seq Int) :=
  if InInt (start + len) then readLoop mem Seq.new len.toNat start else .ub

/-- `Blob utf8:`, `media.c:3442-3452`. -/
def utf8 (t : Text) : Text := t ++ [0]

/-- The text of a blob, `media.c:3407-3409`. -/
def toText (mem : Text) : Out Text := Lines.cstring mem

/-- `Sequence new ; a ; b …`: elements are appended (`collections.c:53-65`). -/
def seqFrom (s : Seq Int) : List Int → Out (Seq Int)
  | [] => .ok s
  | v :: l => (s.push v).bind fun s => seqFrom s l

/-- A blob is filled with these sequences, one after the other (`media.c:3381-3387`). -/
def fills (mem : Text) : List (List Int) → Out Text
  | [] => .ok mem
  | l :: ls => (seqFrom Seq.new l).bind fun s => (fill mem s).bind fun mem => fills mem ls

end Verif.Model.Blob
