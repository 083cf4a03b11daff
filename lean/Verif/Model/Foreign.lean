import Verif.Basic
import Verif.Model.Float

/-!
# Functions of other libraries (`plugins/media/media.c:3530-4075`)

`Media link:` and the calls of linked functions, on Linux with 64 bits (there `libffi` has the same type for `int` and
`int32_t`, for `long` and `int64_t` and so on).
-/

namespace Verif.Model.Foreign
open Verif Verif.Model Verif.Model.Float

/-- `ffi_type`: none, whole numbers with or without sign in so many bytes, `double`. Simplification: `float`, pointers and
structures are kept apart as `other` and not modelled further. -/
inductive Ty where
  | void
  | int (signed : Bool) (size : Nat)
  | double
  | other
  deriving DecidableEq, Repr

/-- `ctr_internal_media_ffi_map_type`, `media.c:3555-3598`. -/
def mapType (t : Text) : Option Ty :=
  if t = [118, 111, 105, 100] then some (.void) -- void
  else if t = [117, 105, 110, 116] then some (.int false 4) -- uint
  else if t = [105, 110, 116] then some (.int true 4) -- int
  else if t = [117, 105, 110, 116, 56, 95, 116] then some (.int false 1) -- uint8_t
  else if t = [105, 110, 116, 56, 95, 116] then some (.int true 1) -- int8_t
  else if t = [117, 105, 110, 116, 49, 54, 95, 116] then some (.int false 2) -- uint16_t
  else if t = [105, 110, 116, 49, 54, 95, 116] then some (.int true 2) -- int16_t
  else if t = [117, 105, 110, 116, 51, 50, 95, 116] then some (.int false 4) -- uint32_t
  else if t = [105, 110, 116, 51, 50, 95, 116] then some (.int true 4) -- int32_t
  else if t = [117, 105, 110, 116, 54, 52, 95, 116] then some (.int false 8) -- uint64_t
  else if t = [105, 110, 116, 54, 52, 95, 116] then some (.int true 8) -- int64_t
  else if t = [102, 108, 111, 97, 116] then some (.other) -- float
  else if t = [100, 111, 117, 98, 108, 101] then some (.double) -- double
  else if t = [117, 115, 104, 111, 114, 116] then some (.int false 2) -- ushort
  else if t = [115, 104, 111, 114, 116] then some (.int true 2) -- short
  else if t = [117, 99, 104, 97, 114] then some (.int false 1) -- uchar
  else if t = [99, 104, 97, 114] then some (.int true 1) -- char
  else if t = [112, 111, 105, 110, 116, 101, 114] then some (.other) -- pointer
  else if t = [117, 108, 111, 110, 103] then some (.int false 8) -- ulong
  else if t = [108, 111, 110, 103] then some (.int true 8) -- long
  else none

/-- The types of the arguments, `media.c:4007-4014`. -/
def mapTypes : List Text → Option (List Ty)
  | [] => some []
  | t :: ts => (mapType t).bind fun ty => (mapTypes ts).bind fun tys => some (ty :: tys)

/-- `ctr_internal_media_ffi`, `media.c:4000-4024`, the signature of the function; `none` is an error. Libraries and symbols are
left to the system; structures as types are not modelled. -/
def link (names : List Text) (rname : Text) : Option (List Ty × Ty) :=
  if names.length > 20 then none
  else (mapTypes names).bind fun tys => (mapType rname).bind fun r => some (tys, r)

/-- What lies in a block for a value: the bytes of a whole number, a `double`, or something else. -/
inductive Slot where
  | bytes (t : Text)
  | dbl (x : F)
  | other
  deriving DecidableEq, Repr

/-- A value as the function in the library sees it. -/
inductive Val where
  | int (z : Int)
  | dbl (x : F)
  | other
  deriving DecidableEq, Repr

/-- What a call answers. -/
inductive Res where
  | nil
  | num (x : F)
  | blob
  | error
  deriving DecidableEq, Repr

/-- The bytes of a number, the lowest first. -/
def le : Nat → Nat → Text
  | 0, _ => []
  | n + 1, v => UInt8.ofNat (v % 256) :: le n (v / 256)

/-- The number of such bytes. -/
def unle : Text → Nat
  | [] => 0
  | c :: t => c.toNat + 256 * unle t

/-- A `double` without its fraction, as in a conversion to a whole number. -/
def trunc : F → Option Int
  | .fin n m k => some (if n then -((m / 2 ^ k : Nat) : Int) else ((m / 2 ^ k : Nat) : Int))
  | _ => none

/-- Whether a whole number is of a type. -/
def fits (signed : Bool) (size : Nat) (z : Int) : Bool :=
  if signed then decide (-(2 ^ (8 * size - 1)) ≤ z) && decide (z < 2 ^ (8 * size - 1))
  else decide (0 ≤ z) && decide (z < 2 ^ (8 * size))

/-- `ctr_internal_media_ffi_convert_value`, `media.c:3667-3728`, for an argument that is a number. A number that is not of the
type is undefined behaviour in C (conversion of floating point numbers). -/
def convert (ty : Ty) (x : F) : Out Slot :=
  match ty with
  | .int s n =>
    (match trunc x with
      | none => .ub
      | some z => if fits s n z then .ok (.bytes (le n (z % 2 ^ (8 * n)).toNat)) else .ub)
  | .double => .ok (.dbl x)
  | _ => .ok .other

/-- The size of the block for the answer, `media.c:3667-3676`. -/
def blockSize (ty : Ty) : Nat :=
  let size := (match ty with
    | .int _ n => n
    | .void => 1
    | _ => 8)
  if size < 8 then 8 else size

/-- A whole number is read from a block. -/
def readInt (signed : Bool) (size : Nat) (t : Text) : Out Int :=
  if t.length < size then .ub
  else
    let v := unle (t.take size)
    .ok (if signed ∧ 2 ^ (8 * size - 1) ≤ v then (v : Int) - 2 ^ (8 * size) else (v : Int))

/-- The function in the library takes an argument out of its block. -/
def receive (ty : Ty) (s : Slot) : Out Val :=
  match ty, s with
  | .int sg n, .bytes t => (readInt sg n t).bind fun z => .ok (.int z)
  | .double, .dbl x => .ok (.dbl x)
  | .other, .other => .ok .other
  | _, _ => .ub

/-- All arguments are taken; where no block was given an uninitialised pointer is followed. -/
def receiveAll : List Ty → List Slot → Out (List Val)
  | [], _ => .ok []
  | _ :: _, [] => .ub
  | ty :: tys, s :: ss => (receive ty s).bind fun v => (receiveAll tys ss).bind fun vs => .ok (v :: vs)

/-- `ffi_call`: the function `g` is called; whole numbers are widened to eight bytes in the block for the answer. A function
that answers something else than it was linked for is undefined behaviour. -/
def ffiCall (tys : List Ty) (r : Ty) (g : List Val → Val) (values : List Slot) : Out Slot :=
  (receiveAll tys values).bind fun vs =>
    if blockSize r < 8 then .ub
    else match r, g vs with
      | .void, _ => .ok .other
      | .int _ _, .int z => .ok (.bytes (le 8 (z % 2 ^ 64).toNat))
      | .double, .dbl x => .ok (.dbl x)
      | .other, .other => .ok .other
      | _, _ => .ub

/-- `ctr_internal_media_ffi_convert_value_back`, `media.c:3730-3784`; a whole number becomes the nearest `double`. -/
def convertBack (ty : Ty) (s : Slot) : Out Res :=
  match ty, s with
  | .void, _ => .ok .nil
  | .int sg n, .bytes t => (readInt sg n t).bind fun z => .ok (.num (rnd (decide (z < 0)) z.natAbs 1))
  | .double, .dbl x => .ok (.num x)
  | .other, .other => .ok .blob
  | _, _ => .ub

/-- The arguments of a sequence are converted, `media.c:3854-3857`; types beyond the last one are null pointers. -/
def fill (tys : List Ty) : Nat → List F → Out (List Slot)
  | _, [] => .ok []
  | i, x :: xs =>
    if i > tys.length then .ok []
    else match tys[i]? with
      | none => .ub
      | some ty => (convert ty x).bind fun s => (fill tys (i + 1) xs).bind fun ss => .ok (s :: ss)

/-- `ctr_media_ffi_respond_to_and` with a sequence, `media.c:3840-3875`. Arguments are numbers. -/
def callList (tys : List Ty) (r : Ty) (g : List Val → Val) (xs : List F) : Out Res :=
  if xs.length > 20 then .ok .error
  else (fill tys 0 xs).bind fun ss => (ffiCall tys r g ss).bind fun s => convertBack r s

/-- The arguments of a message are converted one by one, `media.c:3808-3810, 3829-3830, 3859`. -/
def fillDirect (tys : List Ty) : Nat → List F → Out (List Slot)
  | _, [] => .ok []
  | i, x :: xs =>
    match tys[i]? with
    | none => .ub
    | some ty => (convert ty x).bind fun s => (fillDirect tys (i + 1) xs).bind fun ss => .ok (s :: ss)

/-- `ctr_media_ffi_respond_to`, `.._and` (not a sequence), `.._and_and`, `.._and_and_and`, `media.c:3799-3888`: none to three
arguments, which are numbers. -/
def callDirect (tys : List Ty) (r : Ty) (g : List Val → Val) (xs : List F) : Out Res :=
  (fillDirect tys 0 xs).bind fun ss => (ffiCall tys r g ss).bind fun s => convertBack r s

end Verif.Model.Foreign
