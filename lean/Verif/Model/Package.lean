import Verif.Basic
import Verif.Model.Text

/-!
# Model of packages of the media plugin

`plugins/media/media.c`: `Package add:` (`4117-4169`) appends a file to a package and `ctr_internal_media_load_asset`
(`2102-2151`) finds a file in it. A package is the list of the bytes of the file. Not modelled: packages that are part
of the executable (`ctr_data_blob`), memory limits of the system.
-/

namespace Verif.Model.Package

/-- The bytes of a `uint64_t`, least significant first (all platforms of the makefiles). -/
def le (n : Nat) : Nat → Text
  | 0 => []
  | k + 1 => UInt8.ofNat (n % 256) :: le (n / 256) k

/-- The number with these bytes, least significant first. -/
def ofLe : Text → Nat
  | [] => 0
  | b :: l => b.toNat + 256 * ofLe l

/-- `fwrite` at a position that lies in the file. -/
def writeAt (f : Text) (at_ : Nat) (d : Text) : Text := f.take at_ ++ d ++ f.drop (at_ + d.length)

/-- The loop of `media.c:4151-4154`: portions of 10000 bytes until the end is noticed. -/
def copyLoop (src out : Text) : Text :=
  if src.length < 10000 then out ++ src else copyLoop (src.drop 10000) (out ++ src.take 10000)
termination_by src.length
decreasing_by simp only [List.length_drop]; omega

/-- What `media.c:4146-4154` appends to the package: the name, a NUL byte, eight zero bytes, the contents. -/
def appended (pkg name contents : Text) : Text := copyLoop contents (pkg ++ name ++ [0] ++ List.replicate 8 0)

/-- `ctr_package_add`, `media.c:4117-4169`, for a package that can be opened; `file` is what `fopen` and `fread` give
for the name, if there is such a file. Answers whether an error is raised, and the package. A package that does not exist
is created empty first (`4121-4125`), also if there is an error. -/
def add (pkg : Option Text) (name : Text) (file : Option Text) : Bool × Text :=
  let out := pkg.getD []
  match file with
  | none => (true, out)
  | some contents =>
    let nextEntryAt := out.length + name.length + 1
    let out := appended out name contents
    (false, writeAt out nextEntryAt (le out.length 8))

/-- A program that adds these files one after the other (`media.c:4117-4169`, `Package add:` each time). -/
def addAll (pkg : Option Text) : List (Text × Text) → Option Text
  | [] => pkg
  | (name, contents) :: l => addAll (some (add pkg name (some contents)).2) l

/-- The package if `ctr_package_add` stops after it wrote `k` bytes: first those of `media.c:4146-4154` at the end, then
those of the address (`4155-4160`) over the zero bytes. The operating system keeps the order of the writes. -/
def interrupted (pkg name contents : Text) (k : Nat) : Text :=
  let out := appended pkg name contents
  let n := out.length - pkg.length
  if k ≤ n then out.take (pkg.length + k)
  else writeAt out (pkg.length + name.length + 1) ((le out.length 8).take (k - n))

/-- `strncmp(name, buffer, n) == 0` for a name without NUL bytes that is followed by one. -/
def sameN (name buffer : Text) : Nat → Out Bool
  | 0 => .ok true
  | n + 1 =>
    match name, buffer with
    | _, [] => .ub
    | [], b :: _ => .ok (b == 0)
    | a :: name, b :: buffer => if a == b then sameN name buffer n else .ok false

/-- The part of `media.c:2131-2139` after the name was found at `start`: the address of the next file, then the contents.
`malloc` refuses sizes of 2^63 and more; `fread` stores nothing at the end of the file; `SDL_RWFromMem` refuses the null
pointer and the size 0, and takes the size as an `int`. Contents that are not in the file are not initialised. -/
def contentsAt (pkg : Text) (start : Nat) : Out (Option Text) :=
  let next := ofLe ((pkg.drop start).take 8)
  let cur := if start + 8 ≤ pkg.length then start + 8 else max start pkg.length
  let size := (next + 18446744073709551616 - cur % 18446744073709551616) % 18446744073709551616
  if size ≥ 9223372036854775808 then
    if cur < pkg.length then .ub else .ok none
  else if size = 0 then .ok none
  else if size ≥ 2147483648 ∨ cur + size > pkg.length then .ub
  else .ok (some ((pkg.drop cur).take size))

/-- The loop of `media.c:2127-2147`. `buffer` has 500 bytes and keeps what was read before. A seek to a position of 2^63 or
more is refused. `none` if the loop does not end within that many rounds. -/
def loadLoop (pkg name : Text) : Nat → Nat → Text → Option (Out (Option Text))
  | 0, _, _ => none
  | fuel + 1, pos, buffer =>
    let read := (pkg.drop pos).take 500
    let buffer := read ++ buffer.drop read.length
    match sameN name buffer read.length with
    | .ub => some .ub
    | .exit => some .exit
    | .ok true => some (contentsAt pkg (pos + name.length + 1))
    | .ok false =>
      let boundary := (buffer.takeWhile (· != 0)).length
      if boundary + 9 > buffer.length then some .ub
      else
        let jump := ofLe ((buffer.drop (boundary + 1)).take 8)
        if jump = 0 then some (.ok none)
        else loadLoop pkg name fuel (if jump < 9223372036854775808 then jump else pos + read.length) buffer

/-- `ctr_internal_media_load_asset`, `media.c:2102-2151`, for a package that exists. The answer is the contents of the
file, or nothing. The buffer is new and hence zero. -/
def load (fuel : Nat) (pkg name : Text) : Option (Out (Option Text)) :=
  loadLoop pkg name fuel 0 (List.replicate 500 0)

end Verif.Model.Package
