import Verif.Basic
import Verif.Model.Text

/-!
# Programs and pictures from assets, commands in a terminal (`plugins/media/media.c`)
-/

namespace Verif.Model.Assets
open Verif Verif.Model

/-- `SDL_RWread(reader, p, 1, n)`: some of the bytes that are left, at most `n`, and none only at the end; `k` says how many
this time. Answers the bytes and what is left. -/
def deliver (n k : Nat) (rest : Text) : Text × Text := (rest.take (min n (k + 1)), rest.drop (min n (k + 1)))

/-- Store bytes at a place in a block of memory. -/
def store (mem : Text) (at_ : Nat) (d : Text) : Out Text :=
  if mem.length < at_ + d.length then .ub else .ok (mem.take at_ ++ d ++ mem.drop (at_ + d.length))

/-- `ctr_heap_reallocate_tracked`, `memory.c:124-131` with `196-239`: the block keeps its contents and grows with zero bytes
(property C19). Simplification: blocks are not rounded up. -/
def grow (mem : Text) (size : Nat) : Text := mem ++ List.replicate (size - mem.length) 0

/-- The loop of `media.c:4302-4306`; `j` is the number of the read. -/
def readLoop (sched : Nat → Nat) : Nat → Nat → Text → Nat → Text → Nat → Out (Text × Nat)
  | 0, _, _, _, _, _ => .ub
  | fuel + 1, j, mem, off, rest, got =>
    if got = 0 then .ok (mem, off)
    else
      let mem := grow mem (off + 512 + 1)
      let r := deliver 512 (sched j) rest
      (store mem off r.1).bind fun mem => readLoop sched fuel (j + 1) mem (off + r.1.length) r.2 r.1.length

/-- `media.c:4293-4309` (`Media use:`): the memory of the program and its length (`ctr_program_length`). -/
def readProgram (sched : Nat → Nat) (content : Text) : Out (Text × Nat) :=
  let mem := List.replicate 512 0
  let r := deliver 512 (sched 0) content
  (store mem 0 r.1).bind fun mem =>
    (readLoop sched (content.length + 1) 1 mem r.1.length r.2 r.1.length).bind fun (mem, off) =>
      (store mem (off + 1) [0]).bind fun mem => .ok (mem, off)

/-- `strcmp(a, s) == 0` for a constant `s` without zero bytes; reading beyond the array is `ub`. -/
def sameStr : Text → Text → Out Bool
  | [], _ => .ub
  | a :: _, [] => .ok (a == 0)
  | a :: m, c :: s => if a = c then (if a = 0 then .ok true else sameStr m s) else .ok false

/-- `ctr_internal_media_determine_filetype`, `media.c:1239-1251`, for a file that can be opened: 20 for JPEG, 30 for PNG, 0
for everything else. Simplification: one read delivers 20 bytes if the file has them. -/
def filetype (content : Text) : Out Nat :=
  let magic := content.take 20 ++ List.replicate (20 - (content.take 20).length) 0
  (sameStr magic [0xFF, 0xD8]).bind fun jpg =>
    if jpg then .ok 20
    else (sameStr magic [0x89, 0x50, 0x4E, 0x47, 0x0D, 0x0A, 0x1A, 0x0A]).bind fun png => .ok (if png then 30 else 0)

/-- `ctr_media_screen`, `media.c:1370-1376`: whether the screen is shown (`false`: the error that the file cannot be opened). -/
def screen (content : Text) : Out Bool := (filetype content).bind fun t => .ok (t != 0)

/-- `sprintf` with `%s '%s'` (`quoted`) or `%s %s`. -/
def format (quoted : Bool) (cmd par : Text) : Text :=
  if quoted then cmd ++ [32, 39] ++ par ++ [39] else cmd ++ [32] ++ par

/-- `ctr_internal_media_external_command`, `media.c:4186-4197`; `sys` is `system`: the exit status of a command. Answers the
result and the commands that were run. -/
def external (sys : Text → Int) (cmd : Option Text) (fallback par : Text) (quoted : Bool) : Out (Bool × List Text) :=
  let cmd := cmd.getD fallback
  let tlen := if quoted then 7 else 5
  if tlen + cmd.length + par.length ≥ 500 then .ok (false, [])
  else if (format quoted cmd par).length + 1 > 500 then .ub
  else .ok (sys (format quoted cmd par) == 0, [format quoted cmd par])

/-- `/usr/bin/x-terminal-emulator -e`, `media.c:4221`. -/
def terminal : Text := [47, 117, 115, 114, 47, 98, 105, 110, 47, 120, 45, 116, 101, 114, 109, 105, 110, 97, 108, 45, 101, 109,
  117, 108, 97, 116, 111, 114, 32, 45, 101]

/-- `ctr_media_system`, `media.c:4208-4252`, not for Windows; `env` is the setting `TERMINAL`. -/
def mediaSys (sys : Text → Int) (env : Option Text) (par : Text) : Out (Bool × List Text) :=
  (external sys env terminal par true).bind fun (r, a) =>
    if r then .ok (r, a) else (external sys none [] par false).bind fun (r, b) => .ok (r, a ++ b)

end Verif.Model.Assets
