import Verif.Basic
import Verif.Model.Text
import Verif.Model.File
import Verif.Spec.System

/-!
# The program and its surroundings (`system.c`, `citrine.c`)

Settings, arguments, input, shell commands, words that form a text, included programs and the command line.
-/

namespace Verif.Model.System

open Verif.Spec.System (Act Place)

/-! ## Settings -/

/-- The C library's table of settings: entries `name=value`. -/
abbrev Environ := List Text

/-- `getenv`, C library: the first entry that begins with the name and `=`. -/
def getenv (env : Environ) (n : Text) : Option Text :=
  match env with
  | [] => none
  | e :: env => if (n ++ [61]).isPrefixOf e = true then some (e.drop (n.length + 1)) else getenv env n

/-- The first entry for the name is replaced; a new entry comes last. -/
def replace (env : Environ) (n v : Text) : Environ :=
  match env with
  | [] => [n ++ [61] ++ v]
  | e :: env => if (n ++ [61]).isPrefixOf e = true then (n ++ [61] ++ v) :: env else e :: replace env n v

/-- `setenv( n, v, 1 )`, C library: refuses the empty name and names with `=`. -/
def setenv (env : Environ) (n v : Text) : Environ :=
  if n = [] ∨ 61 ∈ n then env else replace env n v

/-- `unsetenv( n )`, C library. -/
def unsetenv (env : Environ) (n : Text) : Environ :=
  if n = [] ∨ 61 ∈ n then env else env.filter fun e => !(n ++ [61]).isPrefixOf e

/-- `ctr_program_get_env`, `system.c:506-520`: `strncpy` stops at a NUL byte. -/
def getSetting (env : Environ) (n : Text) : Option Text := getenv env (File.cut n)

/-- `ctr_program_set_env`, `system.c:533-551`: `ctr_heap_allocate_cstring` leaves NUL bytes out. `none` is nothing (`Nil`). -/
def setSetting (env : Environ) (n : Text) (v : Option Text) : Environ :=
  match v with
  | none => unsetenv env (File.stripped n)
  | some v => setenv env (File.stripped n) (File.stripped v)

/-- Settings one after the other. -/
def setAll (env : Environ) : List (Text × Option Text) → Environ
  | [] => env
  | (n, v) :: l => setAll (setSetting env n v) l

/-! ## Arguments -/

/-- `(int)` of a number that is `n` after cutting its fraction. -/
def toInt (n : Int) : Out Int := if InInt n then .ok n else .ub

/-- `ctr_program_argument`, `system.c:327-332`; `n` is the number without its fraction. -/
def argument (argv : List Text) (n : Int) : Out (Option Text) :=
  (toInt n).bind fun n =>
    if n > argv.length ∨ n < 1 then .ok none
    else
      match argv[(n - 1).toNat]? with
      | some t => .ok (some t)
      | none => .ub

/-- `ctr_program_num_of_args`, `system.c:477-479`. -/
def arguments (argv : List Text) : Nat := argv.length

/-! ## Input -/

/-- How the input is delivered: pieces of any size, and whether an error follows instead of the end. -/
structure Stream where
  pieces : List Text
  broken : Bool
  deriving DecidableEq

/-- `fread( buffer, 1, n, stdin )`, C library: pieces are put together until there are `n` bytes or there is an end (the
third component says that `feof` holds). -/
def fread (broken : Bool) : Nat → List Text → Text × List Text × Bool
  | n, [] => if n = 0 then ([], [], false) else ([], [], !broken)
  | n, p :: ps =>
    if n = 0 then ([], p :: ps, false)
    else if p.length < n then
      let r := fread broken (n - p.length) ps
      (p ++ r.1, r.2)
    else (p.take n, p.drop n :: ps, false)

/-- The loop of `ctr_program_input`, `system.c:655-661`. `none`: still reading when the fuel is used up. -/
def inputLoop (broken : Bool) : Nat → List Text → Text → Option Text
  | 0, _, _ => none
  | fuel + 1, ps, content =>
    let r := fread broken 64 ps
    if r.1.length ≠ 64 ∧ r.2.2 = true then some (content ++ r.1) else inputLoop broken fuel r.2.1 (content ++ r.1)

/-- `ctr_program_input`, `system.c:647-669`. -/
def input (fuel : Nat) (s : Stream) : Option Text :=
  match inputLoop s.broken fuel s.pieces [] with
  | none => none
  | some t => if 0 < t.length ∧ t[t.length - 1]? = some 10 then some (t.take (t.length - 1)) else some t

/-- The loop of `ctr_program_waitforinput`, `system.c:572-583` (and `617-628`, a password): `page` bytes are allocated for
`buff`; a block of more than `memory` bytes ends the program, `memory.c:196-256`. At the end of the input `getchar` answers
`EOF`, which is stored as a byte. `none`: still reading when the fuel is used up. -/
def askLoop (memory : Nat) : Nat → Nat → Text → Text → Option (Out (Text × Text))
  | 0, _, _, _ => none
  | fuel + 1, page, buff, rest =>
    if rest.head? = some 10 then some (.ok (buff, rest.tail))
    else if buff.length ≥ page then some .ub
    else
      let buff' := buff ++ [rest.headD 255]
      if buff'.length ≥ page then
        if page * 2 > memory then some .exit else askLoop memory fuel (page * 2) buff' rest.tail
      else askLoop memory fuel page buff' rest.tail

/-- `ctr_program_waitforinput`, `system.c:565-587`: the answer and the rest of the input. -/
def ask (memory fuel : Nat) (rest : Text) : Option (Out (Text × Text)) := askLoop memory fuel 10 [] rest

/-! ## Shell commands -/

/-- What `fgets( buffer, n + 1, stream )` takes from the output: at most `n` bytes, up to the end of the line. -/
def line : Nat → Text → Text
  | 0, _ => []
  | _, [] => []
  | n + 1, c :: t => if c = 10 then [c] else c :: line n t

/-- The loop of `ctr_program_shell`, `system.c:306-310`: a NUL byte ends the text in the buffer. -/
def shellLoop : Nat → Text → Option Text
  | 0, _ => none
  | fuel + 1, out =>
    if out = [] then some []
    else (shellLoop fuel (out.drop (line 511 out).length)).map fun r => File.cut (line 511 out) ++ r

/-- `ctr_program_shell`, `system.c:290-316`: `popen` answers the output of a command, if it can be started. `fgets` is called
also if it cannot. -/
def shell (popen : Text → Option Text) (fuel : Nat) (command : Text) : Option (Out Text) :=
  match popen (File.cut command) with
  | none => some .ub
  | some out => (shellLoop fuel out).map .ok

/-! ## Words that form a text -/

/-- Texts in memory, the collecting object (its glue, if any, and which text it collects) and the texts that were obtained
from it. -/
structure Slurp where
  store : List Text
  glue : Option Text
  command : Option Nat
  obtained : List Nat
  deriving DecidableEq

/-- `ctr_string_append`, `base.c:1794-1813`, to the text number `i`. -/
def appendTo (store : List Text) (i : Nat) (t : Text) : Out (List Text) :=
  match store[i]? with
  | none => .ub
  | some s => .ok (store.set i (s ++ t))

/-- `ctr_slurp_respond_to`, `system.c:1528-1548`. Without glue, `ctr_string_append` reads from the null pointer. -/
def respondTo (s : Slurp) (word : Text) : Out Slurp :=
  match s.command with
  | none =>
    (appendTo (s.store ++ [[]]) s.store.length word).bind fun st =>
      .ok { s with store := st, command := some s.store.length }
  | some i =>
    match s.glue with
    | none => .ub
    | some g =>
      (appendTo s.store i g).bind fun st => (appendTo st i word).bind fun st => .ok { s with store := st }

/-- `ctr_slurp_respond_to_and`, `system.c:1588-1607`; `sign` is `ctr_clex_param_prefix_char`. -/
def respondToAnd (sign : UInt8) (s : Slurp) (name arg : Text) : Out Slurp :=
  if name.length > 0 ∧ name[name.length - 1]? = some sign then
    (respondTo s (name.take (name.length - 1))).bind fun s => respondTo s arg
  else (respondTo s name).bind fun s => respondTo s arg

/-- What the user does with a collecting object: send a message that is not understood, obtain the text, or change the
`i`-th text obtained so far by appending to it. -/
inductive SlurpOp where
  | say (name : Text) (args : List Text)
  | obtain
  | change (i : Nat) (t : Text)
  deriving DecidableEq

/-- `ctr_send_message`, `world.c:1099-1122`, for names that neither `Slurp` nor `Object` understand: two or three arguments
lead to `ctr_object_respond_and_and`, `base.c:546-552`, which does nothing. `ctr_slurp_obtain`, `system.c:1656-1667`, and
`ctr_slurp_to_string`, `system.c:1678-1684`. -/
def slurpStep (sign : UInt8) (s : Slurp) : SlurpOp → Out Slurp
  | .say n [] => respondTo s n
  | .say n [a] => respondToAnd sign s n a
  | .say _ [_, _] => .ok s
  | .say _ [_, _, _] => .ok s
  | .say n _ => respondTo s n
  | .obtain =>
    match s.command with
    | some i => .ok { s with obtained := s.obtained ++ [i] }
    | none => .ok { s with store := s.store ++ [[]], obtained := s.obtained ++ [s.store.length] }
  | .change i t =>
    match s.obtained[i]? with
    | none => .ok s
    | some r => (appendTo s.store r t).bind fun st => .ok { s with store := st }

/-- Several of them. -/
def slurpRun (sign : UInt8) : Slurp → List SlurpOp → Out Slurp
  | s, [] => .ok s
  | s, op :: l => (slurpStep sign s op).bind fun s => slurpRun sign s l

/-- The object `Slurp` itself, `world.c:1009-1016`: no glue. -/
def slurpItself : Slurp := ⟨[], none, none, []⟩

/-- The new object made by the first message to `Path` or `Command`, `system.c:1550-1581`. -/
def collecting (glue : Text) : Slurp := ⟨[], some glue, none, []⟩

/-- What is read from the `i`-th obtained text. -/
def Slurp.text (s : Slurp) (i : Nat) : Option Text := s.obtained[i]? >>= fun r => s.store[r]?

/-! ## Included programs -/

/-- The operating system: folders, files with the programs they contain, `getcwd` (`none` if the name does not fit into 1000
bytes) and `dirname`. -/
structure World (Dir : Type) where
  place : Place Dir
  getcwd : Dir → Option Text
  dirname : Text → Text

/-- The state: the folder that the process is in, the files read so far, and whether an error is pending. -/
structure Here (Dir : Type) where
  cwd : Dir
  trace : List (Dir × Text)
  failed : Bool

/-- `ctr_program_include`, `system.c:369-413`, and `ctr_cwlk_run`, as far as it concerns including: while an error is pending,
nothing more is done. A missing file ends the process, `world.c:52-56`. `none`: the fuel is used up. -/
def runActs {Dir : Type} (w : World Dir) : Nat → Here Dir → List Act → Option (Out (Here Dir))
  | 0, _, _ => none
  | _ + 1, s, [] => some (.ok s)
  | fuel + 1, s, a :: l =>
    if s.failed then runActs w fuel s l
    else
      match a with
      | .other => runActs w fuel s l
      | .fail => runActs w fuel { s with failed := true } l
      | .use f =>
        match w.getcwd s.cwd with
        | none => runActs w fuel s l
        | some here =>
          match w.place.program s.cwd f with
          | none => some .exit
          | some none => runActs w fuel { s with trace := s.trace ++ [(s.cwd, f)], failed := true } l
          | some (some p) =>
            match w.place.go s.cwd (w.dirname f) with
            | none => runActs w fuel { s with trace := s.trace ++ [(s.cwd, f)] } l
            | some d =>
              match runActs w fuel { cwd := d, trace := s.trace ++ [(s.cwd, f)], failed := false } p with
              | none => none
              | some .exit => some .exit
              | some .ub => some .ub
              | some (.ok s') =>
                match w.place.go s'.cwd here with
                | none => runActs w fuel s' l
                | some d => runActs w fuel { s' with cwd := d } l

/-! ## The command line -/

/-- What `ctr_cli_read_args` leaves behind. -/
structure Options where
  mode : Nat
  sandbox : Bool
  input : Option Text
  dict : Option Text
  h1 : Option Text
  h2 : Option Text
  deriving DecidableEq

/-- `strncpy( buffer, argv[i], 254 )` into 255 bytes that are all NUL. The element after the last one is the null pointer. -/
def copied (argv : List Text) (i : Nat) : Out Text :=
  match argv[i]? with
  | none => .ub
  | some t => .ok (t.take 254)

/-- `strncmp( t, option, 2 ) == 0`. -/
def isOption (t : Text) (c : UInt8) : Bool := t.take 2 == [45, c]

/-- `ctr_cli_read_args`, `citrine.c:49-91`. `exit` after the welcome message or an explanation. -/
def readArgs (argv : List Text) : Out Options :=
  if argv.length = 1 then .exit
  else
    match argv[1]? with
    | none => .ub
    | some a =>
      if isOption a 120 then (copied argv 2).bind fun f => .ok ⟨3, false, some f, none, none, none⟩
      else
        (if isOption a 103 then
          if argv.length < 4 then (.exit : Out (Nat × Option Text × Option Text))
          else (copied argv 2).bind fun h1 => (copied argv 3).bind fun h2 => .ok (2, some h1, some h2)
        else .ok (0, none, none)).bind fun g =>
          if isOption a 116 then
            if argv.length < 4 then .exit
            else (copied argv 2).bind fun d => (copied argv 3).bind fun f =>
              .ok ⟨1, false, some f, some d, g.2.1, g.2.2⟩
          else if isOption a 115 then (copied argv 2).bind fun f => .ok ⟨g.1, true, some f, none, g.2.1, g.2.2⟩
          else (copied argv 1).bind fun f => .ok ⟨g.1, false, some f, none, g.2.1, g.2.2⟩

/-- What `main`, `citrine.c:140-150` and `166-171`, does with the options: translate, make a dictionary, print the tree, or
run. -/
def request (o : Options) : Option Spec.System.Request :=
  if o.mode = 1 then o.dict.bind fun d => o.input.map fun f => .translate d f
  else if o.mode = 2 then o.h1.bind fun a => o.h2.map fun b => .dictionary a b
  else if o.mode = 3 then o.input.map .tree
  else o.input.map fun f => if o.sandbox then .sandbox f else .run f

/-! ## Limits -/

/-- `ctr_gc_setmemlimit`, `system.c:235-252`: `n` is the number without its fraction, `unit` its qualifier. -/
def memoryLimit (n : Int) (unit : Option Text) : Out Nat :=
  if n < 0 ∨ n ≥ 18446744073709551616 then .ub
  else
    match unit with
    | none => .ok n.toNat
    | some u =>
      if u.length = 2 then
        if u = [75, 66] then .ok (n.toNat * 1000 % 18446744073709551616)
        else if u = [77, 66] then .ok (n.toNat * 1000000 % 18446744073709551616)
        else .ok n.toNat
      else .ok n.toNat

/-- The limits at the start, `main`, `citrine.c:153-159`: the values of `atoi` for the three settings. The first product is a
product of `int`s, converted to 64 bits; the share is kept in a `char`. The answer: the limit and the size of the pool. -/
def limits (limit mode share : Option Int) : Out (Nat × Option Nat) :=
  (match limit with
  | none => (.ok 10000000 : Out Nat)
  | some n => if InInt (n * 1000000) then .ok ((n * 1000000) % 18446744073709551616).toNat else .ub).bind fun m =>
    let gcMode := mode.getD 1
    let share : Int := match share with | none => 2 | some n => Int.bmod n 256
    if gcMode % 16 / 8 = 1 then
      if share = 0 then .ub else .ok (m, some (m / (share % 18446744073709551616).toNat))
    else .ok (m, none)

end Verif.Model.System
