import Verif.Basic
import Verif.Model.Text

/-!
# Files (`file.c`)

The file system is a function from names (bytes without NUL) to contents. What may be opened or removed, how much memory is
left and how many bytes a call of `fwrite` accepts are parameters. Names of folders, and other processes, are not modelled.
-/

namespace Verif.Model.File

/-- The contents of the files. -/
abbrev Disk := Text → Option Text

/-- What the operating system permits. -/
structure Os where
  mayRead : Text → Bool
  mayWrite : Text → Bool
  mayRemove : Text → Bool
  /-- Bytes that can still be allocated. -/
  memory : Nat

/-- `ctr_heap_allocate_cstring`, `memory.c:264-281`: NUL bytes are left out. -/
def stripped (p : Text) : Text := p.filter (· != 0)

/-- The name that `fopen` sees if bytes are copied as they are, `file.c:122-126`: it ends at the first NUL byte. -/
def cut (p : Text) : Text := p.takeWhile (· != 0)

/-- `fopen( p, "r" )` or `"rb"`: the contents. -/
def openRead (os : Os) (d : Disk) (p : Text) : Option Text :=
  if p ≠ [] ∧ os.mayRead p = true then d p else none

/-- `fopen( p, "wb+" )` or `"ab+"` succeeds. -/
def openWrite (os : Os) (p : Text) : Prop := p ≠ [] ∧ os.mayWrite p = true

instance (os : Os) (p : Text) : Decidable (openWrite os p) := by unfold openWrite; infer_instance

/-- New contents of a file. -/
def Disk.put (d : Disk) (p : Text) (t : Option Text) : Disk := fun q => if q = p then t else d q

/-- Answers: nothing, the file itself, a text, a boolean, a number; `error` if an error is raised. -/
inductive Reply where
  | nil | self | text (t : Text) | bool (b : Bool) | number (n : Int) | error
  deriving DecidableEq

/-- Messages to a file. `room` is the number of bytes that `fwrite` accepts. -/
inductive Op where
  | read
  | write (t : Text) (room : Nat)
  | append (t : Text) (room : Nat)
  | isThere
  | delete
  | size
  deriving DecidableEq

/-- `(int) ftell( f )`. -/
def toInt (n : Nat) : Int := Int.bmod n 4294967296

/-- `ctr_file_read`, `file.c:66-102`. -/
def read (os : Os) (path : Option Text) (d : Disk) : Out (Reply × Disk) :=
  match path with
  | none => .ok (.nil, d)
  | some p =>
    match openRead os d (stripped p) with
    | none => .ok (.error, d)
    | some t => if t.length + 1 > os.memory then .exit else .ok (.text t, d)

/-- `ctr_file_write`, `file.c:114-136`. The answer of `fwrite` is not used. -/
def write (os : Os) (path : Option Text) (t : Text) (room : Nat) (d : Disk) : Out (Reply × Disk) :=
  match path with
  | none => .ok (.nil, d)
  | some p =>
    if openWrite os (cut p) then .ok (.self, d.put (cut p) (some (t.take room)))
    else .ok (.error, d)

/-- `ctr_file_append`, `file.c:149-167`. The answer of `fwrite` is not used. -/
def append (os : Os) (path : Option Text) (t : Text) (room : Nat) (d : Disk) : Out (Reply × Disk) :=
  match path with
  | none => .ok (.self, d)
  | some p =>
    if openWrite os (stripped p) then
      .ok (.self, d.put (stripped p) (some ((d (stripped p)).getD [] ++ t.take room)))
    else .ok (.error, d)

/-- `ctr_file_exists`, `file.c:177-191`. -/
def isThere (os : Os) (path : Option Text) (d : Disk) : Out (Reply × Disk) :=
  match path with
  | none => .ok (.bool false, d)
  | some p => .ok (.bool (openRead os d (stripped p)).isSome, d)

/-- `ctr_file_delete`, `file.c:204-217`. -/
def delete (os : Os) (path : Option Text) (d : Disk) : Out (Reply × Disk) :=
  match path with
  | none => .ok (.self, d)
  | some p =>
    if (d (stripped p)).isSome ∧ stripped p ≠ [] ∧ os.mayRemove (stripped p) = true then
      .ok (.self, d.put (stripped p) none)
    else .ok (.error, d)

/-- `ctr_file_size`, `file.c:230-249`. -/
def size (os : Os) (path : Option Text) (d : Disk) : Out (Reply × Disk) :=
  match path with
  | none => .ok (.number 0, d)
  | some p =>
    match openRead os d (stripped p) with
    | none => .ok (.number 0, d)
    | some t => .ok (.number (toInt t.length), d)

/-- A message to the file with a path (`none` for a file made without one). -/
def send (os : Os) (path : Option Text) (op : Op) (d : Disk) : Out (Reply × Disk) :=
  match op with
  | .read => read os path d
  | .write t room => write os path t room d
  | .append t room => append os path t room d
  | .isThere => isThere os path d
  | .delete => delete os path d
  | .size => size os path d

/-- Messages one after the other, to any files; errors are caught in between. -/
def run (os : Os) : List (Text × Op) → Disk → Out (List Reply × Disk)
  | [], d => .ok ([], d)
  | (p, op) :: l, d =>
    (send os (some p) op d).bind fun r => (run os l r.2).bind fun q => .ok (r.1 :: q.1, q.2)

/-! ## Folders -/

/-- Kinds of entries of a folder. -/
inductive Kind where
  | file | folder | link | charDevice | blockDevice | socket | pipe | other
  deriving DecidableEq

/-- `PATH_MAX`. -/
def pathMax : Nat := 4096

/-- The loop of `ctr_file_list`, `file.c:291-331`. `resolve` is `realpath` followed by `lstat`: the kind of what a path leads
to after all links, if anything. The buffers have `PATH_MAX + 1` bytes; the text and its NUL byte are copied into one. -/
def listLoop (resolve : Text → Option Kind) (path : Text) : List Text → Out (List (Text × Kind))
  | [] => .ok []
  | n :: l =>
    if 1 + 1 + n.length > pathMax then listLoop resolve path l
    else if path.length + 1 + n.length + 1 > pathMax + 1 then .ub
    else
      (listLoop resolve path l).bind fun r =>
        match resolve (path ++ [47] ++ n) with
        | none => .ok r
        | some k => .ok ((n, k) :: r)

/-- `ctr_file_list`, `file.c:258-339`, without errors from `opendir`: `entries` are the names that `readdir` answers.
`opendir` refuses names of `PATH_MAX` bytes or more. The answer is `none` if an error is raised. -/
def list (openDir : Text → Option (List Text)) (resolve : Text → Option Kind) (path : Text) :
    Out (Option (List (Text × Kind))) :=
  if (stripped path).length ≥ pathMax then .ok none
  else
    match openDir (stripped path) with
    | none => .ok none
    | some names => (listLoop resolve (stripped path) names).bind fun r => .ok (some r)

end Verif.Model.File
