import Verif.Basic
import Verif.Model.Text

/-!
# Web requests (`plugins/request/request.c`, `plugins/request/ccgi-1.2/ccgi.c`)

A variable list is the list of its entries: a name and its values, in the order of the linked lists.

Simplifications: `malloc` succeeds or the program ends (`ccgi.c:77-85`); the buffers that grow (`strbuf`,
`ccgi.c:87-131`) are lists, texts of 1 GB and more (where their sizes, kept in an `int`, overflow) are left out;
`isalnum` and `strncasecmp` are those of the C locale of glibc, which are defined for negative `char`s.
-/

namespace Verif.Model.Req
open Verif.Model

/-- The C string that starts here. -/
def cstr (t : Text) : Text := t.takeWhile (· != 0)

/-- A variable list, `ccgi.c:56-65`: entries with a name and at least one value. -/
abbrev Vars := List (Text × List Text)

/-- `CGI_add_var`, `ccgi.c:728-775`: adds the value to the first entry with this name (`findvar`, `ccgi.c:140-153`) or a new
entry at the end. Name and value are C strings. -/
def addVar : Vars → Text → Text → Vars
  | [], n, x => [(n, [x])]
  | (m, xs) :: v, n, x => if m = n then (m, xs ++ [x]) :: v else (m, xs) :: addVar v n x

/-- `CGI_lookup_all`, `ccgi.c:981-1004`, with `findvar`, `ccgi.c:140-153`; `none` stands for a null pointer. -/
def lookupAll : Vars → Text → Option (List Text)
  | [], _ => none
  | (m, xs) :: v, n => if m = n then some xs else lookupAll v n

/-- `CGI_lookup`, `ccgi.c:966-969`: the first value. -/
def lookup : Vars → Text → Option Text
  | [], _ => none
  | (m, xs) :: v, n => if m = n then xs.head? else lookup v n

/-! ## Queries -/

/-- `hex`, `ccgi.c:160-177`. The zero byte that ends a text is no digit. -/
def hex (c : UInt8) : Option Nat :=
  if 48 ≤ c ∧ c ≤ 57 then some (c.toNat - 48)
  else if 65 ≤ c ∧ c ≤ 70 then some (10 + c.toNat - 65)
  else if 97 ≤ c ∧ c ≤ 102 then some (10 + c.toNat - 97)
  else none

/-- `%` and two digits, `ccgi.c:833-840`: the second digit is looked at only if the first is one, so nothing is read
behind the end of the text. -/
def escape : Text → Option UInt8
  | a :: b :: _ =>
    match hex a, hex b with
    | some l, some r => some (UInt8.ofNat (l * 16 + r))
    | _, _ => none
  | _ => none

/-- Writing a byte to the buffer of `size` bytes at the position `k`. -/
def put (size : Nat) (buf : Text) (c : UInt8) : Out Text :=
  if buf.length < size then .ok (buf ++ [c]) else .ub

/-- End of a field, `ccgi.c:813-827`: the buffer holds the bytes `buf`; `val` is where the value starts, if there is a name
already. -/
def flush (size : Nat) (buf : Text) (val : Option Nat) (v : Vars) : Out Vars :=
  (put size buf 0).bind fun b =>
    match val with
    | some o => .ok (addVar v (cstr b) (cstr (b.drop o)))
    | none => .ok (if 0 < buf.length then addVar v (cstr b) [] else v)

/-- The loop of `CGI_decode_query`, `ccgi.c:799-844`; `skip` are the bytes passed over by `i += 2`. -/
def decode (size : Nat) : Text → Nat → Text → Option Nat → Vars → Out Vars
  | [], _, buf, val, v => flush size buf val v
  | _ :: r, n + 1, buf, val, v => decode size r n buf val v
  | c :: r, 0, buf, val, v =>
    if c = 61 ∧ val = none then
      if 0 < buf.length then
        (put size buf 0).bind fun b => decode size r 0 b (some b.length) v
      else decode size r 0 buf val v
    else if c = 0 then flush size buf val v
    else if c = 38 then (flush size buf val v).bind fun v => decode size r 0 [] none v
    else if c = 43 then (put size buf 32).bind fun b => decode size r 0 b val v
    else
      match (if c = 37 then escape r else none) with
      | some x => (put size buf x).bind fun b => decode size r 2 b val v
      | none => (put size buf c).bind fun b => decode size r 0 b val v

/-- `CGI_decode_query`, `ccgi.c:788-847`, for a buffer of `strlen` + 1 bytes. -/
def decodeQuery (v : Vars) (q : Text) : Out Vars := decode ((cstr q).length + 1) q 0 [] none v

/-- `CGI_get_query`, `ccgi.c:878-881`. -/
def getQuery (env : Option Text) : Out Vars :=
  match env with
  | some q => decodeQuery [] q
  | none => .ok []

/-! ## Cookies -/

/-- `scanspaces`, `ccgi.c:227-233`. -/
def scanspaces (t : Text) : Text := t.dropWhile fun c => c == 32 || c == 9

/-- Signs that end a value without quotes, `ccgi.c:272-273`. -/
def stops (c : UInt8) : Bool := c == 59 || c == 32 || c == 9 || c == 13 || c == 10

/-- The value of an attribute, `ccgi.c:255-281`: the value and what follows. -/
def scanvalue (r : Text) : Option (Text × Text) :=
  match r with
  | q :: s =>
    if q = 34 ∨ q = 39 ∨ q = 96 then
      let x := s.takeWhile (· != q)
      match s.drop x.length with
      | [] => none
      | _ :: u => some (x, if u.head? = some 59 then u.drop 1 else u)
    else
      let x := (q :: s).takeWhile (fun c => !stops c)
      some (x, (q :: s).drop (x.length + 1))
  | [] => some ([], [])

/-- `scanattr`, `ccgi.c:243-282`: name, value, and what follows. -/
def scanattr (t : Text) : Option (Text × Text × Text) :=
  let t := scanspaces t
  let n := t.takeWhile (· != 61)
  match t.drop n.length with
  | [] => none
  | _ :: r => if n = [] then none else (scanvalue r).map fun x => (n, x)

/-- The loop of `CGI_get_cookie`, `ccgi.c:865-867`. -/
def cookies : Nat → Text → Vars → Out Vars
  | 0, _, _ => .ub
  | fuel + 1, t, v =>
    match scanattr t with
    | some (n, x, r) => cookies fuel r (addVar v n x)
    | none => .ok v

/-- `CGI_get_cookie`, `ccgi.c:855-870`. Each attribute takes at least two bytes. -/
def getCookie (env : Option Text) : Out Vars :=
  match env with
  | some t => cookies ((cstr t).length + 1) (cstr t) []
  | none => .ok []

/-! ## Forms -/

/-- `isalnum`. -/
def isalnum (c : UInt8) : Bool := (48 ≤ c && c ≤ 57) || (65 ≤ c && c ≤ 90) || (97 ≤ c && c ≤ 122)

/-- `tolower`. -/
def lower (c : UInt8) : UInt8 := if 65 ≤ c ∧ c ≤ 90 then c + 32 else c

/-- `strcasecmp` answers 0. -/
def samecase (a b : Text) : Bool := a.map lower == b.map lower

/-- `scanheader`, `ccgi.c:295-316`: name, value, and what follows. -/
def scanheader (t : Text) : Option (Text × Text × Text) :=
  match t with
  | [] => none
  | c :: _ =>
    if isalnum c = false then none
    else
      let n := t.takeWhile (· != 58)
      match t.drop n.length with
      | [] => none
      | _ :: r =>
        let r := scanspaces r
        let x := r.takeWhile fun c => c != 59 && c != 13 && c != 10
        some (n, x, r.drop (x.length + 1))

/-- `readline`, `ccgi.c:325-342`: the line with its end, and the rest of the input; `none` at the end of the input. -/
def readline (inp : Text) : Option (Text × Text) :=
  let l := inp.takeWhile (· != 10)
  if inp = [] then none
  else some (inp.take (l.length + 1), inp.drop (l.length + 1))

/-- The loop of `copyvalue`, `ccgi.c:361-400`: the contents up to the boundary, and the rest of the input. `getc` answers a
byte as 0 to 255, the boundary consists of signed `char`s: bytes from 128 on are never the same. -/
def copyLoop (b : Text) : Text → Nat → Text → Text × Text
  | [], _, out => (out, [])
  | c :: r, m, out =>
    let same := fun k => decide (c.toNat < 128) && b[k]? == some c
    let back := decide (0 < m) && !same m
    let out := if back then out ++ b.take m else out
    let m := if back then 0 else m
    if same m then
      if m + 1 = b.length then (out, r) else copyLoop b r (m + 1) out
    else copyLoop b r m (out ++ [c])

/-- `Content-Disposition` -/
def sDisposition : Text :=
  [67, 111, 110, 116, 101, 110, 116, 45, 68, 105, 115, 112, 111, 115, 105, 116, 105, 111, 110]

/-- `form-data` -/
def sFormData : Text := [102, 111, 114, 109, 45, 100, 97, 116, 97]

/-- `name` -/
def sName : Text := [110, 97, 109, 101]

/-- `filename` -/
def sFilename : Text := [102, 105, 108, 101, 110, 97, 109, 101]

/-- The attributes of a head line, `ccgi.c:485-498`. -/
def attributes : Nat → Text → Option Text × Option Text → Out (Option Text × Option Text)
  | 0, _, _ => .ub
  | fuel + 1, t, s =>
    match scanattr t with
    | none => .ok s
    | some (n, x, r) =>
      attributes fuel r
        (if s.1.isNone && samecase n sName then (some x, s.2)
        else if s.2.isNone && samecase n sFilename then (s.1, some x)
        else s)

/-- The head lines of a part, `ccgi.c:473-499`: the line that is no head line (`none` at the end of the input), name and
file name, and the rest of the input. -/
def heads : Nat → Text → Option Text × Option Text → Out (Option Text × (Option Text × Option Text) × Text)
  | 0, _, _ => .ub
  | fuel + 1, inp, s =>
    match readline inp with
    | none => .ok (none, s, inp)
    | some (l, rest) =>
      match scanheader (cstr l) with
      | none => .ok (some l, s, rest)
      | some (h, x, r) =>
        if samecase h sDisposition && samecase x sFormData then
          (attributes (r.length + 1) r s).bind fun s => heads fuel rest s
        else heads fuel rest s

/-- What has been read: the variables, the new files with their contents, and how often `mkstemp` was called. -/
structure Got where
  vars : Vars
  files : List (Text × Text)
  calls : Nat
  deriving DecidableEq

/-- `mkstemp` and `fdopen`: the name of the new file for each call, or that one of them failed (an empty file `fdopen` could not
open is not modelled). -/
abbrev Temp := Nat → Option Text

/-- The contents of a part, `ccgi.c:515-540`, without reading them. -/
def keepPart (tmp : Temp) (n : Text) (f : Option Text) (x : Text) (g : Got) : Got :=
  match f with
  | some f =>
    if f = [] then g
    else
      match tmp g.calls with
      | some p => ⟨addVar (addVar g.vars n p) n f, g.files ++ [(p, x)], g.calls + 1⟩
      | none => { g with calls := g.calls + 1 }
  | none => { g with vars := addVar g.vars n (cstr x) }

/-- The loop over the parts, `ccgi.c:469-553`. -/
def parts (tmp : Temp) (b : Text) : Nat → Text → Got → Out Got
  | 0, _, _ => .ub
  | fuel + 1, inp, g =>
    (heads (inp.length + 1) inp (none, none)).bind fun h =>
      match h with
      | (some l, (some n, f), rest) =>
        if l.take 2 = [13, 10] then
          let c := copyLoop b rest 0 []
          let g := keepPart tmp n f c.1 g
          match readline c.2 with
          | some (l, rest) => if l.take 4 = [45, 45, 13, 10] then .ok g else parts tmp b fuel rest g
          | none => parts tmp b fuel [] g
        else .ok g
      | _ => .ok g

/-- `multipart/form-data;` -/
def sMultipart : Text :=
  [109, 117, 108, 116, 105, 112, 97, 114, 116, 47, 102, 111, 114, 109, 45, 100, 97, 116, 97, 59]

/-- `boundary` -/
def sBoundary : Text := [98, 111, 117, 110, 100, 97, 114, 121]

/-- `read_multipart`, `ccgi.c:426-575`. -/
def readMultipart (tmp : Temp) (kind : Option Text) (inp : Text) : Out Got :=
  match kind with
  | none => .ok ⟨[], [], 0⟩
  | some k =>
    if samecase ((cstr k).take 20) sMultipart = false then .ok ⟨[], [], 0⟩
    else
      match scanattr ((cstr k).drop 20) with
      | none => .ok ⟨[], [], 0⟩
      | some (n, x, _) =>
        if samecase n sBoundary = false then .ok ⟨[], [], 0⟩
        else
          let b := [13, 10, 45, 45] ++ x
          match readline inp with
          | none => .ok ⟨[], [], 0⟩
          | some (l, rest) =>
            if (cstr l).take (b.length - 2) = b.drop 2 ∧ (l.drop (b.length - 2)).take 2 = [13, 10] then
              parts tmp b (inp.length + 1) rest ⟨[], [], 0⟩
            else .ok ⟨[], [], 0⟩

/-- `application/x-www-form-urlencoded` -/
def sUrlencoded : Text :=
  [97, 112, 112, 108, 105, 99, 97, 116, 105, 111, 110, 47, 120, 45, 119, 119, 119, 45, 102, 111, 114, 109, 45, 117, 114, 108,
    101, 110, 99, 111, 100, 101, 100]

/-- Value of decimal digits. -/
def number (acc : Nat) : Text → Nat
  | [] => acc
  | c :: r => if 48 ≤ c ∧ c ≤ 57 then number (acc * 10 + (c.toNat - 48)) r else acc

/-- `atoi`: blanks, a sign, digits. A number that is no `int` is undefined behaviour. -/
def atoi (t : Text) : Out Int :=
  let t := t.dropWhile Txt.isspace
  let n : Int :=
    match t with
    | c :: r => if c = 45 then - (number 0 r : Int) else if c = 43 then number 0 r else number 0 (c :: r)
    | [] => 0
  if InInt n then .ok n else .ub

/-- `CGI_get_post`, `ccgi.c:896-918`: a form in the manner of a query is read if the input is as long as announced;
`len + 1` of the largest `int` is undefined behaviour. -/
def getPost (tmp : Temp) (kind len : Option Text) (inp : Text) : Out Got :=
  match kind, len with
  | some k, some l =>
    if samecase ((cstr k).take 33) sUrlencoded then
      (atoi (cstr l)).bind fun n =>
        if 0 < n then
          if n = 2147483647 then .ub
          else if inp.length < n.toNat then .ok ⟨[], [], 0⟩
          else (decodeQuery [] (inp.take n.toNat)).bind fun v => .ok ⟨v, [], 0⟩
        else readMultipart tmp kind inp
    else readMultipart tmp kind inp
  | _, _ => readMultipart tmp kind inp

/-! ## The messages of the object -/

/-- `ctr_heap_allocate_cstring`, `memory.c:264-281`: NUL bytes are left out. -/
def cstring (t : Text) : Text := t.filter (· != 0)

/-- `ctr_request_string`, `request.c:42-52`: `none` is Nil. -/
def requestString (v : Vars) (name : Text) : Option Text := lookup v (cstring name)

/-- `ctr_request_array`, `request.c:59-83`. -/
def requestArray (v : Vars) (name : Text) : List Text := (lookupAll v (cstring name)).getD []

/-- `ctr_request_file`, `request.c:199-221`. -/
def requestFile (v : Vars) (name : Text) : List Text :=
  match lookupAll v (cstring name) with
  | some (a :: b :: r) => a :: b :: r
  | _ => []

end Verif.Model.Req
