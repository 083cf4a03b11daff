import Verif.Basic

/-!
# What a web request says

Independent of the model of `plugins/request`.
-/

namespace Verif.Spec.Req

abbrev Bytes := List UInt8

/-! ## Fields and what is asked for -/

/-- All values of a field, in the order in which they were sent. -/
def valuesOf (fs : List (Bytes × Bytes)) (n : Bytes) : List Bytes := (fs.filter (·.1 == n)).map (·.2)

/-! ## Queries -/

/-- The value of a hexadecimal digit, small or capital. -/
def digit (c : UInt8) : Option Nat :=
  if 48 ≤ c.toNat ∧ c.toNat ≤ 57 then some (c.toNat - 48)
  else if 65 ≤ c.toNat ∧ c.toNat ≤ 70 then some (c.toNat - 55)
  else if 97 ≤ c.toNat ∧ c.toNat ≤ 102 then some (c.toNat - 87)
  else none

/-- The byte two hexadecimal digits stand for. -/
def pair (a b : UInt8) : Option UInt8 :=
  match digit a, digit b with
  | some x, some y => some (UInt8.ofNat (16 * x + y))
  | _, _ => none

/-- What stands for what in a query: `+` for a blank, `%` and two digits for a byte, everything else for itself. -/
def plain : Bytes → Bytes
  | [] => []
  | 37 :: a :: b :: r =>
    match pair a b with
    | some c => c :: plain r
    | none => 37 :: plain (a :: b :: r)
  | c :: r => (if c = 43 then 32 else c) :: plain r

/-- A way to write a text in a query: every byte for itself unless it has a meaning of its own, a blank as `+`, any byte
as `%` and two digits. `also` are further signs that stand for themselves here. -/
inductive Written (also : UInt8 → Bool) : Bytes → Bytes → Prop
  | nil : Written also [] []
  | self {t w : Bytes} (c : UInt8) (h : c ≠ 38 ∧ c ≠ 43 ∧ c ≠ 37 ∧ c ≠ 0 ∧ (c ≠ 61 ∨ also c = true)) :
      Written also t w → Written also (c :: t) (c :: w)
  | blank {t w : Bytes} : Written also t w → Written also (32 :: t) (43 :: w)
  | code {t w : Bytes} (c a b : UInt8) (h : pair a b = some c) :
      Written also t w → Written also (c :: t) (37 :: a :: b :: w)

/-- A field of a query: name and value, as meant and as written. In a value further `=` stand for themselves. -/
structure Item where
  name : Bytes
  value : Bytes
  wname : Bytes
  wvalue : Bytes

def Item.Ok (i : Item) : Prop :=
  i.name ≠ [] ∧ (0 : UInt8) ∉ i.name ∧ (0 : UInt8) ∉ i.value ∧
    Written (fun _ => false) i.name i.wname ∧ Written (fun c => c == 61) i.value i.wvalue

/-- The query of some fields. -/
def query : List Item → Bytes
  | [] => []
  | [i] => i.wname ++ 61 :: i.wvalue
  | i :: r => i.wname ++ 61 :: (i.wvalue ++ 38 :: query r)

/-! ### Any text as a query -/

/-- The pieces between the `&`. -/
def pieces : Bytes → List Bytes
  | [] => [[]]
  | c :: r =>
    if c = 38 then [] :: pieces r
    else
      match pieces r with
      | p :: ps => (c :: p) :: ps
      | [] => [[c]]

/-- The field a piece of a query stands for: leading `=` do not count, the name ends at the next `=`; nothing if there is
no name. -/
def field (p : Bytes) : Option (Bytes × Bytes) :=
  let q := p.dropWhile (· == 61)
  let n := q.takeWhile (· != 61)
  if n = [] then none else some (plain n, plain ((q.dropWhile (· != 61)).drop 1))

/-- The fields of any text. -/
def fields (q : Bytes) : List (Bytes × Bytes) := (pieces q).filterMap field

/-! ## Cookies -/

/-- A cookie as it is sent, with or without quotes around its value. -/
structure Cookie where
  name : Bytes
  value : Bytes
  quoted : Bool

/-- Cookies that can be sent: the name is not empty, has no `=` and starts with no blank; a value without quotes has no
blank, line end or `;` and starts with no quote; a value in quotes has no quote. -/
def Cookie.Ok (c : Cookie) : Prop :=
  c.name ≠ [] ∧ (61 : UInt8) ∉ c.name ∧ c.name.head? ≠ some 32 ∧ c.name.head? ≠ some 9 ∧
    (0 : UInt8) ∉ c.name ∧ (0 : UInt8) ∉ c.value ∧
    if c.quoted then (34 : UInt8) ∉ c.value
    else (∀ b ∈ c.value, b ≠ 59 ∧ b ≠ 32 ∧ b ≠ 9 ∧ b ≠ 13 ∧ b ≠ 10) ∧
      c.value.head? ≠ some 34 ∧ c.value.head? ≠ some 39 ∧ c.value.head? ≠ some 96

def Cookie.text (c : Cookie) : Bytes :=
  c.name ++ 61 :: (if c.quoted then 34 :: (c.value ++ [34]) else c.value)

/-- The line of cookies. -/
def cookieLine : List Cookie → Bytes
  | [] => []
  | [c] => c.text
  | c :: r => c.text ++ 59 :: 32 :: cookieLine r

/-! ## Forms -/

/-- A part of a form: a field with a value, or an uploaded file with its name, its kind (if told) and its contents. -/
inductive Part where
  | value (name value : Bytes)
  | file (name filename : Bytes) (kind : Option Bytes) (contents : Bytes)

/-- The small letter of a capital one. -/
def small (c : UInt8) : UInt8 := if 65 ≤ c.toNat ∧ c.toNat ≤ 90 then c + 32 else c

/-- The same words, in small or capital letters. -/
def Cased (a b : Bytes) : Prop := a.map small = b.map small

/-- How the words of a form are written. -/
structure Style where
  disposition : Bytes
  formData : Bytes
  name : Bytes
  filename : Bytes
  multipart : Bytes
  boundary : Bytes

/-- The usual way: `Content-Disposition`, `form-data`, `name`, `filename`, `multipart/form-data`, `boundary`. -/
def usual : Style where
  disposition := [67, 111, 110, 116, 101, 110, 116, 45, 68, 105, 115, 112, 111, 115, 105, 116, 105, 111, 110]
  formData := [102, 111, 114, 109, 45, 100, 97, 116, 97]
  name := [110, 97, 109, 101]
  filename := [102, 105, 108, 101, 110, 97, 109, 101]
  multipart := [109, 117, 108, 116, 105, 112, 97, 114, 116, 47, 102, 111, 114, 109, 45, 100, 97, 116, 97]
  boundary := [98, 111, 117, 110, 100, 97, 114, 121]

/-- Small and capital letters do not matter. -/
def Style.Ok (s : Style) : Prop :=
  Cased s.disposition usual.disposition ∧ Cased s.formData usual.formData ∧ Cased s.name usual.name ∧
    Cased s.filename usual.filename ∧ Cased s.multipart usual.multipart ∧ Cased s.boundary usual.boundary

/-- `Content-Disposition: form-data; name="` -/
def disposition (s : Style) : Bytes := s.disposition ++ [58, 32] ++ s.formData ++ [59, 32] ++ s.name ++ [61, 34]

/-- `; filename="` -/
def filenameMark (s : Style) : Bytes := [59, 32] ++ s.filename ++ [61, 34]

/-- `Content-Type: ` -/
def kindMark : Bytes := [67, 111, 110, 116, 101, 110, 116, 45, 84, 121, 112, 101, 58, 32]

/-- The lines before the contents of a part. -/
def Part.head (s : Style) : Part → Bytes
  | .value n _ => disposition s ++ n ++ [34, 13, 10, 13, 10]
  | .file n f k _ =>
    disposition s ++ n ++ 34 :: filenameMark s ++ f ++ [34, 13, 10] ++
      (match k with
        | some k => kindMark ++ k ++ [13, 10]
        | none => []) ++ [13, 10]

def Part.contents : Part → Bytes
  | .value _ v => v
  | .file _ _ _ c => c

def Part.name : Part → Bytes
  | .value n _ => n
  | .file n _ _ _ => n

/-- A text that can stand in quotes in a head line. -/
def Quotable (t : Bytes) : Prop := (0 : UInt8) ∉ t ∧ (34 : UInt8) ∉ t ∧ (10 : UInt8) ∉ t

/-- Parts that can be sent with a boundary `b`: names and kinds fit into their lines, the contents do not have the line
of the boundary in them, values have no zero bytes. Contents of files are arbitrary otherwise. -/
def Part.Ok (b : Bytes) (p : Part) : Prop :=
  Quotable p.name ∧ ¬ ([13, 10, 45, 45] ++ b) <:+: p.contents ∧
    match p with
    | .value _ v => (0 : UInt8) ∉ v
    | .file _ f k _ => Quotable f ∧ ∀ k', k = some k' → (0 : UInt8) ∉ k' ∧ (10 : UInt8) ∉ k'

/-- Boundaries: letters, digits and other signs of the ASCII set that need no quotes. -/
def Boundary (b : Bytes) : Prop :=
  ∀ c ∈ b, c.toNat < 128 ∧ c ≠ 0 ∧ c ≠ 59 ∧ c ≠ 32 ∧ c ≠ 9 ∧ c ≠ 13 ∧ c ≠ 10 ∧ c ≠ 34 ∧ c ≠ 39 ∧ c ≠ 96

/-- The parts of a form after the first boundary. -/
def partsText (s : Style) (b : Bytes) : List Part → Bytes
  | [] => []
  | [p] => p.head s ++ p.contents ++ [13, 10, 45, 45] ++ b ++ [45, 45, 13, 10]
  | p :: r => p.head s ++ p.contents ++ [13, 10, 45, 45] ++ b ++ [13, 10] ++ partsText s b r

/-- A form. -/
def form (s : Style) (b : Bytes) (ps : List Part) : Bytes := [45, 45] ++ b ++ [13, 10] ++ partsText s b ps

/-- `multipart/form-data; boundary=` -/
def formKind (s : Style) (b : Bytes) : Bytes := s.multipart ++ [59, 32] ++ s.boundary ++ [61] ++ b

/-- What a form says if the file of the `i`-th upload gets the name `here i`: a field with a value says its value, an
upload says the name of the file here and the name it had there; an upload without a name (no file was chosen) says
nothing. -/
def said (here : Nat → Bytes) : Nat → List Part → List (Bytes × Bytes)
  | _, [] => []
  | i, .value n v :: r => (n, v) :: said here i r
  | i, .file n f _ _ :: r => if f = [] then said here i r else (n, here i) :: (n, f) :: said here (i + 1) r

/-- The files a form makes. -/
def uploads (here : Nat → Bytes) : Nat → List Part → List (Bytes × Bytes)
  | _, [] => []
  | i, .value _ _ :: r => uploads here i r
  | i, .file _ f _ c :: r => if f = [] then uploads here i r else (here i, c) :: uploads here (i + 1) r

/-! ## Posts in the manner of a query -/

/-- `application/x-www-form-urlencoded` -/
def queryKind : Bytes :=
  [97, 112, 112, 108, 105, 99, 97, 116, 105, 111, 110, 47, 120, 45, 119, 119, 119, 45, 102, 111, 114, 109, 45, 117, 114, 108,
    101, 110, 99, 111, 100, 101, 100]

/-- What a line of digits amounts to. -/
def amount (l : Bytes) : Nat := l.foldl (fun a c => a * 10 + (c.toNat - 48)) 0

def Digits (l : Bytes) : Prop := ∀ c ∈ l, 48 ≤ c.toNat ∧ c.toNat ≤ 57

end Verif.Spec.Req
