import Verif.Basic
import Verif.Spec.Num

/-!
# JSON: specification

Values, and the JSON texts of values with blanks wherever JSON allows them (RFC 8259). Nothing here refers to the plugin.
-/

namespace Verif.Spec.Json

/-- A value; `D` are the numbers. A list has its newest entry first. -/
inductive V (D : Type) where
  | nil
  | bool (b : Bool)
  | num (x : D) (unit : Option (List UInt8))
  | text (t : List UInt8)
  | seq (items : List (V D))
  | map (entries : List (List UInt8 × V D))

/-- Putting something into a list: an entry for the key that was there before is replaced. -/
def enter {α : Type} (es : List (List UInt8 × α)) (k : List UInt8) (v : α) : List (List UInt8 × α) :=
  (k, v) :: es.filter (fun e => !(e.1 == k))

/-- What a list has for a key. -/
def lookup {α : Type} (es : List (List UInt8 × α)) (k : List UInt8) : Option α := (es.find? (·.1 = k)).map (·.2)

/-! ## JSON texts -/

/-- A part of a text in quotes: a byte that stands for itself, or a backslash and a letter; `uni` is a backslash, `u` and four
hexadecimal digits. -/
inductive Piece where
  | byte (c : UInt8)
  | esc (c : UInt8)
  | uni (a b c d : UInt8)

/-- How it is written. -/
def Piece.written : Piece → List UInt8
  | .byte c => [c]
  | .esc c => [92, c]
  | .uni a b c d => [92, 117, a, b, c, d]

/-- The letters after a backslash and what they mean: quote, backslash, slash, backspace, form feed, line feed, carriage
return, tabulator. -/
def letters : List (UInt8 × UInt8) := [(34, 34), (92, 92), (47, 47), (98, 8), (102, 12), (110, 10), (114, 13), (116, 9)]

/-- The letters that the theorems are about: not the slash, not the form feed. -/
def usual : List (UInt8 × UInt8) := [(34, 34), (92, 92), (98, 8), (110, 10), (114, 13), (116, 9)]

/-- What a backslash and a letter mean. -/
def letter (c : UInt8) : UInt8 := ((letters.find? (·.1 = c)).map (·.2)).getD c

/-- What a part means, `uni` for characters below 128. -/
def Piece.meant : Piece → UInt8
  | .byte c => c
  | .esc c => letter c
  | .uni _ _ c d => UInt8.ofNat (hex c * 16 + hex d)
where
  /-- A hexadecimal digit. -/
  hex (c : UInt8) : Nat := if c.toNat ≤ 57 then c.toNat - 48 else if c.toNat ≤ 70 then c.toNat - 55 else c.toNat - 87

/-- A JSON text: its parts and the blanks between them. -/
inductive Doc where
  | null
  | bool (b : Bool)
  | num (t : List UInt8)
  | text (ps : List Piece)
  /-- blanks if there are no items; blanks, item, blanks for every item -/
  | arr (blanks : List UInt8) (items : List (List UInt8 × Doc × List UInt8))
  /-- blanks if there are no members; blanks, key, blanks, blanks after the colon, value, blanks for every member -/
  | obj (blanks : List UInt8) (members : List (List UInt8 × List Piece × List UInt8 × List UInt8 × Doc × List UInt8))

/-- A text in quotes. -/
def quoted (ps : List Piece) : List UInt8 := 34 :: ps.flatMap Piece.written ++ [34]

mutual
/-- The bytes of a JSON text. -/
def Doc.written : Doc → List UInt8
  | .null => [110, 117, 108, 108]
  | .bool true => [116, 114, 117, 101]
  | .bool false => [102, 97, 108, 115, 101]
  | .num t => t
  | .text ps => quoted ps
  | .arr w is => 91 :: (if is.isEmpty then w else []) ++ writtenItems true is ++ [93]
  | .obj w ms => 123 :: (if ms.isEmpty then w else []) ++ writtenMembers true ms ++ [125]
/-- Items, with a comma before every one but the first. -/
def writtenItems (first : Bool) : List (List UInt8 × Doc × List UInt8) → List UInt8
  | [] => []
  | (a, v, b) :: is => (if first then [] else [44]) ++ a ++ v.written ++ b ++ writtenItems false is
/-- Members, with a comma before every one but the first. -/
def writtenMembers (first : Bool) : List (List UInt8 × List Piece × List UInt8 × List UInt8 × Doc × List UInt8) → List UInt8
  | [] => []
  | (a, k, b, c, v, e) :: ms =>
    (if first then [] else [44]) ++ a ++ quoted k ++ b ++ 58 :: c ++ v.written ++ e ++ writtenMembers false ms
end

mutual
/-- What a JSON text means; `read` tells what numbers mean. -/
def Doc.meant {D : Type} (read : List UInt8 → D) : Doc → V D
  | .null => .nil
  | .bool b => .bool b
  | .num t => .num (read t) none
  | .text ps => .text (ps.map Piece.meant)
  | .arr _ is => .seq (meantItems read is)
  | .obj _ ms => .map (meantMembers read [] ms)
/-- The items of a sequence. -/
def meantItems {D : Type} (read : List UInt8 → D) : List (List UInt8 × Doc × List UInt8) → List (V D)
  | [] => []
  | (_, v, _) :: is => v.meant read :: meantItems read is
/-- The entries of a list, which are put into it one after the other. -/
def meantMembers {D : Type} (read : List UInt8 → D) (es : List (List UInt8 × V D)) :
    List (List UInt8 × List Piece × List UInt8 × List UInt8 × Doc × List UInt8) → List (List UInt8 × V D)
  | [] => es
  | (_, k, _, _, v, _) :: ms => meantMembers read (enter es (k.map Piece.meant) (v.meant read)) ms
end

/-! ## JSON texts without the escapes that go wrong -/

/-- Blanks. -/
def Blanks (w : List UInt8) : Prop := ∀ c ∈ w, c ∈ ([9, 10, 13, 32] : List UInt8)

/-- A backslash that is written as two backslashes is not followed by these bytes. -/
def loose (rest : List UInt8) : Bool := (rest.take 1).all (fun c => c ∉ ([92, 98, 110, 114, 116, 12] : List UInt8))

/-- The parts of a text are bytes (no quote, backslash, NUL) and usual letters. -/
def FinePieces : List Piece → Prop
  | [] => True
  | .byte c :: ps => c ∉ ([0, 34, 92] : List UInt8) ∧ FinePieces ps
  | .esc c :: ps => c ∈ usual.map (·.1) ∧ (c = 92 → loose (ps.flatMap Piece.written) = true) ∧ FinePieces ps
  | .uni _ _ _ _ :: _ => False

/-- The form of a number: a minus sign or a digit, then printable characters but blanks, commas, colons and brackets (every
JSON number has this form). -/
def FineNumber (t : List UInt8) : Prop :=
  (∃ c r, t = c :: r ∧ (c = 45 ∨ (48 ≤ c.toNat ∧ c.toNat ≤ 57))) ∧
  ∀ c ∈ t, 32 < c.toNat ∧ c.toNat < 127 ∧ c ∉ ([44, 58, 93, 125] : List UInt8)

/-- A text without NUL and form feed, in which no backslash stands before a quote, a backslash, a control character that is
escaped, or `b`, `n`, `r`, `t`. -/
def Safe : List UInt8 → Prop
  | [] => True
  | c :: t => c ∉ ([0, 12] : List UInt8) ∧
    (c = 92 → ∀ b ∈ t.take 1, b ∉ ([34, 92, 8, 9, 10, 12, 13, 98, 110, 114, 116] : List UInt8)) ∧ Safe t

mutual
/-- A JSON text without the escapes that go wrong; `N` tells which numbers are allowed. -/
def Fine (N : List UInt8 → Prop) : Doc → Prop
  | .null => True
  | .bool _ => True
  | .num t => FineNumber t ∧ N t
  | .text ps => FinePieces ps
  | .arr w is => Blanks w ∧ FineItems N is
  | .obj w ms => Blanks w ∧ FineMembers N ms
/-- All items. -/
def FineItems (N : List UInt8 → Prop) : List (List UInt8 × Doc × List UInt8) → Prop
  | [] => True
  | (a, v, b) :: is => Blanks a ∧ Fine N v ∧ Blanks b ∧ FineItems N is
/-- All members. -/
def FineMembers (N : List UInt8 → Prop) : List (List UInt8 × List Piece × List UInt8 × List UInt8 × Doc × List UInt8) → Prop
  | [] => True
  | (a, k, b, c, v, e) :: ms => Blanks a ∧ FinePieces k ∧ Blanks b ∧ Blanks c ∧ Fine N v ∧ Blanks e ∧ FineMembers N ms
end

/-! ## Values that can be written and read back -/

mutual
/-- The value with the entries of all its lists in the opposite order. -/
def turned {D : Type} : V D → V D
  | .nil => .nil
  | .bool b => .bool b
  | .num x u => .num x u
  | .text t => .text t
  | .seq l => .seq (turnedItems l)
  | .map es => .map (turnedEntries es).reverse
/-- For items. -/
def turnedItems {D : Type} : List (V D) → List (V D)
  | [] => []
  | v :: l => turned v :: turnedItems l
/-- For entries, without changing their order. -/
def turnedEntries {D : Type} : List (List UInt8 × V D) → List (List UInt8 × V D)
  | [] => []
  | (k, v) :: es => (k, turned v) :: turnedEntries es
end

mutual
/-- Values made of Nil, Booleans, numbers without a unit (`P` tells which), texts, sequences and lists; keys are different. -/
def Plain {D : Type} (P : D → Prop) : V D → Prop
  | .nil => True
  | .bool _ => True
  | .num x u => u = none ∧ P x
  | .text t => Safe t
  | .seq l => PlainItems P l
  | .map es => (es.map (·.1)).Nodup ∧ PlainEntries P es
/-- Items: no sequences, texts without NUL and backslash. -/
def PlainItems {D : Type} (P : D → Prop) : List (V D) → Prop
  | [] => True
  | v :: l => (match v with
    | .nil => True
    | .bool _ => True
    | .num x u => u = none ∧ P x
    | .text t => ∀ c ∈ t, c ≠ 0 ∧ c ≠ 92
    | .seq _ => False
    | .map es => (es.map (·.1)).Nodup ∧ PlainEntries P es) ∧ PlainItems P l
/-- Entries. -/
def PlainEntries {D : Type} (P : D → Prop) : List (List UInt8 × V D) → Prop
  | [] => True
  | (k, v) :: es => Safe k ∧ Plain P v ∧ PlainEntries P es
end

/-- A byte that may be a part of a number in JSON as far as the tokenizer is concerned. -/
def Allowed (c : UInt8) : Prop := 32 < c.toNat ∧ c.toNat < 127 ∧ c ∉ ([44, 58, 93, 125] : List UInt8)

/-- A number (`print` and `read` are those of the C library) that keeps its value: it is printed as an optional minus sign, digits, a
point and digits; with the separators of the language in it, it fits into 40 bytes and looks like a number to the tokenizer; and the
printed text without zeros at the end is read as the number. -/
def Kept {D : Type} (print : D → List UInt8) (read : List UInt8 → D) (tho dec : UInt8) (x : D) : Prop :=
  ∃ sg ds f, Num.Sign sg ∧ Num.Digits ds ∧ Num.Digits f ∧ print x = sg ++ ds ++ 46 :: f ∧
    (sg ++ ds ++ 46 :: f).length + (ds.length - 1) / 3 ≤ 40 ∧
    (ds.length ≤ 3 ∨ Allowed tho) ∧ ((∀ c ∈ f, c = 48) ∨ Allowed dec) ∧
    ((∀ c ∈ f, c = 48) → read (sg ++ ds) = x) ∧ ∀ g z, f = g ++ z → (∀ c ∈ z, c = 48) → read (sg ++ ds ++ 46 :: g) = x

end Verif.Spec.Json
