/-!
# Specification of a text field

Nothing here refers to the model. A text field holds symbols: characters (with the bytes of their UTF-8 form) and line ends.
The cursor stands between two symbols.
-/

namespace Verif.Spec.Editor

/-- The bytes of a text. -/
abbrev Bytes := List UInt8

/-- A symbol: a line end or a character. -/
inductive Sym where
  | nl
  | ch (b : Bytes)
  deriving DecidableEq, Repr

/-- A byte that continues a character. -/
def Cont (c : UInt8) : Prop := 128 ≤ c.toNat ∧ c.toNat < 192

instance (c : UInt8) : Decidable (Cont c) := inferInstanceAs (Decidable (_ ∧ _))

/-- A character is a byte that begins one (no control byte that has a meaning of its own) and bytes that continue it. -/
def Sym.Ok : Sym → Prop
  | .nl => True
  | .ch [] => False
  | .ch (b :: cs) => ¬ Cont b ∧ b ≠ 0 ∧ b ≠ 13 ∧ b ≠ 10 ∧ ∀ c ∈ cs, Cont c

instance : (s : Sym) → Decidable s.Ok
  | .nl => .isTrue trivial
  | .ch [] => .isFalse id
  | .ch (_ :: _) => inferInstanceAs (Decidable (_ ∧ _))

/-- A line end is a carriage return and a line feed. -/
def Sym.bytes : Sym → Bytes
  | .nl => [13, 10]
  | .ch b => b

/-- The bytes of symbols. -/
def bytes (l : List Sym) : Bytes := l.flatMap Sym.bytes

/-- A text with a cursor: the symbols to the left, the nearest first, and those to the right. -/
structure Doc where
  left : List Sym
  right : List Sym
  deriving DecidableEq, Repr

namespace Doc

/-- All symbols in their order. -/
def syms (d : Doc) : List Sym := d.left.reverse ++ d.right

def Ok (d : Doc) : Prop := (∀ s ∈ d.left, s.Ok) ∧ ∀ s ∈ d.right, s.Ok

/-- What the user sees. -/
def text (d : Doc) : Bytes := bytes d.syms

/-- The cursor, as a number of bytes. -/
def cursor (d : Doc) : Nat := (bytes d.left.reverse).length

def insert (d : Doc) (l : List Sym) : Doc := ⟨l.reverse ++ d.left, d.right⟩

def backspace (d : Doc) : Doc := ⟨d.left.tail, d.right⟩

def delete (d : Doc) : Doc := ⟨d.left, d.right.tail⟩

def goLeft : Doc → Doc
  | ⟨s :: l, r⟩ => ⟨l, s :: r⟩
  | d => d

def goRight : Doc → Doc
  | ⟨l, s :: r⟩ => ⟨s :: l, r⟩
  | d => d

/-- The part of the line to the left of the cursor, the nearest symbol first. -/
def before (d : Doc) : List Sym := d.left.takeWhile (· != .nl)

/-- The part of the line to the right of the cursor. -/
def behind (d : Doc) : List Sym := d.right.takeWhile (· != .nl)

/-- To the beginning of the line. -/
def home (d : Doc) : Doc := ⟨d.left.dropWhile (· != .nl), d.before.reverse ++ d.right⟩

/-- To the end of the line. -/
def toEnd (d : Doc) : Doc := ⟨d.behind.reverse ++ d.left, d.right.dropWhile (· != .nl)⟩

/-- So many symbols to the right, but not over the end of the line. -/
def forward : Nat → Doc → Doc
  | 0, d => d
  | n + 1, d =>
    match d.right with
    | [] => d
    | .nl :: _ => d
    | s :: r => forward n ⟨s :: d.left, r⟩

/-- To the line above, to the same column or its end. In the first line nothing happens. -/
def up (d : Doc) : Doc :=
  match d.home with
  | ⟨s :: l, r⟩ => forward d.before.length (home ⟨l, s :: r⟩)
  | _ => d

/-- To the line below, to the same column or its end. In the last line: to the end of the text. -/
def down (d : Doc) : Doc :=
  match d.toEnd with
  | ⟨l, s :: r⟩ => forward d.before.length ⟨s :: l, r⟩
  | e => e

end Doc

/-- The movements. -/
inductive Move where
  | left | right | up | down | home | toEnd | pageUp | pageDown
  deriving DecidableEq, Repr

/-- So many times. -/
def times (f : Doc → Doc) : Nat → Doc → Doc
  | 0, d => d
  | n + 1, d => times f n (f d)

/-- Where a movement leads. A page has ten lines. -/
def moved : Move → Doc → Doc
  | .left => Doc.goLeft
  | .right => Doc.goRight
  | .up => Doc.up
  | .down => Doc.down
  | .home => Doc.home
  | .toEnd => Doc.toEnd
  | .pageUp => times Doc.up 10
  | .pageDown => times Doc.down 10

/-- Several movements. -/
def movedAll : List Move → Doc → Doc
  | [], d => d
  | m :: ms, d => movedAll ms (moved m d)

/-- Remove what lies between the cursors of two documents with the same text; the cursor stands where it was. -/
def without (d e : Doc) : Doc :=
  if d.left.length ≤ e.left.length then ⟨d.left, e.right⟩ else ⟨e.left, d.right⟩

/-- What a user does. `remove h ms k`: select with Shift and these movements, then press a key that removes what is selected
(`h`: while Shift is still down). The program takes part with three of its messages: `append l` (nothing being selected),
and, when the user has selected something with these movements, `cut ms` and `replace ms l` (which is `append:` then). -/
inductive Act where
  | typed (l : List Sym)
  | ret | tab | backspace | delete
  | move (m : Move)
  | remove (held : Bool) (ms : List Move) (back : Bool)
  | wait
  | append (l : List Sym)
  | cut (ms : List Move)
  | replace (ms : List Move) (l : List Sym)
  deriving DecidableEq, Repr

/-- What the user expects then. -/
def after : Act → Doc → Doc
  | .typed l, d => d.insert l
  | .ret, d => d.insert [.nl]
  | .tab, d => d.insert (List.replicate 4 (.ch [32]))
  | .backspace, d => d.backspace
  | .delete, d => d.delete
  | .move m, d => moved m d
  | .remove _ ms _, d => without d (movedAll ms d)
  | .wait, d => d
  | .append l, d => d.insert l
  | .cut ms, d => without d (movedAll ms d)
  | .replace ms l, d => (without d (movedAll ms d)).insert l

/-- All of them, one after the other. -/
def afterAll : List Act → Doc → Doc
  | [], d => d
  | a :: l, d => afterAll l (after a d)

/-- The cursor is not in the second line, or the first line is not empty. -/
def UpOk (d : Doc) : Prop := d.home.left ≠ [.nl]

instance (d : Doc) : Decidable (UpOk d) := inferInstanceAs (Decidable (_ ≠ _))

/-- Movements that do not go up from the second line while the first line is empty. -/
def MoveOk : Move → Doc → Prop
  | .up, d => UpOk d
  | .pageUp, d => ∀ i, i < 10 → UpOk (times Doc.up i d)
  | _, _ => True

def MovesOk : List Move → Doc → Prop
  | [], _ => True
  | m :: ms, d => MoveOk m d ∧ MovesOk ms (moved m d)

/-- What a keyboard sends: at least one character, no line ends, no control characters that the field takes for keys. -/
def Typed (l : List Sym) : Prop := (∀ s ∈ l, s.Ok ∧ s ≠ .nl) ∧ l ≠ [] ∧ bytes l ≠ [8] ∧ bytes l ≠ [127]

/-- What a program may append: any text of characters and line ends that is not a control character the field takes for
a key. -/
def Appended (l : List Sym) : Prop := (∀ s ∈ l, s.Ok) ∧ bytes l ≠ [8] ∧ bytes l ≠ [127]

/-- What works: Delete before characters of one byte or at the end, no movement up from below an empty first line,
removing a selection that is not empty. -/
def ActOk : Act → Doc → Prop
  | .typed l, _ => Typed l
  | .delete, d => d.right = [] ∨ ∃ b r, d.right = .ch [b] :: r
  | .move m, d => MoveOk m d
  | .remove _ ms _, d => MovesOk ms d ∧ (movedAll ms d).cursor ≠ d.cursor
  | .append l, _ => Appended l
  | .cut ms, d => MovesOk ms d ∧ (movedAll ms d).cursor ≠ d.cursor
  | .replace ms l, d => MovesOk ms d ∧ (movedAll ms d).cursor ≠ d.cursor ∧ Appended l
  | _, _ => True

def ActsOk : List Act → Doc → Prop
  | [], _ => True
  | a :: l, d => ActOk a d ∧ ActsOk l (after a d)

/-- What keeps a cursor that stands at the end of the text there. -/
def AtEnd : Act → Prop
  | .typed _ | .ret | .tab | .backspace | .wait | .append _ => True
  | _ => False

end Verif.Spec.Editor
