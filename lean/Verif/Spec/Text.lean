/-!
# Specification of texts

Nothing here refers to the model. A text is a list of characters (`Char`, Unicode scalar values); its stored
form is the UTF-8 encoding, written down here with plain arithmetic (RFC 3629, table in section 3).
-/

namespace Verif.Spec

/-- UTF-8 encoding of one code point. -/
def encodeNat (n : Nat) : List UInt8 :=
  if n < 0x80 then [.ofNat n]
  else if n < 0x800 then [.ofNat (0xC0 + n / 64), .ofNat (0x80 + n % 64)]
  else if n < 0x10000 then
    [.ofNat (0xE0 + n / 4096), .ofNat (0x80 + n / 64 % 64), .ofNat (0x80 + n % 64)]
  else
    [.ofNat (0xF0 + n / 262144), .ofNat (0x80 + n / 4096 % 64), .ofNat (0x80 + n / 64 % 64),
      .ofNat (0x80 + n % 64)]

/-- UTF-8 encoding of a character. -/
def encodeChar (c : Char) : List UInt8 := encodeNat c.toNat

/-- UTF-8 encoding of a text. -/
def encode (cs : List Char) : List UInt8 := cs.flatMap encodeChar

/-- `p` occurs in `t` at (0-based) position `i`. -/
def OccursAt (t p : List α) (i : Nat) : Prop := ∃ a b, t = a ++ p ++ b ∧ a.length = i

/-- `p` occurs in `t`. -/
def Occurs (t p : List α) : Prop := ∃ a b, t = a ++ p ++ b

/-- The characters selected by `from: a length: n`: `n` characters starting at the `a`-th, cut off at the end
of the text; a negative `n` selects the `-n` characters before the `a`-th; a start before the text counts as
the first character. -/
def substring (cs : List α) (a n : Int) : List α :=
  let start := if n < 0 then a - 1 + n else a - 1
  (cs.drop start.toNat).take n.natAbs

/-- Left-to-right scan replacing every non-overlapping occurrence of `p` by `r`. The number counts the
characters of a replaced occurrence that are still to be skipped. -/
def replaceFrom [BEq α] (p r : List α) : Nat → List α → List α
  | _, [] => []
  | k + 1, _ :: t => replaceFrom p r k t
  | 0, b :: t =>
    if p.isPrefixOf (b :: t) then r ++ replaceFrom p r (p.length - 1) t else b :: replaceFrom p r 0 t

/-- Every non-overlapping occurrence of `p` in `t`, from left to right, replaced by `r`. -/
def replaceAll [BEq α] (t p r : List α) : List α :=
  if p = [] then t else replaceFrom p r 0 t

/-- The list of the parts with `d` between them. -/
def intercalate (d : List α) : List (List α) → List α
  | [] => []
  | [x] => x
  | x :: y :: l => x ++ d ++ intercalate d (y :: l)

/-- ASCII white space: space, tab, line feed, vertical tab, form feed, carriage return. -/
def White (c : UInt8) : Prop := c ∈ ([32, 9, 10, 11, 12, 13] : List UInt8)

/-- `r` is `t` without its longest white-space prefix and suffix. -/
def IsTrimmed (t r : List UInt8) : Prop :=
  ∃ a b, t = a ++ r ++ b ∧ (∀ c ∈ a, White c) ∧ (∀ c ∈ b, White c) ∧
    (∀ c, r.head? = some c → ¬ White c) ∧ (∀ c, r.getLast? = some c → ¬ White c)

/-- Byte-wise lexicographic order. -/
def lexLt : List UInt8 → List UInt8 → Prop
  | _, [] => False
  | [], _ :: _ => True
  | a :: as, b :: bs => a.toNat < b.toNat ∨ (a = b ∧ lexLt as bs)

/-- A natural number that single precision represents: 24 significant bits. -/
def Single (x : Nat) : Prop := ∃ m e, m < 16777216 ∧ x = m * 2 ^ e

/-- `f` is the number of single precision nearest to `n`; if two are as near, the one whose last bit is 0. -/
def Rounded (n f : Nat) : Prop :=
  Single f ∧ ∀ x, Single x → ((n : Int) - f).natAbs ≤ ((n : Int) - x).natAbs ∧
    (x ≠ f → ((n : Int) - f).natAbs = ((n : Int) - x).natAbs →
      ∃ m e, f = m * 2 ^ e ∧ 8388608 ≤ m ∧ m < 16777216 ∧ m % 2 = 0)

end Verif.Spec
