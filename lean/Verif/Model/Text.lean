import Verif.Model.Seq

/-!
# Texts (`base.c:1618-2390`, `utf8.c`, `world.c:337-355`, `collections.c:205-233`)

A text is the list of its bytes (`value`, `vlen`). Reading a byte outside the text is `Out.ub`.

Simplifications common to this file: the receiver's storage is not shared with other objects; arguments have
already been converted to text or whole numbers; numbers are integers (values outside the range of `long` are
excluded where a conversion would be undefined).
-/

namespace Verif.Model

/-- Bytes of a text. -/
abbrev Text := List UInt8

namespace Txt

/-! ## UTF-8 helpers -/

/-- `ctr_utf8size`, `utf8.c:8-13`. -/
def utf8size (c : UInt8) : Nat :=
  if c.toNat &&& 240 = 240 then 4
  else if c.toNat &&& 224 = 224 then 3
  else if c.toNat &&& 192 = 192 then 2
  else 1

/-- Loop of `ctr_getutf8len`, `utf8.c:24-27`: the sum of `size - 1`. -/
def extraBytes : Text → Nat
  | [] => 0
  | c :: s => (utf8size c - 1) + extraBytes s

/-- `ctr_getutf8len`, `utf8.c:20-29`: `max` minus the sum, in `ctr_size` (modulo 2^64). -/
def getutf8len (s : Text) (max : Nat) : Out Nat :=
  if max ≤ s.length then
    .ok ((((max : Int) - extraBytes (s.take max)) % 18446744073709551616).toNat)
  else .ub

/-- `getBytesUtf8`, `utf8.c:34-50`: the number of bytes of `n` characters from byte `start`. -/
def getBytes (s : Text) (start : Nat) : Nat → Out Nat
  | 0 => .ok 0
  | n + 1 =>
    match s[start]? with
    | none => .ub
    | some c => do
      let r ← getBytes s (start + utf8size c) n
      .ok (utf8size c + r)

/-- `memcpy(dest, str + off, n)`: the source range must lie inside the text. -/
def slice (s : Text) (off n : Nat) : Out Text :=
  if off + n ≤ s.length then .ok ((s.drop off).take n) else .ub

/-- `ctr_string_length`, `base.c:1743-1746`. -/
def charCount (s : Text) : Out Nat := getutf8len s (s.length)

/-- `ctr_string_bytes`, `base.c:1756-1758`. -/
def bytes (s : Text) : Nat := s.length

/-- `ctr_string_characters`, `base.c:2293-2310`. `fuel` bounds the loop (it runs at most `vlen` times). -/
def charsLoop (s : Text) : Nat → Nat → Seq (Option Text) → Out (Seq (Option Text))
  | 0, _, _ => .ub
  | fuel + 1, i, arr =>
    match s[i]? with
    | none => .ok arr
    | some c => do
      let t ← slice s i (utf8size c)
      let arr ← arr.push (some t)
      charsLoop s fuel (i + utf8size c) arr

/-- `ctr_string_characters`, `base.c:2293-2310`. -/
def characters (s : Text) : Out (Seq (Option Text)) := charsLoop s (s.length + 1) 0 Seq.new

/-- `ctr_string_from_length`, `base.c:1873-1913`: `frm` and `cnt` are the (truncated) arguments. The answer
is the new contents of the receiver. -/
def fromLength (s : Text) (frm cnt : Int) : Out Text :=
  let len : Int := s.length
  let a := frm - 1
  let b := cnt
  if b = 0 ∨ len = 0 then .ok []
  else
    let a1 := if b < 0 then a + b else a
    let b1 := if b < 0 then -b else b
    let a2 := if a1 < 0 then 0 else a1
    let a3 := if a2 > len then len else a2
    let b2 := if a3 + b1 > len then len - a3 else b1
    do
      let ua ← getBytes s 0 a3.toNat
      let ub ← getBytes s ua b2.toNat
      if ub = 0 then .ok [] else slice s ua ub

/-- `ctr_string_skip` (`offset:`), `base.c:1923-1940`. -/
def skip (s : Text) (n : Int) : Out Text :=
  let a := n + 1
  if (s.length : Int) < a then .ok []
  else do
    let tl ← getutf8len s (s.length)
    fromLength s a ((tl : Int) - (a - 1))

/-- `ctr_string_at` (`character:`), `base.c:1949-1963`. The conversion of a negative number to `ctr_size` is
undefined; `0 - 1` wraps around and is therefore not below the length. -/
def charAt (s : Text) (n : Int) : Out (Option Text) :=
  if n < 0 ∨ n ≥ 18446744073709551616 then .ub
  else do
    let tl ← getutf8len s (s.length)
    let a := ((n - 1) % 18446744073709551616).toNat
    if a ≥ tl then .ok none
    else do
      let ua ← getBytes s 0 a
      let ub ← getBytes s ua 1
      let t ← slice s ua ub
      .ok (some t)

/-! ## Searching -/

/-- `memcmp(cur, needle, nlen) == 0` at offset `i`; the compared range must lie in the haystack. -/
def matchAt (h n : Text) (i : Nat) : Out Bool :=
  if i + n.length ≤ h.length then .ok ((h.drop i).take (n.length) == n) else .ub

/-- Forward loop of `ctr_internal_memmem`, `world.c:351-353` with `step = 1`. -/
def memmemUp (h n : Text) (cur : Nat) : Nat → Out (Option Nat)
  | 0 => .ok none
  | k + 1 => do
    if ← matchAt h n cur then .ok (some cur) else memmemUp h n (cur + 1) k

/-- Backward loop of `ctr_internal_memmem`, `world.c:351-353` with `step = -1`: positions `k-1, ..., 0`. -/
def memmemDown (h n : Text) : Nat → Out (Option Nat)
  | 0 => .ok none
  | k + 1 => do
    if ← matchAt h n k then .ok (some k) else memmemDown h n k

/-- `ctr_internal_memmem`, `world.c:337-355`; the answer is an offset. -/
def memmem (h n : Text) (reverse : Bool) : Out (Option Nat) :=
  if n.length = 0 then .ok none
  else if h.length = 0 then .ok none
  else if h.length < n.length then .ok none
  else if !reverse then memmemUp h n 0 (h.length - n.length + 1)
  else memmemDown h n (h.length - n.length + 1)

/-- `ctr_string_index_of` (`find:`), `base.c:1973-1984`. -/
def indexOf (s sub : Text) : Out (Option Nat) := do
  match ← memmem s sub false with
  | none => .ok none
  | some p => do
    let u ← getutf8len s p
    .ok (some (u + 1))

/-- Conversion of a natural number to `float`: round to nearest, ties to even, with a 24-bit significand.
`e` is the number of bits to drop. -/
def toFloat32 (n : Nat) : Nat :=
  if n < 16777216 then n
  else
    let e := n.log2 - 23
    let q := n / 2 ^ e
    let r := n % 2 ^ e
    let half := 2 ^ (e - 1)
    let q' := if r > half ∨ (r = half ∧ q % 2 = 1) then q + 1 else q
    q' * 2 ^ e

/-- `ctr_string_last_index_of` (`last:`), `base.c:2038-2049`. The answer is computed as
`(float) uchar_index + 1` in single precision. -/
def lastIndexOf (s sub : Text) : Out (Option Nat) := do
  match ← memmem s sub true with
  | none => .ok none
  | some p => do
    let u ← getutf8len s p
    .ok (some (toFloat32 (toFloat32 u + 1)))

/-- `ctr_string_contains`, `base.c:2164-2170`: None counts as 0. -/
def contains (s sub : Text) : Out Bool := do
  match ← indexOf s sub with
  | none => .ok false
  | some p => .ok (decide (p > 0))

/-! ## Replacing, splitting, joining -/

/-- Loop of `ctr_string_replace_with`, `base.c:2106-2126`. `src` is the rest of the source, `dest` what has
been written, `cap` the size of the destination block, `dlen` the computed length of the result. -/
def replaceLoop (ndl rpl : Text) : Nat → Text → Text → Int → Int → Out Text
  | 0, _, _, _, _ => .ub
  | fuel + 1, src, dest, cap, dlen => do
    match ← memmem src ndl false with
    | none =>
      if (dest.length : Int) + src.length ≤ cap then
        let buf := dest ++ src
        if 0 ≤ dlen ∧ dlen ≤ buf.length then .ok (buf.take dlen.toNat) else .ub
      else .ub
    | some off =>
      let dlen' := dlen - ndl.length + rpl.length
      let cap' := if dlen' > dlen then dlen' else cap
      if (dest.length : Int) + off + rpl.length ≤ cap' then
        replaceLoop ndl rpl fuel (src.drop (off + ndl.length)) (dest ++ src.take off ++ rpl) cap' dlen'
      else .ub

/-- `ctr_string_replace_with`, `base.c:2085-2131`. -/
def replace (s ndl rpl : Text) : Out Text :=
  if ndl.length = 0 ∨ s.length = 0 then .ok s
  else replaceLoop ndl rpl (s.length + 1) s [] (s.length) (s.length)

/-- Loop of `ctr_string_split`, `base.c:2258-2276`. `rest` is the unread input, `buf` the first `j` bytes of
the buffer, `k` the number of delimiter bytes matched so far, `len` the size of the buffer. -/
def splitLoop (len : Nat) (d : Text) : Text → Text → Nat → Seq (Option Text) → Out (Seq (Option Text))
  | [], buf, _, arr => arr.push (some buf)
  | c :: rest, buf, k, arr =>
    if buf.length < len then
      if d.length > 0 ∧ some c = d[k]? then
        if k + 1 ≥ d.length then do
          let arr ← arr.push (some ((buf ++ [c]).take (buf.length + 1 - d.length)))
          splitLoop len d rest [] 0 arr
        else splitLoop len d rest (buf ++ [c]) (k + 1) arr
      else splitLoop len d rest (buf ++ [c]) 0 arr
    else .ub

/-- `ctr_string_split`, `base.c:2246-2283`. -/
def split (s d : Text) : Out (Seq (Option Text)) := splitLoop (s.length) d s [] 0 Seq.new

/-- Loop of `ctr_array_join`, `collections.c:215-229`, over the slots `i .. i+n-1`. The result block is
always exactly as long as the text built so far. `str` is the conversion of an element to text. -/
def joinLoop (arr : Seq α) (str : α → Text) (glue : Text) (i : Nat) (result : Text) : Nat → Out Text
  | 0 => .ok result
  | n + 1 => do
    let o ← arr.read i
    joinLoop arr str glue (i + 1) (if i = arr.tail then str o else result ++ glue ++ str o) n

/-- `ctr_array_join` (`join:`), `collections.c:205-233`. -/
def join (arr : Seq α) (str : α → Text) (glue : Text) : Out Text :=
  joinLoop arr str glue arr.tail [] (arr.head - arr.tail)

/-! ## Comparing -/

/-- `strncmp` on two buffers: stops after `n` bytes, at a difference, or at a common NUL byte. Reading past
the end of a buffer is undefined. Only the sign of the result is used. -/
def strncmp : Text → Text → Nat → Out Ordering
  | _, _, 0 => .ok .eq
  | a :: as, b :: bs, n + 1 =>
    if a ≠ b then .ok (compare a.toNat b.toNat)
    else if a = 0 then .ok .eq
    else strncmp as bs n
  | _, _, _ => .ub

/-- `ctr_string_eq`, `base.c:1707-1713`. -/
def eq (s other : Text) : Out Bool :=
  if other.length ≠ s.length then .ok false
  else do
    let r ← strncmp other s (s.length)
    .ok (r == .eq)

/-- `ctr_string_neq`, `base.c:1725-1731`. -/
def neq (s other : Text) : Out Bool :=
  if other.length ≠ s.length then .ok true
  else do
    let r ← strncmp other s (s.length)
    .ok (!(r == .eq))

/-- `ctr_string_compare`, `base.c:2323-2336`. -/
def cmp (s other : Text) : Out Ordering :=
  let maxlen := if s.length < other.length then s.length else other.length
  strncmp s other maxlen

/-- `ctr_string_before` (`<`), `base.c:2346-2351`. -/
def before (s other : Text) : Out Bool := do let r ← cmp s other; .ok (r == .lt)

/-- `ctr_string_before_or_same` (`≤`), `base.c:2362-2367`. -/
def beforeOrSame (s other : Text) : Out Bool := do let r ← cmp s other; .ok (r == .lt || r == .eq)

/-- `ctr_string_after` (`>`), `base.c:2377-2382`. -/
def after (s other : Text) : Out Bool := do let r ← cmp s other; .ok (r == .gt)

/-- `ctr_string_after_or_same` (`≥`), `base.c:2393-2398`. -/
def afterOrSame (s other : Text) : Out Bool := do let r ← cmp s other; .ok (r == .gt || r == .eq)

/-! ## Concatenation, suffix removal, white space, case -/

/-- `memcpy` of a whole text to offset `off` of a destination block of `cap` bytes whose first `off` bytes are
`dest`. -/
def appendTo (dest : Text) (cap : Nat) (src : Text) : Out Text :=
  if dest.length + src.length ≤ cap then .ok (dest ++ src) else .ub

/-- `ctr_string_concat` (`+`), `base.c:1769-1784`; `ctr_string_append` (`append:`), `base.c:1795-1814`, stores
the same bytes in the receiver. -/
def concat (s other : Text) : Out Text := do
  let n1 := s.length
  let n2 := other.length
  let dest ← appendTo [] (n1 + n2) s
  let dest ← appendTo dest (n1 + n2) other
  slice dest 0 (n1 + n2)

/-- `ctr_string_minus` (`-`), `base.c:2141-2152`. -/
def minus (s needle : Text) : Out Text :=
  let nlen := needle.length
  let hlen := s.length
  if nlen > hlen then .ok s
  else do
    if ← matchAt s needle (hlen - nlen) then slice s 0 (hlen - nlen) else .ok s

/-- `isspace` in the C locale: space, tab, newline, vertical tab, form feed, carriage return. Bytes above 127
(negative `char` values) are not white space, as in glibc. -/
def isspace (c : UInt8) : Bool := c = 32 || (9 ≤ c && c ≤ 13)

/-- First loop of `ctr_string_trim`, `base.c:2188`. -/
def skipSpaces (s : Text) (len : Nat) : Nat → Nat → Out Nat
  | 0, i => .ok i
  | fuel + 1, i =>
    if i < len then
      match s[i]? with
      | none => .ub
      | some c => if isspace c then skipSpaces s len fuel (i + 1) else .ok i
    else .ok i

/-- Second loop of `ctr_string_trim`, `base.c:2192`: from `begin + k` downwards. -/
def dropSpaces (s : Text) (begin : Nat) : Nat → Out Nat
  | 0 => .ok begin
  | k + 1 =>
    match s[begin + (k + 1)]? with
    | none => .ub
    | some c => if isspace c then dropSpaces s begin k else .ok (begin + (k + 1))

/-- `ctr_string_trim`, `base.c:2181-2201`. -/
def trim (s : Text) : Out Text :=
  let len := s.length
  if len = 0 then .ok []
  else do
    let i ← skipSpaces s len len 0
    if i = len then .ok []
    else do
      let begin := i
      let i ← dropSpaces s begin (len - 1 - begin)
      slice s begin (i + 1 - begin)

/-- `toupper` in the C locale. -/
def toupper (c : UInt8) : UInt8 := if 97 ≤ c ∧ c ≤ 122 then c - 32 else c

/-- `tolower` in the C locale. -/
def tolower (c : UInt8) : UInt8 := if 65 ≤ c ∧ c ≤ 90 then c + 32 else c

/-- A text object: its bytes, and whether `value` points to a heap block (otherwise to the literal `""` set by
`ctr_internal_create_object`, `world.c:395`). -/
structure Obj where
  val : Text
  owned : Bool

/-- `ctr_build_string`, `base.c:1618-1627`: a block is allocated only for a non-empty text. -/
def build (s : Text) : Obj := { val := s, owned := decide (s.length ≠ 0) }

/-- `ctr_string_to_upper`, `base.c:1993-2005`: the old storage is freed unconditionally. -/
def upper (o : Obj) : Out Obj :=
  if o.owned then .ok { val := o.val.map toupper, owned := true } else .ub

/-- `ctr_string_to_lower`, `base.c:2016-2028`. -/
def lower (o : Obj) : Out Obj :=
  if o.owned then .ok { val := o.val.map tolower, owned := true } else .ub

end Txt
end Verif.Model
