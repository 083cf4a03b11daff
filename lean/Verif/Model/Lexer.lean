import Verif.Model.Text
import Verif.Spec.Dict

/-!
# The lexer (`lexer.c`) and `code` of texts (`base.c:1830-1863`)

The program is a list of bytes; `ctr_code` is represented by the remaining bytes, `ctr_eofcode` by the end of the
list.  The program buffer is terminated by a NUL byte (`world.c:63-68`, `base.c:1669`), so reading the byte at
`ctr_eofcode` is defined and yields 0, which is not a byte of any keyword.  As dictionary keywords contain no NUL,
`strncmp(ctr_code, K, strlen(K)) == 0` is `K.isPrefixOf code`.

Simplifications common to this file: line numbers are left out (they only occur in error messages); `isdigit` is
applied to a plain `char` in the code (undefined for negative values in the standard, defined in glibc) and is
modelled as the test for the ASCII digits; allocation never fails.
-/

namespace Verif.Model.Lexer
open Verif.Spec (Dict)

/-- Token kinds, `citrine.h` (`CTR_TOKEN_*`), those `ctr_clex_tok` can return. -/
inductive Tok where
  | ret | assign | blockClose | blockOpen | chain | colon | dot | fin | number | parClose | parOpen | quote | ref
  deriving DecidableEq, Repr

/-- `ctr_clex_bflmt`, `lexer.c:3`: size of the token buffer (`lexer.c:123`). -/
def bflmt : Nat := 255

/-- `_isspace`, `lexer.c:61-63`. -/
def isSpace (c : UInt8) : Bool := c == 32 || c == 9 || c == 13 || c == 10

/-- `isdigit`. -/
def isDigit (c : UInt8) : Bool := decide (48 ≤ c.toNat ∧ c.toNat ≤ 57)

/-- `isdigit(*p)` where `p` points at the first of the given bytes; at the end `*p` is NUL. -/
def digitAt : Text → Bool
  | [] => false
  | c :: _ => isDigit c

/-- `strncmp(code, ":=", ctr_clen_keyword_assignment_len) == 0`, `lexer.c:84`: with a keyword of one byte only `:`
is compared, with more than two bytes the NUL after `:=` as well. -/
def colonEquals (d : Dict) (code : Text) : Bool :=
  if d.assign.length ≤ 2 then (([58, 61] : Text).take d.assign.length).isPrefixOf code
  else ([58, 61] : Text).isPrefixOf code && (match code.drop 2 with | [] => true | c :: _ => c == 0)

/-- `ctr_clex_is_delimiter`, `lexer.c:74-100`. At the end of the program the symbol is NUL. -/
def isDelim (d : Dict) (code : Text) : Bool :=
  d.eol.isPrefixOf code || d.qo.isPrefixOf code || d.assign.isPrefixOf code || colonEquals d code ||
  d.chain.isPrefixOf code ||
  (match code with
   | [] => d.param == 0
   | c :: _ => c == 40 || c == 41 || c == d.param || isSpace c)

/-- `lexer.c:241-255`: skips white space and comments; the flag tells whether we are inside a comment
(`lexer.c:248-251`). -/
def skip : Bool → Text → Text
  | _, [] => []
  | true, c :: r => if c == 10 then skip false r else skip true r
  | false, c :: r =>
    if isSpace c then skip false r
    else if c == 35 then skip true r
    else c :: r

/-- Storing `c` at index `i = tokvlen` of the token buffer (`lexer.c:291,297,323,330,338`). -/
def put (acc : Text) (c : UInt8) : Out Text :=
  if acc.length < bflmt then .ok (acc ++ [c]) else .ub

/-- `lexer.c:296-313`: digits, leaving out a thousands separator that is followed by a digit. The number counts the
bytes of a separator still to be skipped (`lexer.c:308`). -/
def intPart (d : Dict) : Nat → Text → Text → Out (Text × Text)
  | _, acc, [] => .ok (acc, [])
  | k + 1, acc, _ :: r => intPart d k acc r
  | 0, acc, c :: r =>
    if isDigit c then do
      let acc ← put acc c
      intPart d (if d.tho.isPrefixOf r ∧ d.tho.length + 1 ≤ r.length ∧ digitAt (r.drop d.tho.length) = true
        then d.tho.length else 0) acc r
    else .ok (acc, c :: r)

/-- `lexer.c:329-334`: the digits after the decimal separator. -/
def fracPart : Text → Text → Out (Text × Text)
  | acc, [] => .ok (acc, [])
  | acc, c :: r =>
    if isDigit c then do
      let acc ← put acc c
      fracPart acc r
    else .ok (acc, c :: r)

/-- `lexer.c:314-335`: end of statement, or decimal separator (of which one byte is skipped) and digits. -/
def afterInt (d : Dict) (acc code : Text) : Out (Text × Text) :=
  if d.eol.isPrefixOf code ∧ digitAt (code.drop d.eol.length) = false then .ok (acc, code)
  else if d.dec.length + 1 ≤ code.length ∧ digitAt (code.drop d.dec.length) = true ∧ d.dec.isPrefixOf code = true then do
    let acc ← put acc 46
    fracPart acc (code.drop 1)
  else fracPart acc code

/-- `lexer.c:289-336`, a number; `code` starts with a digit or with a minus sign and a digit. -/
def number (d : Dict) (code : Text) : Out (Text × Text) :=
  match code with
  | 45 :: r => do
    let acc ← put [] 45
    let (acc, rest) ← intPart d 0 acc r
    afterInt d acc rest
  | _ => do
    let (acc, rest) ← intPart d 0 [] code
    afterInt d acc rest

/-- `lexer.c:337-350`: a reference. A byte `#` that is not the first restarts the token at index 0 without storing
anything there, so that the first byte of the buffer is kept. The error of line 346 is raised after the store. -/
def refLoop (d : Dict) : Text → Text → Out (Text × Text)
  | acc, [] => .ok (acc, [])
  | acc, c :: r =>
    if isDelim d (c :: r) then .ok (acc, c :: r)
    else do
      let stored ← put acc c
      let acc := if c == 35 && decide (acc.length > 0) then stored.take 1 else stored
      if acc.length > bflmt then .exit else refLoop d acc r

/-- `lexer.c:256-351`: the token at the start of `code` (blanks have been skipped): kind, value, remaining bytes. -/
def scan (d : Dict) (code : Text) : Out (Tok × Text × Text) :=
  match code with
  | [] => .ok (.fin, [], [])
  | c :: r =>
    if c == 40 then .ok (.parOpen, [], r)
    else if c == 41 then .ok (.parClose, [], r)
    else if c == 123 then .ok (.blockOpen, [], r)
    else if c == 125 then .ok (.blockClose, [], r)
    else if d.eol.isPrefixOf code then .ok (.dot, [], code.drop d.eol.length)
    else if d.chain.isPrefixOf code then .ok (.chain, [], code.drop d.chain.length)
    else if d.assign.isPrefixOf code then .ok (.assign, [], code.drop d.assign.length)
    else if ([58, 61] : Text).isPrefixOf code then .ok (.assign, [], code.drop 2)
    else if c == d.param then .ok (.colon, [], r)
    else if d.ret.isPrefixOf code && (code.drop d.ret.length).head? == some 32 then
      .ok (.ret, [], code.drop d.ret.length)
    else if d.qo.isPrefixOf code then .ok (.quote, [], code.drop d.qo.length)
    else if (c == 45 && digitAt r) || isDigit c then do
      let (v, rest) ← number d code
      .ok (.number, v, rest)
    else do
      let (v, rest) ← refLoop d [] code
      .ok (.ref, v, rest)

/-- Lexer state: `ctr_code`, `ctr_clex_oldptr`, `ctr_clex_olderptr` as remaining bytes, and the value of the last
token (`ctr_clex_buffer`, `ctr_clex_tokvlen`). -/
structure LS where
  code : Text
  old : Text
  older : Text
  val : Text
  deriving DecidableEq

/-- `ctr_clex_load`, `lexer.c:117-128`. The two put-back pointers are not initialised; the parser never puts back
before reading (see `Verif.Model.Parser`), here they start at the program. -/
def load (prg : Text) : LS := ⟨prg, prg, prg, []⟩

/-- `ctr_clex_tok`, `lexer.c:230-352`. -/
def tok (d : Dict) (s : LS) : Out (Tok × LS) := do
  let (t, v, rest) ← scan d (skip false s.code)
  .ok (t, ⟨rest, s.code, s.old, v⟩)

/-- `ctr_clex_putback`, `lexer.c:217-222`. -/
def putback (s : LS) : LS := { s with code := s.old, old := s.older }

/-! ## Text literals -/

/-- State of the loop of `ctr_clex_readstr`: bytes stored so far (`tokvlen` is their number), size of the allocation
(`memblock`), nesting depth and escape flag. -/
structure RS where
  acc : Text
  mem : Nat
  nest : Nat
  esc : Bool

/-- `*strbuff = ...` for one or more bytes (`lexer.c:385-479`). -/
def RS.write (st : RS) (bs : Text) : Out RS :=
  if st.acc.length + bs.length ≤ st.mem then .ok { st with acc := st.acc ++ bs } else .ub

/-- `lexer.c:482-491`: extends the allocation and leaves escape mode. -/
def RS.next (st : RS) : RS :=
  { st with mem := if st.acc.length + 10 ≥ st.mem then st.mem + 100 else st.mem, esc := false }

/-- `lexer.c:393-448`: the byte an escaped byte stands for. -/
def unescape (c : UInt8) : UInt8 :=
  if c == 110 then 10 else if c == 114 then 13 else if c == 116 then 9 else if c == 118 then 11
  else if c == 98 then 8 else if c == 97 then 7 else if c == 102 then 12 else if c == 48 then 0 else c

/-- UTF-8 of the symbol for a line break, `lexer.c:450`. -/
def nlSym : Text := [0xe2, 0x86, 0xb5]

/-- UTF-8 of the symbol for a tabulator, `lexer.c:456`. -/
def tabSym : Text := [0xe2, 0x87, 0xbf]

/-- One round of the loop, `lexer.c:380-491`, on the bytes `c :: r`; `ig` is `ctr_clex_ignore_modes`. Answers the new
state and how many bytes of `r` are skipped. `nesting--` is reached with `nesting > 0` only (the loop condition). -/
def rstep (d : Dict) (ig : Bool) (st : RS) (c : UInt8) (r : Text) : Out (RS × Nat) :=
  if c == 92 && !st.esc then
    if ig then do
      let st ← st.write [92]
      .ok ({ st with esc := true }, 0)
    else .ok ({ st with esc := true }, 0)
  else if st.esc then do
    let st ← st.write [unescape c]
    .ok (st.next, 0)
  else if !ig && nlSym.isPrefixOf (c :: r) then do
    let st ← st.write [10]
    .ok (st.next, 2)
  else if !ig && tabSym.isPrefixOf (c :: r) then do
    let st ← st.write [9]
    .ok (st.next, 2)
  else if d.qc.isPrefixOf (c :: r) then do
    let st ← st.write d.qc
    let st := if ig then st else { st with nest := st.nest - 1 }
    .ok (st.next, d.qc.length - 1)
  else if d.qo.isPrefixOf (c :: r) then do
    let st ← st.write d.qo
    let st := if ig then st else { st with nest := st.nest + 1 }
    .ok (st.next, d.qo.length - 1)
  else do
    let st ← st.write [c]
    .ok (st.next, 0)

/-- `lexer.c:493-497`: skips the closing quote if that many bytes are left. -/
def finish (d : Dict) (st : RS) (code : Text) : Text × Text :=
  (st.acc, if d.qc.length ≤ code.length then code.drop d.qc.length else code)

/-- Loop of `ctr_clex_readstr`, `lexer.c:376-492`; the number counts bytes still to be skipped. -/
def readLoop (d : Dict) (ig : Bool) : Nat → RS → Text → Out (Text × Text)
  | k + 1, st, _ :: r => readLoop d ig k st r
  | _, st, [] => .ok (finish d st [])
  | 0, st, c :: r =>
    if d.qc.length < (c :: r).length ∧ (¬ d.qc.isPrefixOf (c :: r) = true ∨ st.nest > 0 ∨ st.esc = true) then
      match rstep d ig st c r with
      | .ok (st, k) => readLoop d ig k st r
      | .ub => .ub
      | .exit => .exit
    else .ok (finish d st (c :: r))

/-- `ctr_clex_readstr`, `lexer.c:363-498`: the text and the remaining bytes. -/
def readstr (d : Dict) (ig : Bool) (code : Text) : Out (Text × Text) :=
  readLoop d ig 0 ⟨[], 100, 0, false⟩ code

/-- `ctr_clex_readstr` as a change of the lexer state (the put-back pointers stay). -/
def readstrS (d : Dict) (ig : Bool) (s : LS) : Out LS := do
  let (v, rest) ← readstr d ig s.code
  .ok { s with code := rest, val := v }

/-! ## `code` of a text -/

/-- `strncmp(p, K, strlen(K)) == 0` where `p` points into the storage of a text, which has exactly as many bytes as
the text (`base.c:1618-1627`, `world.c:337-355`) and no terminator: running over its end is undefined. -/
def cmpIn : Text → Text → Out Bool
  | [], _ => .ok true
  | _ :: _, [] => .ub
  | k :: K, c :: s => if k == c then cmpIn K s else .ok false

/-- `base.c:1839-1847`: the positions of quotes from position `i`. -/
def quotePositions (d : Dict) : Nat → Text → Out (List Nat)
  | _, [] => .ok []
  | i, c :: s => do
    let o ← cmpIn d.qo (c :: s)
    let q ← if o then .ok true else cmpIn d.qc (c :: s)
    let rest ← quotePositions d (i + 1) s
    .ok (if q then i :: rest else rest)

/-- `i == quotes[j]`, `base.c:1852`, where the position was stored in a (signed) `char` and is converted back to
`ctr_size`. -/
def storedPos (i : Nat) : Nat :=
  if i % 256 < 128 then i % 256 else 18446744073709551616 - 256 + i % 256

/-- `base.c:1851-1857`: copies the bytes, inserting a backslash in front of the recorded positions. -/
def escapeLoop : List Nat → Nat → Text → Text
  | _, _, [] => []
  | [], i, c :: s => c :: escapeLoop [] (i + 1) s
  | q :: qs, i, c :: s =>
    if i = storedPos q then 92 :: c :: escapeLoop qs (i + 1) s
    else c :: escapeLoop (q :: qs) (i + 1) s

/-- `ctr_string_to_code`, `base.c:1830-1863`. The answer ends at the first NUL
(`ctr_build_string_from_cstring`). -/
def toCode (d : Dict) (t : Text) : Out Text := do
  let q ← quotePositions d 0 t
  .ok ((d.qo ++ escapeLoop q 0 t ++ d.qc).takeWhile (· != 0))

end Verif.Model.Lexer
