import Verif.Model.Text

/-!
# SipHash and `hash:` (`siphash.c`, `base.c:2410-2428`, `memory.c:265-282`)

Little-endian machine (`siphash.c:33-36`); alignment of the 8 byte loads is not modelled.
-/

namespace Verif.Model.Sip

/-- `uint64_t`. -/
abbrev W := BitVec 64

/-- `ROTATE`, `siphash.c:60`. -/
def rotate (x : W) (b : Nat) : W := (x <<< b) ||| (x >>> (64 - b))

/-- The four state variables. -/
structure V where
  v0 : W
  v1 : W
  v2 : W
  v3 : W
  deriving DecidableEq

/-- `HALF_ROUND(a,b,c,d,s,t)`, `siphash.c:62-66`: the new values of `a`, `b`, `c`, `d`. -/
def halfRound (a b c d : W) (s t : Nat) : W × W × W × W :=
  let a := a + b
  let c := c + d
  let b := rotate b s ^^^ a
  let d := rotate d t ^^^ c
  let a := rotate a 32
  (a, b, c, d)

/-- Two of the four lines of `DOUBLE_ROUND`, `siphash.c:69-70` and `71-72`. -/
def twoHalves (v : V) : V :=
  let (v0, v1, v2, v3) := halfRound v.v0 v.v1 v.v2 v.v3 13 16
  let (v2, v1, v0, v3) := halfRound v2 v1 v0 v3 17 21
  ⟨v0, v1, v2, v3⟩

/-- `DOUBLE_ROUND`, `siphash.c:68-72`. -/
def doubleRound (v : V) : V := twoHalves (twoHalves v)

/-- The bytes of a word in memory, little end first. -/
def ofBytes : List UInt8 → W
  | [] => 0
  | b :: bs => b.toBitVec.setWidth 64 ||| (ofBytes bs <<< 8)

/-- `*in` for a pointer to 8 bytes, `siphash.c:79,80,90`: reads outside the bytes are undefined. -/
def load (m : Text) (i : Nat) : Out W := do
  let bs ← Txt.slice m i 8
  .ok (ofBytes bs)

/-- One message word, `siphash.c:92-94` and `109-111`. -/
def mix (v : V) (mi : W) : V :=
  let v : V := ⟨v.v0, v.v1, v.v2, v.v3 ^^^ mi⟩
  let v := doubleRound v
  ⟨v.v0 ^^^ mi, v.v1, v.v2, v.v3⟩

/-- The end, `siphash.c:111-115`. -/
def finish (v : V) : W :=
  let v : V := ⟨v.v0, v.v1, v.v2 ^^^ 0xff#64, v.v3⟩
  let v := doubleRound (doubleRound v)
  (v.v0 ^^^ v.v1) ^^^ (v.v2 ^^^ v.v3)

/-- The initial state, `siphash.c:84-87`. -/
def initial (k0 k1 : W) : V :=
  ⟨k0 ^^^ 0x736f6d6570736575#64, k1 ^^^ 0x646f72616e646f6d#64,
    k0 ^^^ 0x6c7967656e657261#64, k1 ^^^ 0x7465646279746573#64⟩

/-- The loop over whole words, `siphash.c:89-95`.  `fuel` bounds the number of rounds; the answer is the
state, the position and the number of bytes left. -/
def blocks (m : Text) : Nat → Nat → Nat → V → Out (V × Nat × Nat)
  | 0, _, _, _ => .ub
  | fuel + 1, i, sz, v =>
    if sz ≥ 8 then do
      let mi ← load m i
      blocks m fuel (i + 8) (sz - 8) (mix v mi)
    else .ok (v, i, sz)

/-- `pt[j] = m[j]`. -/
def copyByte (m : Text) (i j : Nat) (pt : List UInt8) : Out (List UInt8) :=
  match m[i + j]? with
  | some b => .ok (pt.set j b)
  | none => .ub

/-- The `switch` for the last bytes, `siphash.c:97-106`, with its fall-through. -/
def tail (m : Text) (i sz : Nat) : Out W := do
  let pt := List.replicate 8 0
  let pt ← (if sz = 7 then copyByte m i 6 pt else .ok pt)
  let pt ← (if sz = 7 ∨ sz = 6 then copyByte m i 5 pt else .ok pt)
  let pt ← (if sz = 7 ∨ sz = 6 ∨ sz = 5 then copyByte m i 4 pt else .ok pt)
  if sz = 7 ∨ sz = 6 ∨ sz = 5 ∨ sz = 4 then do
    let four ← Txt.slice m i 4
    .ok (ofBytes (four ++ pt.drop 4))
  else do
    let pt ← (if sz = 3 then copyByte m i 2 pt else .ok pt)
    let pt ← (if sz = 3 ∨ sz = 2 then copyByte m i 1 pt else .ok pt)
    let pt ← (if sz = 3 ∨ sz = 2 ∨ sz = 1 then copyByte m i 0 pt else .ok pt)
    .ok (ofBytes pt)

/-- `siphash24`, `siphash.c:77-115`. -/
def siphash24 (m key : Text) : Out W := do
  let k0 ← load key 0
  let k1 ← load key 8
  let b : W := BitVec.ofNat 64 m.length <<< 56
  let (v, i, sz) ← blocks m (m.length + 1) 0 m.length (initial k0 k1)
  let t ← tail m i sz
  .ok (finish (mix v (b ||| t)))

/-- `ctr_heap_allocate_cstring`, `memory.c:265-282`: zero bytes are left out; then a zero byte. -/
def cstring (t : Text) : Text := t.filter (· ≠ 0) ++ [0]

/-- `strlen`: bytes before the first zero. -/
def strlen (t : Text) : Nat := (t.takeWhile (· ≠ 0)).length

/-- Decimal digits, as `%" PRIu64` prints them (`base.c:2419`); `fuel` bounds the number of digits. -/
def decimal : Nat → Nat → Text
  | 0, _ => []
  | fuel + 1, n =>
    if n < 10 then [UInt8.ofNat (48 + n)]
    else decimal fuel (n / 10) ++ [UInt8.ofNat (48 + n % 10)]

/-- `ctr_string_hash_with_key`, `base.c:2410-2428`; `none` is the error about the key.  The digits go to a
buffer of 40 bytes (`snprintf` cuts them off there). -/
def hashWithKey (text key : Text) : Out (Option Text) := do
  let k := cstring key
  if strlen k < 16 then .ok none
  else do
    let t ← siphash24 text k
    .ok (some ((decimal 40 t.toNat).take 39))

end Verif.Model.Sip
