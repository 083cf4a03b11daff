import Verif.Model.Text

/-!
# Numbers (`base.c:10-63, 880-905, 1011-1065, 1240-1310, 1480-1560`)

A C `double` is `nan`, an infinity, or `m / 2^k`; the sign of zero is not kept.  Results of the arithmetic of
the floating point unit (`a/b`, `fmod`) are parameters.
-/

namespace Verif.Model.Num

/-! ### Number texts -/

/-- The separators of a language, `CTR_DICT_NUM_THO_SEP` and `CTR_DICT_NUM_DEC_SEP` (`i18n/*/dictionary.h`). -/
structure Seps where
  tho : Text
  dec : Text

/-- Copies `t` to `new_number + j`, where `acc` is what has been written so far (`j` is its length) to a buffer of
`size` bytes.  `j` is a `char`: beyond 127 it becomes negative. -/
def put (size : Nat) (acc t : Text) : Out Text :=
  if acc.length ≤ 127 ∧ acc.length + t.length ≤ size then .ok (acc ++ t) else .ub

/-- `isdigit`. -/
def isDigit (c : UInt8) : Bool := decide (48 ≤ c.toNat) && decide (c.toNat ≤ 57)

/-- The loop of `ctr_international_number`, `base.c:22-38`: the bytes from index `i` on, the index `s` of the decimal
point, the number `k` of digits so far. -/
def interLoop (sp : Seps) (size s : Nat) : Text → Nat → Nat → Text → Out Text
  | [], _, _, acc => .ok acc
  | c :: rest, i, k, acc =>
    if c = 46 then do
      let acc ← put size acc sp.dec
      interLoop sp size s rest (i + 1) k acc
    else do
      let acc ← (if i < s ∧ k > 0 ∧ (s - i) % 3 = 0 then put size acc sp.tho else .ok acc)
      let acc ← put size acc [c]
      interLoop sp size s rest (i + 1) (if isDigit c then k + 1 else k) acc

/-- `ctr_international_number`, `base.c:10-39`.  `old` is the C string (at most 98 bytes, so the `char` counters
`i`, `s`, `k` do not overflow); `size` is the size of the target, which is filled with zero bytes before. -/
def international (sp : Seps) (size : Nat) (old : Text) : Out Text :=
  interLoop sp size (old.takeWhile (· ≠ 46)).length old 0 0 []

/-- `ctr_national_number`, `base.c:44-63`.  `fuel` bounds the number of rounds.  The target has the size of the source,
and one byte is written for at least one byte read.  After a decimal separator the length of the *thousands*
separator is skipped (`base.c:54`). -/
def national (sp : Seps) : Nat → Text → Text
  | 0, _ => []
  | _ + 1, [] => []
  | fuel + 1, c :: rest =>
    if sp.tho.isPrefixOf (c :: rest) then national sp fuel ((c :: rest).drop sp.tho.length)
    else if sp.dec.isPrefixOf (c :: rest) then 46 :: national sp fuel ((c :: rest).drop sp.tho.length)
    else c :: national sp fuel rest

/-- What `ctr_build_number_from_string` gives to `atof`, `base.c:880-905`: at most 40 bytes, up to a zero byte. -/
def numberFromText (sp : Seps) (t : Text) : Text :=
  let old := (t.take 40).takeWhile (· ≠ 0)
  national sp (old.length + 1) old

/-- The loop over trailing zeros and the test for the decimal point, `base.c:1545-1548`; reading before the buffer is
undefined. -/
def stripZeros (t : Text) : Out Text :=
  match t.reverse.dropWhile (· = 48) with
  | [] => .ub
  | c :: r => if c = 46 then .ok r.reverse else .ok (c :: r).reverse

/-- `ctr_internal_number_to_string` with `flat = 0`, `base.c:1524-1562`.  `printed` is the result of
`snprintf(buf, 99, "%.10f", ..)`, at most 98 bytes.  The target has 100 bytes, plus the length of the
qualifier if there is one; the qualifier is appended after a space by `strcat` and `strncat`, which stop at a zero
byte and write a zero byte behind. -/
def numberToString (sp : Seps) (printed : Text) (qual : Option Text) : Out Text := do
  let buf ← stripZeros printed
  match qual with
  | none => do
    let q ← international sp 100 buf
    if q.length < 100 then .ok q else .ub
  | some ql => do
    let q ← international sp (100 + ql.length) buf
    let r := q ++ [32] ++ ql.takeWhile (· ≠ 0)
    if r.length < 100 + ql.length then .ok r else .ub

/-! ### Doubles -/

/-- A `double`. -/
inductive Dbl where
  | nan
  | inf (neg : Bool)
  | fin (m : Int) (k : Nat)
  deriving DecidableEq, Repr

/-- A whole number as a `double`. -/
def Dbl.ofInt (n : Int) : Dbl := .fin n 0

/-- `x == 0`. -/
def Dbl.isZero : Dbl → Bool
  | .fin m _ => m == 0
  | _ => false

/-- `round(x)`: half away from zero. -/
def Dbl.round : Dbl → Dbl
  | .fin m k => .fin (m.sign * ((2 * m.natAbs + 2 ^ k) / 2 ^ (k + 1) : Nat)) 0
  | x => x

/-- `x > y`. -/
def Dbl.gt : Dbl → Dbl → Bool
  | .nan, _ => false
  | _, .nan => false
  | .inf a, .inf b => !a && b
  | .inf a, .fin _ _ => !a
  | .fin _ _, .inf b => b
  | .fin m k, .fin n l => decide (m * 2 ^ l > n * 2 ^ k)

/-- `x == y`. -/
def Dbl.eq : Dbl → Dbl → Bool
  | .inf a, .inf b => a == b
  | .fin m k, .fin n l => m * 2 ^ l == n * 2 ^ k
  | _, _ => false

/-- `(int) x`: towards zero; undefined outside the range of `int`. -/
def Dbl.toInt : Dbl → Out Int
  | .fin m k =>
    let n := m.tdiv (2 ^ k)
    if InInt n then .ok n else .ub
  | _ => .ub

/-- `RAND_MAX` of the C library. -/
def randMax : Int := 2147483647

/-- `ctr_number_between` from the comparison on, `base.c:1028-1040`; `lo` and `hi` are the ordered rounded bounds, `draws`
the results of `rand()`, one per roll (the sum of fewer is taken if the list is too short).
`ceil` of the quotient of two `int` values is exact in double precision. -/
def betweenRoll (lo hi : Dbl) (draws : List Int) : Out Dbl :=
  if lo.eq hi then .ok lo
  else do
    let h ← hi.toInt
    let l ← lo.toInt
    if InInt (h - l) ∧ InInt (-(h - l)) then do
      let span : Int := (h - l).natAbs
      let rolls := (span + randMax - 1) / randMax
      let result := (draws.take rolls.toNat).sum
      .ok (.ofInt (result.tmod (span + 1) + l))
    else .ub

/-- `ctr_number_between`, `base.c:1011-1041`. -/
def between (a b : Dbl) (draws : List Int) : Out Dbl :=
  let lo := a.round
  let hi := b.round
  if lo.gt hi then betweenRoll hi lo draws else betweenRoll lo hi draws

/-- `ctr_number_odd`, `base.c:1051-1053`: every non-zero remainder is true (`base.c:607-610`). -/
def odd (x : Dbl) : Out Bool := do
  let n ← x.toInt
  .ok (n.tmod 2 != 0)

/-- `ctr_number_even`, `base.c:1063-1065`. -/
def even (x : Dbl) : Out Bool := do
  let n ← x.toInt
  .ok (!(n.tmod 2 != 0))

/-! ### Division -/

/-- What the messages see: the value of the receiver and whether an error is pending. -/
structure NumState where
  value : Dbl
  error : Bool

/-- The answer: the receiver or a new number. -/
inductive Answer where
  | self
  | number (x : Dbl)
  deriving DecidableEq

/-- `ctr_number_divide`, `base.c:1247-1256`; `quot` is the division of the processor. -/
def divide (quot : Dbl → Dbl → Dbl) (s : NumState) (b : Dbl) : Answer × NumState :=
  if b.isZero then (.self, { s with error := true }) else (.number (quot s.value b), s)

/-- `ctr_number_div`, `base.c:1267-1275`. -/
def div (quot : Dbl → Dbl → Dbl) (s : NumState) (b : Dbl) : Answer × NumState :=
  if b.isZero then (.self, { s with error := true }) else (.self, { s with value := quot s.value b })

/-- `ctr_number_modulo`, `base.c:1285-1294`; `rem` is `fmod`. -/
def modulo (rem : Dbl → Dbl → Dbl) (s : NumState) (b : Dbl) : Answer × NumState :=
  if b.isZero then (.self, { s with error := true }) else (.number (rem s.value b), s)

end Verif.Model.Num
