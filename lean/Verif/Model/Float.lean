import Verif.Model.Num

/-!
# Calculating with numbers (`base.c:877-920, 1068-1450, 1524-1596`)

The floating point unit: a C `double` with the rounding of IEEE 754 (to the nearest, halves to even), which is what the
operators of C, `atof` and `printf` of the usual C libraries do.  Unlike `Dbl` in `Model/Num.lean` the sign of zero is kept,
because it is shown.
-/

namespace Verif.Model.Float

open Verif.Model.Num (isDigit Seps numberFromText numberToString)

/-- `ctr_number`, `citrine.h:144` (`typedef double`): not a number, an infinity, or `± m / 2^k`.  The sign and the payload of
a NaN are left out. -/
inductive F where
  | nan
  | inf (neg : Bool)
  | fin (neg : Bool) (m k : Nat)
  deriving DecidableEq, Repr

/-- The whole number nearest to `a / d`, the even one of two. -/
def halfEven (a d : Nat) : Nat :=
  if 2 * (a % d) < d then a / d
  else if d < 2 * (a % d) then a / d + 1
  else if a / d % 2 = 0 then a / d else a / d + 1

/-- How many binary places `a / d` (below 2^53) is rounded to, so that 53 binary digits remain (fewer below 2^-1022). -/
def bits (a d : Nat) : Nat :=
  if d ≤ a then 52 - (a / d).log2 else min 1074 (53 + ((d - 1) / a).log2)

/-- The `double` nearest to `± a / d`. -/
def rnd (neg : Bool) (a d : Nat) : F :=
  if a = 0 then .fin neg 0 0
  else if a < d * 2 ^ 53 then .fin neg (halfEven (a * 2 ^ bits a d) d) (bits a d)
  else
    let e := (a / d).log2 - 52
    let m := halfEven a (d * 2 ^ e)
    if m * 2 ^ e < 2 ^ 1024 then .fin neg (m * 2 ^ e) 0 else .inf neg

/-- `a + b`, `ctr_number_add` with a number as argument, `base.c:1077-1097`, and `ctr_number_inc`, `base.c:1108-1112`. -/
def add : F → F → F
  | .nan, _ => .nan
  | _, .nan => .nan
  | .inf n, .inf n' => if n = n' then .inf n else .nan
  | .inf n, .fin _ _ _ => .inf n
  | .fin _ _ _, .inf n => .inf n
  | .fin n m k, .fin n' m' k' =>
    if n = n' then rnd n (m * 2 ^ k' + m' * 2 ^ k) (2 ^ (k + k'))
    else if m * 2 ^ k' = m' * 2 ^ k then .fin false 0 0
    else if m' * 2 ^ k < m * 2 ^ k' then rnd n (m * 2 ^ k' - m' * 2 ^ k) (2 ^ (k + k'))
    else rnd n' (m' * 2 ^ k - m * 2 ^ k') (2 ^ (k + k'))

/-- The opposite number, `-b`. -/
def neg : F → F
  | .nan => .nan
  | .inf n => .inf !n
  | .fin n m k => .fin (!n) m k

/-- `a - b`, `ctr_number_minus`, `base.c:1123-1128`, and `ctr_number_dec`, `base.c:1139-1143`. -/
def sub (x y : F) : F := add x (neg y)

/-- `a * b`, `ctr_number_multiply`, `base.c:1153-1161`, and `ctr_number_mul`, `base.c:1232-1236`. -/
def mul : F → F → F
  | .nan, _ => .nan
  | _, .nan => .nan
  | .inf n, .inf n' => .inf (n != n')
  | .inf n, .fin n' m' _ => if m' = 0 then .nan else .inf (n != n')
  | .fin n m _, .inf n' => if m = 0 then .nan else .inf (n != n')
  | .fin n m k, .fin n' m' k' => rnd (n != n') (m * m') (2 ^ (k + k'))

/-- `b == 0`. -/
def isZero : F → Bool
  | .fin _ m _ => m == 0
  | _ => false

/-- `a / b` for a `b` that is not zero. -/
def quotient : F → F → F
  | .nan, _ => .nan
  | _, .nan => .nan
  | .inf _, .inf _ => .nan
  | .inf n, .fin n' _ _ => .inf (n != n')
  | .fin n _ _, .inf n' => .fin (n != n') 0 0
  | .fin n m k, .fin n' m' k' => rnd (n != n') (m * 2 ^ k') (m' * 2 ^ k)

/-- `ctr_number_divide`, `base.c:1245-1254`, and `ctr_number_div`, `base.c:1265-1273`; `none` is the error. -/
def divide (x y : F) : Option F := if isZero y then none else some (quotient x y)

/-- `fmod(a, b)` for a `b` that is not zero: exact, with the sign of `a`. -/
def fmod : F → F → F
  | .nan, _ => .nan
  | _, .nan => .nan
  | .inf _, _ => .nan
  | .fin n m k, .inf _ => .fin n m k
  | .fin n m k, .fin _ m' k' => .fin n (m * 2 ^ k' % (m' * 2 ^ k)) (k + k')

/-- `ctr_number_modulo`, `base.c:1283-1292`; `none` is the error. -/
def modulo (x y : F) : Option F := if isZero y then none else some (fmod x y)

/-- `m / 2^k` rounded up. -/
def ceilDiv (m k : Nat) : Nat := (m + (2 ^ k - 1)) / 2 ^ k

/-- `ctr_number_floor`, `base.c:1342-1344`. -/
def floor : F → F
  | .fin false m k => .fin false (m / 2 ^ k) 0
  | .fin true m k => .fin true (ceilDiv m k) 0
  | x => x

/-- `ctr_number_ceil`, `base.c:1389-1391`. -/
def ceil : F → F
  | .fin false m k => .fin false (ceilDiv m k) 0
  | .fin true m k => .fin true (m / 2 ^ k) 0
  | x => x

/-- `ctr_number_round`, `base.c:1401-1403`: halves away from zero. -/
def round : F → F
  | .fin n m k => .fin n ((2 * m + 2 ^ k) / 2 ^ (k + 1)) 0
  | x => x

/-- `ctr_number_abs`, `base.c:1413-1415`. -/
def abs : F → F
  | .nan => .nan
  | .inf _ => .inf false
  | .fin _ m k => .fin false m k

/-- The same `double`, as far as comparisons are concerned (`Verif.Model.Value`): there the sign of zero is not kept. -/
def F.dbl : F → Num.Dbl
  | .nan => .nan
  | .inf n => .inf n
  | .fin n m k => .fin (if n then -(m : Int) else m) k

/-! ### Texts -/

/-- The number that digits stand for. -/
def natOf (t : Text) : Nat := t.foldl (fun a c => a * 10 + (c.toNat - 48)) 0

/-- `atof` after the sign, for texts of digits, perhaps with a point and further digits; other texts (exponents, blanks,
words) are not modelled. -/
def atofPlain (neg : Bool) (t : Text) : Option F :=
  let ds := t.takeWhile isDigit
  match t.dropWhile isDigit with
  | [] => if ds = [] then none else some (rnd neg (natOf ds) 1)
  | c :: f =>
    if c = 46 ∧ f.all isDigit ∧ ds ++ f ≠ [] then some (rnd neg (natOf (ds ++ f)) (10 ^ f.length)) else none

/-- `atof`, `base.c:893` and `896`: the number nearest to the one that is written. -/
def atof : Text → Option F
  | [] => none
  | c :: t => if c = 45 then atofPlain true t else atofPlain false (c :: t)

/-- `ctr_build_number_from_string` with a number of the language, `base.c:880-905`. -/
def read (sp : Seps) (t : Text) : Option F := atof (numberFromText sp t)

/-- Decimal digits, without zeros in front; `fuel` bounds their number. -/
def digits : Nat → Nat → Text
  | 0, _ => []
  | fuel + 1, n => if n < 10 then [UInt8.ofNat (48 + n)] else digits fuel (n / 10) ++ [UInt8.ofNat (48 + n % 10)]

/-- Exactly `w` decimal digits. -/
def padded : Nat → Nat → Text
  | 0, _ => []
  | w + 1, n => padded w (n / 10) ++ [UInt8.ofNat (48 + n % 10)]

/-- `snprintf(buf, 99, "%.10f", ..)`, `base.c:1545`: the number rounded to ten places, at most 98 bytes. -/
def print : F → Text
  | .nan => [110, 97, 110]
  | .inf n => (if n then [45] else []) ++ [105, 110, 102]
  | .fin n m k =>
    let q := halfEven (m * 10 ^ 10) (2 ^ k)
    ((if n then [45] else []) ++ digits 400 (q / 10 ^ 10) ++ 46 :: padded 10 (q % 10 ^ 10)).take 98

/-- `ctr_number_to_string`, `base.c:1577-1579`, of a number without a unit. -/
def toText (sp : Seps) (x : F) : Out Text := numberToString sp (print x) none

/-- Calculations in a program: numbers as they are written, and messages to numbers with numbers as arguments. -/
inductive Calc where
  | lit (t : Text)
  | add (a b : Calc)
  | sub (a b : Calc)
  | mul (a b : Calc)
  | div (a b : Calc)
  | mod (a b : Calc)
  | floor (a : Calc)
  | ceil (a : Calc)
  | round (a : Calc)
  | abs (a : Calc)

/-- The answer of a calculation; `none` is an error (or a literal that is not modelled). -/
def Calc.run (sp : Seps) : Calc → Option F
  | .lit t => read sp t
  | .add a b => do Float.add (← a.run sp) (← b.run sp)
  | .sub a b => do Float.sub (← a.run sp) (← b.run sp)
  | .mul a b => do Float.mul (← a.run sp) (← b.run sp)
  | .div a b => do divide (← a.run sp) (← b.run sp)
  | .mod a b => do modulo (← a.run sp) (← b.run sp)
  | .floor a => do Float.floor (← a.run sp)
  | .ceil a => do Float.ceil (← a.run sp)
  | .round a => do Float.round (← a.run sp)
  | .abs a => do Float.abs (← a.run sp)

end Verif.Model.Float
