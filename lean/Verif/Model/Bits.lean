import Verif.Model.Num

/-!
# Bits of numbers (`base.c:1492-1516`)

`int` has 32 bits in two's complement.
-/

namespace Verif.Model.Num

/-- A C operator that works on the bits of two `int`, applied to two numbers. -/
def onBits (f : BitVec 32 → BitVec 32 → BitVec 32) (x y : Dbl) : Out Dbl := do
  let a ← x.toInt
  let b ← y.toInt
  .ok (.ofInt (f (BitVec.ofInt 32 a) (BitVec.ofInt 32 b)).toInt)

/-- `ctr_number_bit_and`, `base.c:1492-1494`, with a number as argument. -/
def bitAnd (x y : Dbl) : Out Dbl := onBits (· &&& ·) x y

/-- `ctr_number_bit_or`, `base.c:1503-1505`, with a number as argument. -/
def bitOr (x y : Dbl) : Out Dbl := onBits (· ||| ·) x y

/-- `ctr_number_bit_xor`, `base.c:1514-1516`, with a number as argument. -/
def bitXor (x y : Dbl) : Out Dbl := onBits (· ^^^ ·) x y

end Verif.Model.Num
