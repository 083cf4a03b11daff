import Verif.Model.Num
import Verif.Model.Text

/-!
# Truth, comparison and equality of values (`base.c`, `world.c`)

Programs may give objects their own `string`, `number`, `boolean` and `=`; here only the built-in ones are modelled.
-/

namespace Verif.Model.Value

open Verif.Model Verif.Model.Num

/-- A value. Plain objects and pieces of code, with which only their identity is of interest, have a number. -/
inductive Value where
  | nil
  | bool (b : Bool)
  | num (x : Dbl)
  | text (t : Text)
  | object (i : Nat)
  | code (i : Nat)
  deriving DecidableEq

/-- What the model leaves open: `atof` of the C library, the text of a number (`base.c:1524-1563`, see `Model/Num.lean`), the
separators of the language, and its words for `True`, `False`, `Nil`, objects and code. -/
structure Lang where
  atof : Text → Dbl
  print : Dbl → Out Text
  sp : Seps
  wTrue : Text
  wFalse : Text
  wNil : Text
  wObject : Text
  wCode : Text

/-- `ctr_build_bool`, `base.c:607-610`, with an `int`. -/
def buildBool (n : Int) : Bool := n != 0

/-- `ctr_number_to_boolean`, `base.c:1606-1608`: the number becomes an `int`. -/
def numberToBool (x : Dbl) : Out Bool := x.toInt.bind fun n => .ok (buildBool n)

/-- `ctr_internal_cast2bool`, `world.c:479-490`, with `ctr_nil_to_boolean` (`base.c:138-140`), `ctr_object_to_boolean`
(`base.c:242-244`), `ctr_string_to_boolean` (`base.c:2233-2236`). -/
def castBool : Value → Out Bool
  | .nil => .ok false
  | .bool b => .ok b
  | .num x => numberToBool x
  | .text t => if t.length = 0 then .ok false else .ok (buildBool 1)
  | .object _ => .ok true
  | .code _ => .ok true

/-- `ctr_internal_cast2number`, `world.c:436-439`, with `ctr_nil_to_number` (`base.c:126-128`), `ctr_bool_to_number`
(`base.c:851-853`), `ctr_string_to_number` (`base.c:2215-2217`), `ctr_object_to_number` (`base.c:230-232`). -/
def castNum (g : Lang) : Value → Dbl
  | .nil => .ofInt 0
  | .bool b => .ofInt (if b then 1 else 0)
  | .num x => x
  | .text t => g.atof (numberFromText g.sp t)
  | .object _ => .ofInt 1
  | .code _ => .ofInt 1

/-- `ctr_internal_cast2string`, `world.c:448-451`, with `ctr_nil_to_string` (`base.c:114-116`), `ctr_bool_to_string`
(`base.c:649-655`), `ctr_number_to_string` (`base.c:1577-1579`), `ctr_object_to_string` (`base.c:218-220`),
`ctr_block_to_string` (`base.c:2609-2611`). -/
def castText (g : Lang) : Value → Out Text
  | .nil => .ok g.wNil
  | .bool b => .ok (if b then g.wTrue else g.wFalse)
  | .num x => g.print x
  | .text t => .ok t
  | .object _ => .ok g.wObject
  | .code _ => .ok g.wCode

/-! ### Booleans -/

/-- `ctr_bool_not`, `base.c:776-779`. -/
def boolNot (b : Bool) : Bool := if !b then true else false

/-- `ctr_bool_and`, `base.c:809-813`. -/
def boolAnd (b : Bool) (v : Value) : Out Bool := (castBool v).bind fun o => .ok (if b && o then true else false)

/-- `ctr_bool_or`, `base.c:838-841`. -/
def boolOr (b : Bool) (v : Value) : Out Bool := (castBool v).bind fun o => .ok (b || o)

/-- `ctr_bool_nor`, `base.c:825-828`. -/
def boolNor (b : Bool) (v : Value) : Out Bool := (castBool v).bind fun o => .ok (!b && !o)

/-- `ctr_bool_either_or`, `base.c:791-797`. -/
def eitherOr (b : Bool) (v w : Value) : Value := if b then v else w

/-- `ctr_object_if_true`, `base.c:762-764`, `ctr_bool_if_true`, `base.c:701-719`: whether the code is run. -/
def ifTrue (v : Value) : Out Bool := (castBool v).bind fun b => .ok b

/-- `ctr_object_if_false`, `base.c:755-757`, `ctr_bool_if_false`, `base.c:732-750`: whether the code is run. -/
def ifFalse (v : Value) : Out Bool := (castBool v).bind fun b => .ok (!b)

/-! ### Numbers -/

/-- `x < y` for doubles. -/
def dlt : Dbl → Dbl → Bool
  | .nan, _ => false
  | _, .nan => false
  | .inf a, .inf b => a && !b
  | .inf a, .fin _ _ => a
  | .fin _ _, .inf b => !b
  | .fin m k, .fin n l => decide (m * 2 ^ l < n * 2 ^ k)

/-- `x >= y` for doubles. -/
def dge : Dbl → Dbl → Bool
  | .nan, _ => false
  | _, .nan => false
  | .inf a, .inf b => !a || b
  | .inf a, .fin _ _ => !a
  | .fin _ _, .inf b => b
  | .fin m k, .fin n l => decide (m * 2 ^ l ≥ n * 2 ^ k)

/-- `x <= y` for doubles. -/
def dle : Dbl → Dbl → Bool
  | .nan, _ => false
  | _, .nan => false
  | .inf a, .inf b => a || !b
  | .inf a, .fin _ _ => a
  | .fin _ _, .inf b => !b
  | .fin m k, .fin n l => decide (m * 2 ^ l ≤ n * 2 ^ k)

/-- `ctr_number_higherThan`, `base.c:925-928`. -/
def higherThan (g : Lang) (x : Dbl) (v : Value) : Bool := x.gt (castNum g v)

/-- `ctr_number_higherEqThan`, `base.c:938-941`. -/
def higherEqThan (g : Lang) (x : Dbl) (v : Value) : Bool := dge x (castNum g v)

/-- `ctr_number_lowerThan`, `base.c:953-956`. -/
def lowerThan (g : Lang) (x : Dbl) (v : Value) : Bool := dlt x (castNum g v)

/-- `ctr_number_lowerEqThan`, `base.c:968-971`. -/
def lowerEqThan (g : Lang) (x : Dbl) (v : Value) : Bool := dle x (castNum g v)

/-- `ctr_number_eq`, `base.c:983-986`. -/
def numberEq (g : Lang) (x : Dbl) (v : Value) : Bool := x.eq (castNum g v)

/-- `ctr_number_neq`, `base.c:998-1001`. -/
def numberNeq (g : Lang) (x : Dbl) (v : Value) : Bool := !(x.eq (castNum g v))

/-- `ctr_number_positive`, `base.c:1317-1319`. -/
def positive (x : Dbl) : Bool := x.gt (.ofInt 0)

/-- `ctr_number_negative`, `base.c:1330-1332`. -/
def negative (x : Dbl) : Bool := dlt x (.ofInt 0)

/-! ### Equality -/

/-- `=`: `ctr_object_equals` (`base.c:261-265`; for `Nil`, objects and code), `ctr_bool_eq` (`base.c:623-625`), `ctr_number_eq`,
`ctr_string_eq`. -/
def equals (g : Lang) : Value → Value → Out Bool
  | .bool b, v => (castBool v).bind fun o => .ok (o == b)
  | .num x, v => .ok (numberEq g x v)
  | .text t, v => (castText g v).bind fun o => Txt.eq t o
  | a, v => .ok (decide (v = a))

/-- `≠`: `ctr_object_unequals` (`base.c:282-286`), `ctr_bool_neq` (`base.c:637-639`), `ctr_number_neq`, `ctr_string_neq`. -/
def unequals (g : Lang) : Value → Value → Out Bool
  | .bool b, v => (castBool v).bind fun o => .ok (o != b)
  | .num x, v => .ok (numberNeq g x v)
  | .text t, v => (castText g v).bind fun o => Txt.neq t o
  | a, v => .ok (decide (v ≠ a))

end Verif.Model.Value
