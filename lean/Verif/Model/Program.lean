import Verif.Model.Interp
import Verif.Model.Float
import Verif.Model.Parser
import Verif.Spec.Program

/-!
# From the text of a program to its execution

Links the parser (`Verif.Model.Parser`), the walker (`Verif.Model.Interp`) and the arithmetic (`Verif.Model.Float`): the syntax
trees the parser builds as the trees the walker walks, and the built-in operations of numbers and Booleans.
-/

namespace Verif.Model.Program
open Verif.Model.Interp (Obj Native Prim PrimOut Env St Res Val numP codeP strP trueO falseO worldO nilO objectP)
open Verif.Spec.Program (Words selector)
open Verif.Spec (Dict)

/-- The whole number a `double` is, if it is one. -/
def toInt? : Float.F → Option Int
  | .fin n m k => if m % 2 ^ k = 0 then some (if n then -(m / 2 ^ k : Nat) else (m / 2 ^ k : Nat)) else none
  | _ => none

/-- A whole number as a `double`. -/
def ofInt (z : Int) : Float.F := .fin (decide (z < 0)) z.natAbs 0

/-- The value of a number in a program: `ctr_build_number_from_string(.., 0)`, `base.c:880-905`, called at `walker.c:82` and
`240`: `atof` of at most 40 bytes.  The model of the walker knows whole numbers only; anything else becomes zero here. -/
def numberOf (t : Text) : Int := ((Float.atof (t.take 40)).bind toInt?).getD 0

/-- The modifier of the name in an assignment, `walker.c:197-203`. -/
def modeOf (m : Nat) : Interp.Mode := if m = 1 then .own else if m = 2 then .loc else .var

mutual
/-- The syntax tree of `parser.c` as the walker walks it, `walker.c:36-338`: names and texts are interned by `I`, the name of a
keyword message is one text (`parser.c:88-137`).  Messages outside of an expression do not occur. -/
def lower (I : Text → Interp.Name) (W : Words) : Spec.Node → Interp.Node
  | .ref m n => .ref (decide (m = 1)) (I n)
  | .num v => .num (numberOf v)
  | .str v => .str (I v)
  | .block ps b => .code (ps.map I) (lowerAll I W b)
  | .nested e => .nested (lower I W e)
  | .assign r e =>
    match r with
    | .ref m n => .assign (modeOf m) (I n) (lower I W e)
    | _ => .eop
  | .msg r ms => .msg (lower I W r) (lowerMsgs I W ms)
  | .ret e => .ret (lower I W e)
  | _ => .eop
/-- Lists of trees. -/
def lowerAll (I : Text → Interp.Name) (W : Words) : List Spec.Node → List Interp.Node
  | [] => []
  | e :: es => lower I W e :: lowerAll I W es
/-- Messages with their arguments. -/
def lowerMsgs (I : Text → Interp.Name) (W : Words) : List Spec.Node → List (Interp.Name × List Interp.Node)
  | [] => []
  | .una n :: ms => (I n, []) :: lowerMsgs I W ms
  | .bin o a :: ms => (I o, [lower I W a]) :: lowerMsgs I W ms
  | .kw ps as :: ms => (I (selector W ps), lowerAll I W as) :: lowerMsgs I W ms
  | _ :: ms => (I [], []) :: lowerMsgs I W ms
end

/-! ### Built-in operations of numbers and Booleans -/

/-- `nvalue` of an argument: `ctr_internal_cast2number`, `world.c:412-438`, of a number.  Arguments of other types are sent a
message; that is not modelled here. -/
def numArg (obj : Nat → Obj) (args : List Nat) : Option Int :=
  match args with
  | a :: _ =>
    match (obj a).val with
    | .num z => some z
    | _ => none
  | [] => none

/-- `bvalue` of an argument: `ctr_internal_cast2bool`, `world.c:482-493`, of a Boolean. -/
def boolArg (obj : Nat → Obj) (args : List Nat) : Option Bool :=
  match args with
  | a :: _ =>
    match (obj a).val with
    | .bool b => some b
    | _ => none
  | [] => none

/-- `ctr_build_number_from_float`, `base.c:910-918`, for a whole number; other numbers are not modelled. -/
def answerNum (obj : Nat → Obj) (fresh : Nat) (x : Float.F) : Res PrimOut :=
  match toInt? x with
  | some z => .ok ⟨fun j => if j = fresh then { val := .num z, link := some numP } else obj j, fresh + 1, fresh, none⟩
  | none => .more

/-- `ctr_build_bool`, `base.c:607-610`. -/
def answerBool (obj : Nat → Obj) (fresh : Nat) (b : Bool) : Res PrimOut :=
  .ok ⟨obj, fresh, if b then trueO else falseO, none⟩

/-- The comparison of two numbers, `base.c:925-1001`. -/
def compare (k : Nat) (a b : Int) : Bool :=
  match k with
  | 3 => decide (a < b)
  | 4 => decide (b < a)
  | 5 => decide (a ≤ b)
  | 6 => decide (b ≤ a)
  | 7 => decide (a = b)
  | _ => decide (a ≠ b)

/-- An operation with a number as argument: `ctr_number_add`, `ctr_number_minus`, `ctr_number_multiply` (`base.c:1077-1161`),
the comparisons, and `ctr_number_modulo` (`base.c:1283-1292`; the error after a division by zero is not modelled here). -/
def numOp (k : Nat) (obj : Nat → Obj) (fresh : Nat) (a b : Int) : Res PrimOut :=
  match k with
  | 0 => answerNum obj fresh (Float.add (ofInt a) (ofInt b))
  | 1 => answerNum obj fresh (Float.sub (ofInt a) (ofInt b))
  | 2 => answerNum obj fresh (Float.mul (ofInt a) (ofInt b))
  | 9 => match Float.modulo (ofInt a) (ofInt b) with
    | some x => answerNum obj fresh x
    | none => .more
  | _ => answerBool obj fresh (compare k a b)

/-- An operation of a Boolean: `ctr_bool_and`, `ctr_bool_or`, `ctr_bool_eq`, `ctr_bool_neq` (`base.c:623-639`, `809-841`). -/
def boolOp (k : Nat) (a b : Bool) : Bool :=
  match k with
  | 12 => a && b
  | 13 => a || b
  | 14 => a == b
  | _ => a != b

/-- The built-in operations: 0–9 of numbers with an argument, 10 is `ctr_number_abs` (`base.c:1413-1415`), 11 is `ctr_bool_not`
(`base.c:776-778`), 12–15 of Booleans with an argument. -/
def arith : Env where
  prim p obj fresh r args :=
    match p with
    | .other k =>
      match (obj r).val with
      | .num a =>
        if k = 10 then answerNum obj fresh (Float.abs (ofInt a))
        else match numArg obj args with
          | some b => numOp k obj fresh a b
          | none => .more
      | .bool a =>
        if k = 11 then answerBool obj fresh (!a)
        else match boolArg obj args with
          | some b => answerBool obj fresh (boolOp k a b)
          | none => .more
      | _ => .ub .type
    | _ => .more
  parse _ := none

/-! ### The start of a program -/

/-- Messages of numbers, `world.c:737-762`. -/
def numOps (W : Words) : List (Text × Native) :=
  [(W.plus, .prim (.other 0)), (W.minus, .prim (.other 1)), (W.times, .prim (.other 2)), (W.star, .prim (.other 2)),
   (W.less, .prim (.other 3)), (W.greater, .prim (.other 4)), (W.atMost, .prim (.other 5)), (W.atLeast, .prim (.other 6)),
   (W.equal, .prim (.other 7)), (W.unequal, .prim (.other 8)), (W.modulo, .prim (.other 9)), (W.absolute, .prim (.other 10))]

/-- Messages of Booleans, `world.c:697-715`. -/
def boolOps (W : Words) : List (Text × Native) :=
  [(W.ifTrue, .ifTrue), (W.ifFalse, .ifFalse), (W.otherwise, .ifFalse), (W.stop, .brk), (W.next, .cont),
   (W.not, .prim (.other 11)), (W.and, .prim (.other 12)), (W.or, .prim (.other 13)), (W.equal, .prim (.other 14)),
   (W.unequal, .prim (.other 15))]

/-- Messages of blocks, `world.c:837-848`. -/
def codeOps (W : Words) : List (Text × Native) :=
  [(W.start, .run), (W.apply, .run), (W.applyAnd, .run), (W.times, .times), (W.star, .times), (W.whileTrue, .whileTrue)]

/-- The methods of a prototype as they are added by `ctr_internal_create_func`, `world.c:375-389`: the operations are the objects
from `base` on. -/
def table (I : Text → Interp.Name) (base : Nat) : List (Text × Native) → List (Interp.Name × Nat)
  | [] => []
  | p :: ops => (I p.1, base) :: table I (base + 1) ops

/-- The object of a built-in operation. -/
def opObj (ops : List (Text × Native)) (i : Nat) : Obj :=
  match ops[i]? with
  | some p => { val := .nat p.2 }
  | none => { val := .obj }

/-- The objects after `ctr_initialize_world`, `world.c:640-1040`: Nil, True, False, the world, and the prototypes of objects,
blocks, numbers and Booleans with the operations above (12 is the prototype of Booleans); all other objects with a name are
plain objects here. -/
def startObj (I : Text → Interp.Name) (W : Words) (i : Nat) : Obj :=
  if 20 ≤ i ∧ i < 40 then opObj (numOps W) (i - 20)
  else if 40 ≤ i ∧ i < 60 then opObj (boolOps W) (i - 40)
  else if 60 ≤ i ∧ i < 80 then opObj (codeOps W) (i - 60)
  else match i with
    | 0 => { val := .nil, link := some objectP }
    | 1 => { val := .bool true, link := some 12 }
    | 2 => { val := .bool false, link := some 12 }
    | 3 => { val := .obj, link := some objectP,
             props := (I W.yes, trueO) :: (I W.no, falseO) :: W.others.map fun t => (I t, objectP) }
    | 4 => { val := .obj }
    | 5 => { val := .obj, link := some objectP, meths := table I 60 (codeOps W) }
    | 7 => { val := .num 0, link := some objectP, meths := table I 20 (numOps W) }
    | 12 => { val := .bool false, link := some objectP, meths := table I 40 (boolOps W) }
    | _ => { val := .obj, link := some objectP }

/-- The state before the first statement, `citrine.c:162-171`. -/
def start (I : Text → Interp.Name) (W : Words) : St where
  obj := startObj I W
  fresh := 80
  ctxs := [worldO]
  flow := none
  stack := []
  recursion := none
  sandbox := false
  steps := 0
  deser := false
  log := []
  evals := 0

/-- `main` of `citrine.c:160-172` without the collector: the text is parsed, then the tree is walked. After a syntax error the
process ends. -/
def main (d : Dict) (I : Text → Interp.Name) (W : Words) (n : Nat) (prg : Text) (s : St) : Res (St × Option Nat) :=
  match Parser.parse d prg with
  | .ok es _ => Interp.program arith n (lowerAll I { W with sign := d.param } es) s
  | .ub => .ub .table
  | .more => .more
  | .fail => .exit
  | .exit => .exit

end Verif.Model.Program
