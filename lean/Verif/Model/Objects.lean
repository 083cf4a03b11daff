import Verif.Model.Program
import Verif.Model.Text
import Verif.Spec.Objects

/-!
# Programs with objects, sequences, texts and errors

The built-in operations of texts and sequences and the divisions of numbers, and the world at the start with the operations of
objects, texts and sequences. The walker is that of `Verif.Model.Interp`, the link to the parser that of `Verif.Model.Program`.
-/

namespace Verif.Model.Objects
open Verif.Model.Interp (Obj Native Prim PrimOut Env St Res Val numP codeP strP arrP trueO falseO worldO nilO objectP eDivZero)
open Verif.Model.Program (lower lowerAll numArg answerNum answerBool ofInt arith table opObj boolOps)
open Verif.Spec.Objects (Words)
open Verif.Spec (Dict)

/-- The answer of an operation that builds an object. -/
def answerObj (obj : Nat → Obj) (fresh : Nat) (o : Obj) : Res PrimOut :=
  .ok ⟨fun j => if j = fresh then o else obj j, fresh + 1, fresh, none⟩

/-- The error after a division by zero, `base.c:1249-1252` and `1287-1290`: the answer is the receiver. -/
def divZero (obj : Nat → Obj) (fresh r : Nat) : Res PrimOut :=
  .ok ⟨fun j => if j = fresh then { val := .str eDivZero, link := some strP } else obj j, fresh + 1, r, some fresh⟩

/-- `ctr_number_modulo` and `ctr_number_divide`, `base.c:1245-1254` and `1283-1292`, of a number. -/
def division (x : Option Float.F) (obj : Nat → Obj) (fresh r : Nat) : Res PrimOut :=
  match x with
  | some x => answerNum obj fresh x
  | none => divZero obj fresh r

/-- The text of an argument: `ctr_internal_cast2string`, `world.c:449-473`, of a text. Arguments of other types are sent a message;
that is not modelled here. -/
def textArg (D : Interp.Name → Option Text) (obj : Nat → Obj) (args : List Nat) : Option Text :=
  match args with
  | a :: _ =>
    match (obj a).val with
    | .str k => D k
    | _ => none
  | [] => none

/-- `ctr_array_get`, `collections.c:246-259`, for a number that fits the C `int` together with its predecessor; the buffer of the
sequence is modelled in `Verif.Model.Seq`. -/
def position (obj : Nat → Obj) (fresh : Nat) (l : List Nat) (n : Int) : Res PrimOut :=
  if -2147483648 < n ∧ n ≤ 2147483647 then
    let i := n - 1
    if (l.length : Int) ≤ i ∨ i < 0 then .ok ⟨obj, fresh, nilO, none⟩
    else match l[i.toNat]? with
      | some o => .ok ⟨obj, fresh, o, none⟩
      | none => .ub .table
  else .ub .arith

/-- The built-in operations: those of `Verif.Model.Program.arith`, but for 9 and 16, which are `ctr_number_modulo` and
`ctr_number_divide`; 17 is `ctr_string_concat` (`base.c:1768-1784`), 18 `ctr_string_eq` (`base.c:1707-1713`), 19 `ctr_array_count`
(`collections.c:412-416`), 20 `ctr_array_get`. `D` gives the text of an interned text. -/
def full (I : Text → Interp.Name) (D : Interp.Name → Option Text) : Env where
  prim p obj fresh r args :=
    match p with
    | .other k =>
      match (obj r).val with
      | .num a =>
        if k = 9 ∨ k = 16 then
          match numArg obj args with
          | some b => division ((if k = 9 then Float.modulo else Float.divide) (ofInt a) (ofInt b)) obj fresh r
          | none => .more
        else arith.prim p obj fresh r args
      | .str n =>
        match D n, textArg D obj args with
        | some t, some u =>
          if k = 17 then answerObj obj fresh { val := .str (I (t ++ u)), link := some strP }
          else match Txt.eq t u with
            | .ok b => answerBool obj fresh b
            | _ => .ub .table
        | _, _ => .more
      | .arr l =>
        if k = 19 then answerNum obj fresh (Float.rnd false l.length 1)
        else match numArg obj args with
          | some n => position obj fresh l n
          | none => .more
      | _ => arith.prim p obj fresh r args
    | _ => .more
  parse _ := none

/-! ### The start of a program -/

/-- Messages of numbers, `world.c:737-762`. -/
def numOps (W : Words) : List (Text × Native) :=
  Program.numOps W.toWords ++ [(W.over, .prim (.other 16)), (W.slash, .prim (.other 16))]

/-- Messages of blocks, `world.c:837-848`. -/
def codeOps (W : Words) : List (Text × Native) :=
  Program.codeOps W.toWords ++ [(W.error, .error), (W.except, .catch_)]

/-- Messages of objects, `world.c:655-679`. -/
def objOps (W : Words) : List (Text × Native) := [(W.new, .make), (W.onDo, .onDo), (W.recursive, .recursive)]

/-- Messages of texts, `world.c:796-797`. -/
def strOps (W : Words) : List (Text × Native) := [(W.plus, .prim (.other 17)), (W.equal, .prim (.other 18))]

/-- Messages of sequences, `world.c:855-877`. -/
def arrOps (W : Words) : List (Text × Native) :=
  [(W.new, .newArr), (W.newWith, .newPush), (W.append, .push), (W.semicolon, .push), (W.count, .prim (.other 19)),
   (W.position, .prim (.other 20)), (W.each, .each)]

/-- The objects after `ctr_initialize_world`, `world.c:640-1040`: Nil, True, False, the world, and the prototypes of objects,
blocks, texts, numbers, sequences and Booleans with the operations above (12 is the prototype of Booleans); the object with number
13 stands for all other objects with a name. `Object` has no prototype. -/
def startObj (I : Text → Interp.Name) (W : Words) (i : Nat) : Obj :=
  if 20 ≤ i ∧ i < 40 then opObj (numOps W) (i - 20)
  else if 40 ≤ i ∧ i < 60 then opObj (boolOps W.toWords) (i - 40)
  else if 60 ≤ i ∧ i < 80 then opObj (codeOps W) (i - 60)
  else if 80 ≤ i ∧ i < 100 then opObj (objOps W) (i - 80)
  else if 100 ≤ i ∧ i < 120 then opObj (strOps W) (i - 100)
  else if 120 ≤ i ∧ i < 140 then opObj (arrOps W) (i - 120)
  else match i with
    | 0 => { val := .nil, link := some objectP }
    | 1 => { val := .bool true, link := some 12 }
    | 2 => { val := .bool false, link := some 12 }
    | 3 => { val := .obj, link := some objectP,
             props := (I W.yes, trueO) :: (I W.no, falseO) :: (I W.object, objectP) :: (I W.sequence, arrP) :: (I W.nothing, nilO) ::
               W.others.map fun t => (I t, 13) }
    | 4 => { val := .obj, meths := table I 80 (objOps W) }
    | 5 => { val := .obj, link := some objectP, meths := table I 60 (codeOps W) }
    | 6 => { val := .obj, link := some objectP, meths := table I 100 (strOps W) }
    | 7 => { val := .num 0, link := some objectP, meths := table I 20 (numOps W) }
    | 8 => { val := .arr [], link := some objectP, meths := table I 120 (arrOps W) }
    | 12 => { val := .bool false, link := some objectP, meths := table I 40 (boolOps W.toWords) }
    | _ => { val := .obj, link := some objectP }

/-- The state before the first statement, `citrine.c:162-171`. -/
def start (I : Text → Interp.Name) (W : Words) : St where
  obj := startObj I W
  fresh := 140
  ctxs := [worldO]
  flow := none
  stack := []
  recursion := none
  sandbox := false
  steps := 0
  deser := false
  log := []
  evals := 0

/-- `main` of `citrine.c:160-172` without the collector: the text is parsed, then the tree is walked. After a syntax error the
process ends. -/
def main (d : Dict) (I : Text → Interp.Name) (D : Interp.Name → Option Text) (W : Words) (n : Nat) (prg : Text) (s : St) :
    Res (St × Option Nat) :=
  match Parser.parse d prg with
  | .ok es _ => Interp.program (full I D) n (lowerAll I { W.toWords with sign := d.param } es) s
  | .ub => .ub .table
  | .more => .more
  | .fail => .exit
  | .exit => .exit

end Verif.Model.Objects
