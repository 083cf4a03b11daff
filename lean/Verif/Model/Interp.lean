import Verif.Basic

/-!
# Model of the interpreter core

Covers the tree walker (`walker.c`), variable scopes, message dispatch and conversions (`world.c`),
blocks, loops, exceptions and the reading back of texts (`base.c`, `collections.c:127-156`,
`system.c:491-494`).

Simplifications that apply to the whole file (each definition states its own as well):

* a text is an interned number (`Name`): two texts are the same number iff they have the same bytes;
* objects live at numbered addresses and are never reclaimed (the collector and the "pins" that
  protect temporaries, `system.c:171-175`, are modelled in `Verif.Model.GC`);
* the call stack kept only for error reports (`ctr_callstack`, `errstack`) is left out, it is written
  at an index of type `uint8_t` and has 301 entries, so every index is in range;
* numbers are integers;
* built-in operations that do not call back into the interpreter are a parameter (`Env.prim`): any
  function of the heap, receiver and arguments that may also raise an error.
-/

namespace Verif.Model.Interp

/-- An interned text. -/
abbrev Name := Nat

/-! ## Outcomes -/

/-- Kinds of undefined behaviour told apart in this model. -/
inductive Ub where
  /-- access outside `ctr_contexts[301]` or `ctr_message_stack[301]` -/
  | table
  /-- use of a null pointer -/
  | null
  /-- a union read through the wrong member -/
  | type
  /-- a number that does not fit the C `int` it is converted to -/
  | arith
  deriving DecidableEq, Repr

/-- Outcome of running a piece of the interpreter with a bounded number of nested calls: `more` means
the bound was too small, so "`more` for every bound" means that the program never ends. -/
inductive Res (α : Type) where
  | ok (a : α)
  | ub (u : Ub)
  | exit
  | more

namespace Res

/-- Sequencing. -/
def bind (x : Res α) (f : α → Res β) : Res β :=
  match x with
  | ok a => f a
  | ub u => ub u
  | exit => exit
  | more => more

instance : Monad Res where
  pure := ok
  bind := bind

@[simp] theorem pure_eq (a : α) : (pure a : Res α) = ok a := rfl
@[simp] theorem ok_bind (a : α) (f : α → Res β) : (ok a >>= f) = f a := rfl
@[simp] theorem ub_bind (u : Ub) (f : α → Res β) : ((ub u : Res α) >>= f) = ub u := rfl
@[simp] theorem exit_bind (f : α → Res β) : ((exit : Res α) >>= f) = exit := rfl
@[simp] theorem more_bind (f : α → Res β) : ((more : Res α) >>= f) = more := rfl

end Res

/-! ## Programs -/

/-- How a name is assigned (`walker.c:197-203`): `own x := …`, `>> x := …` and `x := …`. -/
inductive Mode where
  | own
  | loc
  | var
  deriving DecidableEq, Repr

/-- Syntax trees (`citrine.h`, `CTR_AST_NODE_*`), for the node types the parser produces. -/
inductive Node where
  | str (k : Name)
  | num (n : Int)
  | code (params : List Name) (body : List Node)
  | ref (own : Bool) (k : Name)
  | msg (recv : Node) (msgs : List (Name × List Node))
  | assign (mode : Mode) (k : Name) (value : Node)
  | ret (value : Node)
  | nested (n : Node)
  | eop

/-! ## Objects and states -/

/-- Built-in operations without callbacks; the first five are on the whitelist of
`world.c:1121-1131`. -/
inductive Prim where
  | mapNew | mapPut | nilStr | boolStr | numStr
  | other (k : Nat)
  deriving DecidableEq, Repr

/-- Built-in operations (`CTR_OBJECT_TYPE_OTNATFUNC`). -/
inductive Native where
  | myself | make | onDo | recursive | chainOn | chainOff | respond | caseDo | message
  | ifTrue | ifFalse | brk | cont
  | run | times | whileTrue | procedure | catch_ | error | set
  | each | push | newArr | newPush
  | endProgram | eval
  | prim (p : Prim)
  deriving DecidableEq, Repr

/-- The value part of an object (`citrine.h:183-207`).  `obj` is a plain object: its value union is
all zero. -/
inductive Val where
  | nil
  | obj
  | bool (b : Bool)
  | num (n : Int)
  | str (k : Name)
  | code (params : List Name) (body : List Node)
  | arr (l : List Nat)
  | nat (f : Native)

/-- An object (`citrine.h:183-215`): value, prototype, properties and methods (newest first, as the
linked lists of `world.c:239-273` are), and the flags `selfbind` and `chainMode`. -/
structure Obj where
  val : Val
  link : Option Nat := none
  props : List (Name × Nat) := []
  meths : List (Name × Nat) := []
  selfbind : Bool := false
  chain : Bool := false

/-- Well-known objects (`world.c:640-1040`). -/
def nilO : Nat := 0
def trueO : Nat := 1
def falseO : Nat := 2
def worldO : Nat := 3
def objectP : Nat := 4
def codeP : Nat := 5
def strP : Nat := 6
def numP : Nat := 7
def arrP : Nat := 8
def brkO : Nat := 9
def contO : Nat := 10
def exitO : Nat := 11

/-- Well-known texts of the dictionary (`i18n/*/dictionary.h`). -/
def nMe : Name := 0
def nMy : Name := 1
def nTask : Name := 2
def nCatch : Name := 3
def nToString : Name := 4
def nToNumber : Name := 5
def nToBool : Name := 6
def nEquals : Name := 7
def nRespond : Name := 8
def nRespondAnd : Name := 9
def nRespondAndAnd : Name := 10
def nRespondAndAndAnd : Name := 11
def nQuestion : Name := 12
/-- Error texts (`i18n/*/translations.h`, `CTR_ERR_*`); the name appended to some of them is left
out. -/
def eNesting : Name := 13
def eKnf : Name := 14
def eAssign : Name := 15
def eRstr : Name := 16
def eRnum : Name := 17
def eRbool : Name := 18
def eBlock : Name := 19
def eString : Name := 20
def eDivZero : Name := 21
def eArray : Name := 22

/-- `CtrStdFlow` when it is not `NULL`. -/
inductive Flow where
  | brk
  | cont
  | exit
  | err (o : Nat)
  deriving DecidableEq, Repr

/-- What was executed, for the properties that speak about it: `native deser f r args` is a call of a
built-in operation and `block b args my` a run of a block for the receiver `my`. -/
inductive Event where
  | native (deser : Bool) (f : Native) (r : Nat) (args : List Nat)
  | block (b : Nat) (args : List Nat) (my : Option Nat)
  deriving DecidableEq

/-- State of the interpreter. -/
structure St where
  /-- contents of every address; those from `fresh` on are not in use -/
  obj : Nat → Obj
  fresh : Nat
  /-- `ctr_contexts[ctr_context_id]`, …, `ctr_contexts[0]`: innermost scope first -/
  ctxs : List Nat
  /-- `CtrStdFlow` -/
  flow : Option Flow
  /-- `ctr_message_stack`, last pushed first -/
  stack : List Nat
  /-- `ctr_internal_recursion` -/
  recursion : Option Nat
  /-- `ctr_flag_sandbox` -/
  sandbox : Bool
  /-- `ctr_sandbox_steps` -/
  steps : Nat
  /-- `ctr_deserialize_mode` -/
  deser : Bool
  /-- what was executed, latest first (not part of the C state) -/
  log : List Event
  /-- number of calls of `ctr_cwlk_expr` so far (not part of the C state) -/
  evals : Nat

/-- Result of a primitive: the new heap, the answer and the error it raised, if any. -/
structure PrimOut where
  obj : Nat → Obj
  fresh : Nat
  val : Nat
  err : Option Nat

/-- What the model takes as given: the primitives, and how a text is parsed as one expression
(`ctr_cparse_expr`, `parser.c:487-518`). -/
structure Env where
  prim : Prim → (Nat → Obj) → Nat → Nat → List Nat → Res PrimOut
  parse : Name → Option Node

/-! ## Property lists -/

/-- `ctr_internal_object_find_property` (`world.c:129-158`): first entry with that key. -/
def getp (l : List (Name × Nat)) (k : Name) : Option Nat :=
  match l with
  | [] => none
  | (k', v) :: l => if k' = k then some v else getp l k

/-- `ctr_internal_object_delete_property` (`world.c:169-218`): removes the first entry with that
key. -/
def delp (l : List (Name × Nat)) (k : Name) : List (Name × Nat) :=
  match l with
  | [] => []
  | (k', v) :: l => if k' = k then l else (k', v) :: delp l k

/-- `ctr_internal_object_set_property` (`world.c:283-286`): delete, then add in front
(`world.c:227-273`). -/
def setp (l : List (Name × Nat)) (k : Name) (v : Nat) : List (Name × Nat) := (k, v) :: delp l k

/-- Replaces the object at an address. -/
def St.put (s : St) (i : Nat) (o : Obj) : St :=
  { s with obj := fun j => if j = i then o else s.obj j }

/-- `ctr_internal_create_object` (`world.c`, `memory.c`): a new object. -/
def alloc (s : St) (o : Obj) : St × Nat :=
  ({ s with obj := fun j => if j = s.fresh then o else s.obj j, fresh := s.fresh + 1 }, s.fresh)

/-- `ctr_build_string` (`world.c:355-380`). -/
def newStr (s : St) (k : Name) : St × Nat := alloc s { val := .str k, link := some strP }

/-- `ctr_build_number_from_float` (`base.c`). -/
def newNum (s : St) (n : Int) : St × Nat := alloc s { val := .num n, link := some numP }

/-- `ctr_build_block` (`world.c`). -/
def newCode (s : St) (ps : List Name) (b : List Node) : St × Nat :=
  alloc s { val := .code ps b, link := some codeP }

/-- `ctr_error` (`util.c:148-164`): a new text becomes the pending error. -/
def raise (s : St) (k : Name) : St :=
  let (s, e) := newStr s k
  { s with flow := some (.err e) }

/-- `CtrStdFlow` is an error or the end of the program: neither `NULL` nor Break nor Continue. -/
def realFlow : Option Flow → Bool
  | some (.err _) => true
  | some .exit => true
  | _ => false

/-- The object `CtrStdFlow` points at. -/
def flowObj : Flow → Nat
  | .brk => brkO
  | .cont => contO
  | .exit => exitO
  | .err o => o

/-- The sandbox counter (`walker.c:16,53,97,192,225`; limit `citrine.h:138`):
`if (ctr_flag_sandbox && ++ctr_sandbox_steps > 2000) exit(1)`. -/
def tick (s : St) : Res St :=
  if s.sandbox then
    if s.steps + 1 > 2000 then .exit else .ok { s with steps := s.steps + 1 }
  else .ok s

/-! ## Scopes -/

/-- `ctr_open_context` (`world.c:499-507`): at index 299 or more an error is raised, but the scope is
opened all the same; the table has 301 entries. -/
def openCtx (s : St) : Res St :=
  if s.ctxs.length ≥ 301 then .ub .table
  else
    let s := if s.ctxs.length - 1 ≥ 299 then raise s eNesting else s
    let (s, c) := alloc s { val := .obj, link := some objectP }
    .ok { s with ctxs := c :: s.ctxs }

/-- `ctr_close_context` (`world.c:516-520`): the outermost scope stays. -/
def closeCtx (s : St) : St :=
  match s.ctxs with
  | _ :: c :: l => { s with ctxs := c :: l }
  | _ => s

/-- The loop of `ctr_find` (`world.c:534-538`). -/
def findIn (obj : Nat → Obj) : List Nat → Name → Option Nat
  | [], _ => none
  | c :: l, k =>
    match getp (obj c).props k with
    | some v => some v
    | none => findIn obj l k

/-- `ctr_find` (`world.c:530-563`); plugins are not loaded (`ctr_internal_plugin_find`). -/
def find (s : St) (k : Name) : St × Nat :=
  if s.flow.isSome then (s, nilO)
  else
    match findIn s.obj s.ctxs k with
    | some v => (s, v)
    | none =>
      match getp (s.obj worldO).props k with
      | some v => (s, v)
      | none => (raise s eKnf, nilO)

/-- `ctr_find_in_my` (`world.c:572-596`). -/
def findMy (s : St) (k : Name) : St × Nat :=
  let (s, c) := find s nMe
  if s.flow.isSome then (s, nilO)
  else
    match getp (s.obj c).props k with
    | some v => (s, v)
    | none => (raise s eKnf, nilO)

/-- Sets a property of an object. -/
def setProp (s : St) (o : Nat) (k : Name) (v : Nat) : St :=
  s.put o { s.obj o with props := setp (s.obj o).props k v }

/-- The loop of `ctr_set` (`world.c:609-614`): the innermost scope that has the name. -/
def ownerOf (obj : Nat → Obj) : List Nat → Name → Option Nat
  | [], _ => none
  | c :: l, k => if (getp (obj c).props k).isSome then some c else ownerOf obj l k

/-- `ctr_assign_value` and `ctr_set` (`world.c:605-632`, `1161-1168`). -/
def assignVar (s : St) (k : Name) (v : Nat) : St × Nat :=
  if s.flow.isSome then (s, nilO)
  else
    match ownerOf s.obj s.ctxs k with
    | some c => (setProp s c k v, v)
    | none => (raise s eAssign, v)

/-- `ctr_assign_value_to_my` (`world.c:1178-1186`). -/
def assignMy (s : St) (k : Name) (v : Nat) : St × Nat :=
  let (s, my) := find s nMe
  if s.flow.isSome then (s, nilO)
  else (setProp s my k v, v)

/-- `ctr_assign_value_to_local` (`world.c:1195-1204`). -/
def assignLocal (s : St) (k : Name) (v : Nat) : St × Nat :=
  if s.flow.isSome then (s, nilO)
  else
    match s.ctxs with
    | c :: _ => (setProp s c k v, v)
    | [] => (s, v)

/-- Parameters of a block (`base.c:2461-2473`): one local per parameter and argument. -/
def bindParams (s : St) : List Name → List Nat → St
  | p :: ps, a :: as => bindParams (assignLocal s p a).1 ps as
  | _, _ => s

/-! ## The walker -/

/-- Calls between the functions of the interpreter that are not structurally decreasing. -/
inductive Task where
  /-- `ctr_cwlk_expr` -/
  | expr (n : Node)
  /-- `ctr_send_message` -/
  | send (r : Nat) (m : Name) (args : List Nat)
  /-- `ctr_block_run` -/
  | block (b : Nat) (args : List Nat) (my : Option Nat)
  /-- the loop of `ctr_block_while_true` -/
  | loopWhile (b c : Nat) (args : List Nat)
  /-- the loop of `ctr_array_map` from index `i` on -/
  | loopEach (r b i : Nat)

/-- An answer: the new state, the object, and whether a return statement was executed. -/
abbrev Ans := St × Nat × Bool

/-- Evaluates a task. -/
abbrev Eval := Task → St → Res Ans

/-- The arguments of a message (`walker.c:117-139`).  `keys` counts `key_index`: there are 40 slots
and the process exits when they are used up. -/
def evalArgs (ev : Eval) (keys : Nat) : List Node → St → Res (St × List Nat)
  | [], s => .ok (s, [])
  | e :: es, s => do
    let (s, v, _) ← ev (.expr e) s
    if keys + 1 ≥ 40 then .exit
    else
      let (s, vs) ← evalArgs ev (keys + 1) es s
      .ok (s, v :: vs)

/-- The messages sent to a receiver one after the other (`walker.c:96-168`).  There is always an extra
argument Nil at the end (`walker.c:130-135`). -/
def chain (ev : Eval) (lit : Bool) (r : Nat) : List (Name × List Node) → St → Res (St × Nat)
  | [], s => .ok (s, r)
  | (m, as) :: ms, s => do
    let s ← tick s
    let (s, vs) ← evalArgs ev (if lit then 1 else 0) as s
    let (s, v, _) ← ev (.send r m (vs ++ [nilO])) s
    chain ev true v ms s

/-- `ctr_cwlk_message` (`walker.c:36-177`).  A receiver node of any other type leaves the receiver
null (`walker.c:90-92`). -/
def message (ev : Eval) (recv : Node) (ms : List (Name × List Node)) (s : St) : Res (St × Nat) := do
  let s ← tick s
  match recv with
  | .ref own k =>
    let (s, r) := if own then findMy s k else find s k
    if realFlow s.flow then .ok (s, nilO) else chain ev false r ms s
  | .str k => let (s, r) := newStr s k; chain ev true r ms s
  | .num n => let (s, r) := newNum s n; chain ev true r ms s
  | .code ps b => let (s, r) := newCode s ps b; chain ev true r ms s
  | .nested n => do
    let (s, r, _) ← ev (.expr (.nested n)) s
    chain ev true r ms s
  | _ => .ub .null

/-- `ctr_cwlk_assignment` (`walker.c:184-210`). -/
def assignment (ev : Eval) (mode : Mode) (k : Name) (value : Node) (s : St) : Res (St × Nat) := do
  let s ← tick s
  let (s, x, _) ← ev (.expr value) s
  match mode with
  | .own => .ok (assignMy s k x)
  | .loc => .ok (assignLocal s k x)
  | .var => .ok (assignVar s k x)

/-- `ctr_cwlk_expr` (`walker.c:217-310`) and `ctr_cwlk_return` (`walker.c:13-30`).  The error report
at the end of the program is output only.  Counts the call. -/
def expr (ev : Eval) (n : Node) (s : St) : Res Ans := do
  let s ← tick s
  let s := { s with evals := s.evals + 1 }
  match n with
  | .str k => let (s, r) := newStr s k; .ok (s, r, false)
  | .num n => let (s, r) := newNum s n; .ok (s, r, false)
  | .code ps b => let (s, r) := newCode s ps b; .ok (s, r, false)
  | .ref own k =>
    let (s, r) := if own then findMy s k else find s k
    .ok (s, r, false)
  | .msg recv ms => do
    let (s, r) ← message ev recv ms s
    .ok (s, r, false)
  | .assign mode k value => do
    let (s, r) ← assignment ev mode k value s
    .ok (s, r, false)
  | .ret value => do
    let s ← tick s
    let (s, r, _) ← ev (.expr value) s
    .ok (s, r, true)
  | .nested n => ev (.expr n) s
  | .eop => .ok (s, nilO, false)

/-- `ctr_cwlk_run` (`walker.c:318-338`): the statements in order up to a return; `none` if there was no
return. -/
def runList (ev : Eval) : List Node → St → Res (St × Option Nat)
  | [], s => .ok (s, none)
  | e :: es, s => do
    let (s, v, ret) ← ev (.expr e) s
    if ret then .ok (s, some v) else runList ev es s

/-! ## Conversions -/

/-- `ctr_internal_cast2string` (`world.c:449-473`). -/
def cast2string (ev : Eval) (o : Nat) (s : St) : Res (St × Nat) :=
  match (s.obj o).val with
  | .str _ => .ok (s, o)
  | _ => do
    let (s, v, _) ← ev (.send o nToString [nilO]) s
    match (s.obj v).val with
    | .str _ => .ok (s, v)
    | _ => .ok (newStr (raise s eRstr) nQuestion)

/-- `ctr_internal_cast2number` (`world.c:412-438`). -/
def cast2number (ev : Eval) (o : Nat) (s : St) : Res (St × Int) :=
  match (s.obj o).val with
  | .num n => .ok (s, n)
  | _ => do
    let (s, v, _) ← ev (.send o nToNumber [nilO]) s
    match (s.obj v).val with
    | .num n => .ok (s, n)
    | _ => .ok ((newNum (raise s eRnum) 0).1, 0)

/-- `ctr_internal_cast2bool` (`world.c:482-493`). -/
def cast2bool (ev : Eval) (o : Nat) (s : St) : Res (St × Bool) :=
  match (s.obj o).val with
  | .bool b => .ok (s, b)
  | _ => do
    let (s, v, _) ← ev (.send o nToBool [nilO]) s
    match (s.obj v).val with
    | .bool b => .ok (s, b)
    | _ => .ok (raise s eRbool, false)

/-! ## Blocks -/

/-- Binds the parameters, `self`, `own` and the current task (`base.c:2461-2479`). -/
def enter (ps : List Name) (args : List Nat) (my : Option Nat) (b : Nat) (s : St) : St :=
  let s := bindParams s ps args
  let s := match my with
    | some m => (assignLocal (assignLocal s nMe m).1 nMy m).1
    | none => s
  (assignLocal s nTask b).1

/-- The handler part of `ctr_block_run` (`base.c:2491-2508`): a real error (or the end of the program)
goes to the handler stored in the block, if there is one. -/
def handle (ev : Eval) (b res : Nat) (s : St) : Res (St × Nat) :=
  match s.flow with
  | some (.brk) => .ok (s, res)
  | some (.cont) => .ok (s, res)
  | none => .ok (s, res)
  | some f =>
    match getp (s.obj b).props nCatch with
    | none => .ok (s, res)
    | some c => do
      let (s, a) ← cast2string ev (flowObj f) s
      let (s, _) ← ev (.block c [a] none) { s with flow := none }
      .ok (s, b)

/-- `ctr_block_run` (`base.c:2448-2510`).  The value of a plain object and of Nil is all zero, so the
block pointer is null; any other type of object has something else in the union.  Writes the event
`block`. -/
def blockRun (ev : Eval) (b : Nat) (args : List Nat) (my : Option Nat) (s : St) : Res (St × Nat) :=
  match (s.obj b).val with
  | .nil => .ok (s, nilO)
  | .obj => .ok (s, nilO)
  | .code ps body => do
    let s ← openCtx { s with log := .block b args my :: s.log }
    let (s, r) ← runList ev body (enter ps args my b s)
    handle ev b (r.getD (my.getD b)) (closeCtx s)
  | _ => .ub .type

/-! ## Loops -/

/-- Consumes a pending Continue. -/
def eatCont (s : St) : St := if s.flow = some .cont then { s with flow := none } else s

/-- Consumes a pending Break. -/
def eatBrk (s : St) : St := if s.flow = some .brk then { s with flow := none } else s

/-- The loop of `ctr_block_times` (`base.c:1180-1186`): `n` rounds are left, the next one is number
`i + 1`. -/
def timesLoop (ev : Eval) (b : Nat) : Nat → Nat → St → Res St
  | 0, _, s => .ok s
  | n + 1, i, s => do
    let (s, k) := newNum s (i + 1 : Nat)
    let (s, _) ← ev (.block b [k] none) s
    let s := eatCont s
    if s.flow.isSome then .ok s else timesLoop ev b n (i + 1) s

/-- One round of the loop of `ctr_block_while_true` (`base.c:2531-2536`). -/
def whileRound (ev : Eval) (b c : Nat) (args : List Nat) (s : St) : Res Ans :=
  if s.flow.isSome then .ok (s, b, false)
  else do
    let (s, v, _) ← ev (.block c args none) s
    let (s, t) ← cast2bool ev v s
    if t = false ∨ s.flow.isSome then .ok (s, b, false)
    else
      let (s, _) ← ev (.block b args none) s
      ev (.loopWhile b c args) (eatCont s)

/-- One round of the loop of `ctr_array_map` (`collections.c:135-153`); the sequence is a list here,
its buffer is modelled in `Verif.Model.Seq`. -/
def eachRound (ev : Eval) (r b i : Nat) (s : St) : Res Ans :=
  match (s.obj r).val with
  | .arr l =>
    match l[i]? with
    | none => .ok (s, r, false)
    | some x => do
      let (s, k) := newNum s (i + 1 : Nat)
      let (s, _) ← ev (.block b [k, x, r] none) s
      let s := eatCont s
      if s.flow.isSome then .ok (s, r, false) else ev (.loopEach r b (i + 1)) s
  | _ => .ub .type

/-! ## Built-in operations -/

/-- Argument number `i`; `argumentList->next` is null beyond the last one. -/
def arg (args : List Nat) (i : Nat) : Res Nat :=
  match args[i]? with
  | some a => .ok a
  | none => .ub .null

/-- `value.bvalue` of a receiver. -/
def boolOf (s : St) (r : Nat) : Res Bool :=
  match (s.obj r).val with
  | .bool b => .ok b
  | .nil => .ok false
  | .obj => .ok false
  | _ => .ub .type

/-- The type is `CTR_OBJECT_TYPE_OTBLOCK`. -/
def isCode (s : St) (o : Nat) : Bool :=
  match (s.obj o).val with
  | .code _ _ => true
  | _ => false

/-- Body of `ctr_bool_if_true` and `ctr_bool_if_false` (`base.c:704-719`, `735-750`): `hit` tells
whether the condition matches. -/
def branch (ev : Eval) (hit : Bool) (r : Nat) (args : List Nat) (s : St) : Res (St × Nat) :=
  if hit then do
    let b ← arg args 0
    if isCode s b then do
      let (s, _) ← ev (.block b [r] none) s
      .ok (s, r)
    else .ok (raise s eDivZero, r)
  else .ok (eatBrk s, r)

/-- The built-in operations, function by function:
`ctr_object_myself` (`base.c:372`), `ctr_object_make` (`base.c:150-156`), `ctr_object_on_do`
(`base.c:483-502`), `ctr_object_recursion` (`base.c:315-318`), `ctr_object_do`/`ctr_object_done`
(`base.c:329-346`), `ctr_object_respond` and family (`base.c:510-560`), `ctr_object_case_do`
(`base.c:390-417`), `ctr_object_message` (`base.c:427-470`), `ctr_bool_if_true`, `ctr_bool_if_false`,
`ctr_bool_break`, `ctr_bool_continue` (`base.c:666-750`), `ctr_block_runIt` (`base.c:2543-2548`),
`ctr_block_times` (`base.c:1170-1192`), `ctr_block_while_true` (`base.c:2521-2541`),
`ctr_block_procedure` (`base.c:1211-1224`), `ctr_block_catch` (`base.c:2594-2599`), `ctr_block_error`
(`base.c:2577-2581`), `ctr_block_set` (`base.c:2560-2565`), `ctr_array_map`, `ctr_array_push`,
`ctr_array_new`, `ctr_array_new_and_push` (`collections.c:60-170`), `ctr_program_exit`
(`system.c:491-494`), `ctr_string_eval` (`base.c:1664-1693`).
`case:do:` and `message:arguments:` change sticky flags, which only concern the collector. -/
def native (env : Env) (ev : Eval) (f : Native) (r : Nat) (args : List Nat) (s : St) :
    Res (St × Nat) :=
  match f with
  | .myself => .ok (s, r)
  | .make => .ok (alloc s { val := .obj, link := some r })
  | .onDo => do
    let m ← arg args 0
    match (s.obj m).val with
    | .str k => do
      let b ← arg args 1
      let s := s.put b { s.obj b with selfbind := true }
      if isCode s b then
        .ok (s.put r { s.obj r with meths := (k, b) :: (s.obj r).meths }, r)
      else .ok (raise s eBlock, r)
    | _ => .ok (raise s eString, r)
  | .recursive => .ok ({ s with recursion := some r }, r)
  | .chainOn => .ok (s.put r { s.obj r with chain := true }, r)
  | .chainOff => .ok (s.put r { s.obj r with chain := false }, r)
  | .respond => .ok (s, r)
  | .caseDo => do
    let b ← arg args 1
    if isCode s b then do
      let x ← arg args 0
      let (s, v, _) ← ev (.send r nEquals [x]) s
      let (s, t) ← cast2bool ev v s
      if t then do
        let (s, _) ← ev (.block b [x] none) s
        .ok (eatBrk (eatCont s), r)
      else .ok (s, r)
    else .ok (raise s eBlock, nilO)
  | .message => do
    let m ← arg args 0
    let (s, m) ← cast2string ev m s
    let l ← arg args 1
    match (s.obj l).val, (s.obj m).val with
    | .arr l, .str k => do
      let (s, v, _) ← ev (.send r k (if l.isEmpty then [] else l ++ [nilO])) s
      .ok (s, v)
    | _, _ => .ok (raise s eArray, nilO)
  | .ifTrue => do
    let c ← boolOf s r
    branch ev c r args s
  | .ifFalse => do
    let c ← boolOf s r
    branch ev (!c) r args s
  | .brk => do
    let c ← boolOf s r
    .ok (if c then { s with flow := some .brk } else s, r)
  | .cont => do
    let c ← boolOf s r
    .ok (if c then { s with flow := some .cont } else s, r)
  | .run => do
    let (s, v, _) ← ev (.block r args (some r)) s
    .ok (eatBrk (eatCont s), v)
  | .times => do
    let a ← arg args 0
    let (s, t) ← cast2number ev a s
    if InInt t then do
      let s ← timesLoop ev r t.toNat 0 s
      .ok (eatBrk s, r)
    else .ub .arith
  | .whileTrue => do
    let c ← arg args 0
    let s := if isCode s c then s else raise s eBlock
    let (s, _) ← ev (.loopWhile r c args) s
    .ok (eatBrk s, r)
  | .procedure => do
    let (s, k) := newNum s 1
    let (s, _) ← ev (.block r [k] none) s
    .ok (eatBrk s, r)
  | .catch_ => do
    let c ← arg args 0
    .ok (setProp s r nCatch c, r)
  | .error => do
    let e ← arg args 0
    .ok ({ s with flow := some (.err e) }, r)
  | .set => do
    let k ← arg args 0
    let (s, k) ← cast2string ev k s
    let v ← arg args 1
    match (s.obj k).val with
    | .str k => .ok (setProp s r k v, r)
    | _ => .ub .type
  | .each => do
    let b ← arg args 0
    if isCode s b then do
      let (s, _) ← ev (.loopEach r b 0) s
      .ok (eatBrk s, r)
    else .ok (raise s eBlock, r)
  | .push => do
    let x ← arg args 0
    match (s.obj r).val with
    | .arr l => .ok (s.put r { s.obj r with val := .arr (l ++ [x]) }, r)
    | _ => .ub .type
  | .newArr => .ok (alloc s { val := .arr [], link := some r })
  | .newPush => do
    let x ← arg args 0
    .ok (alloc s { val := .arr [x], link := some r })
  | .endProgram => .ok ({ s with flow := some .exit }, nilO)
  | .eval =>
    match (s.obj r).val with
    | .str k =>
      match env.parse k with
      | none => .ok (s, nilO)
      | some e => do
        let (s, v, _) ← ev (.expr e) { s with deser := true }
        .ok ({ s with deser := false }, v)
    | _ => .ub .type
  | .prim p => do
    let o ← env.prim p s.obj s.fresh r args
    .ok ({ s with obj := o.obj, fresh := o.fresh,
                  flow := match o.err with
                    | some e => some (.err e)
                    | none => s.flow }, o.val)

/-- The whitelist of `world.c:1119-1131`. -/
def white : Native → Bool
  | .push | .newPush | .newArr | .myself => true
  | .prim .mapNew | .prim .mapPut | .prim .nilStr | .prim .boolStr | .prim .numStr => true
  | _ => false

/-! ## Dispatch -/

/-- The method search of `ctr_send_message` (`world.c:1075-1096`), `n` bounding the length of the
prototype chain (`none`: longer, or circular).  The answer is the method, if any, and the new value of
`ctr_internal_recursion`. -/
def search (obj : Nat → Obj) (stack : List Nat) (rec : Option Nat) (r : Nat) (m : Name) :
    Nat → Nat → Option (Option Nat × Option Nat)
  | 0, _ => none
  | n + 1, o =>
    let up := match (obj o).link with
      | some p => search obj stack rec r m n p
      | none => some (none, rec)
    match getp (obj o).meths m with
    | none => up
    | some f =>
      if stack.contains f then
        if rec = some r then some (some f, none) else up
      else some (some f, rec)

/-- Name of the respond message for a number of arguments (`world.c:1108-1116`). -/
def respondName (n : Nat) : Name :=
  if n = 1 then nRespondAnd
  else if n = 2 then nRespondAndAnd
  else if n = 3 then nRespondAndAndAnd
  else nRespond

/-- The method is executed (`world.c:1117-1145`): natives subject to the whitelist, own methods of an
object on the message stack, other blocks plainly.  Writes the event `native`. -/
def call (env : Env) (ev : Eval) (f r : Nat) (args : List Nat) (s : St) : Res (St × Nat) :=
  match (s.obj f).val with
  | .nat g =>
    if s.deser && !white g then .ok (s, nilO)
    else native env ev g r args { s with log := .native s.deser g r args :: s.log }
  | .code _ _ =>
    if (s.obj f).selfbind then
      if s.stack.length ≥ 301 then .ub .table
      else do
        let (s, v, _) ← ev (.block f args (some r)) { s with stack := f :: s.stack }
        .ok ({ s with stack := s.stack.tail }, v)
    else do
      let (s, v, _) ← ev (.block f args none) s
      .ok (s, v)
  | _ => .ok (s, nilO)

/-- `ctr_send_message` (`world.c:1052-1151`).  `fuel` bounds the length of the prototype chain. -/
def send (env : Env) (ev : Eval) (fuel : Nat) (r : Nat) (m : Name) (args : List Nat) (s : St) :
    Res (St × Nat) :=
  if s.flow.isSome then .ok (s, nilO)
  else
    match search s.obj s.stack s.recursion r m fuel r with
    | none => .more
    | some (none, rec) => do
      let (s, k) := newStr { s with recursion := rec } m
      let (s, v, _) ← ev (.send r (respondName (args.length - 1)) (k :: args)) s
      .ok (s, if (s.obj r).chain then r else v)
    | some (some f, rec) => do
      let (s, v) ← call env ev f r args { s with recursion := rec }
      .ok (s, if (s.obj r).chain then r else v)

/-! ## The whole interpreter -/

/-- Adds the flag "no return statement". -/
def plain (x : Res (St × Nat)) : Res Ans := do
  let (s, v) ← x
  .ok (s, v, false)

/-- The interpreter with at most `fuel` nested calls. -/
def exec (env : Env) : Nat → Eval
  | 0, _, _ => .more
  | n + 1, .expr e, s => expr (exec env n) e s
  | n + 1, .send r m args, s => plain (send env (exec env n) n r m args s)
  | n + 1, .block b args my, s => plain (blockRun (exec env n) b args my s)
  | n + 1, .loopWhile b c args, s => whileRound (exec env n) b c args s
  | n + 1, .loopEach r b i, s => eachRound (exec env n) r b i s

/-- Runs the statements of a program (`citrine.c:170-185`). -/
def program (env : Env) (fuel : Nat) (p : List Node) (s : St) : Res (St × Option Nat) :=
  runList (exec env fuel) p s

end Verif.Model.Interp
