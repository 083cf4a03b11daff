import Verif.Model.GC

/-!
# Intermediate values and the garbage collector (`walker.c`, `base.c:2448-2511`, `system.c:147-175`)

While an expression is evaluated, receivers, arguments and answers are held by C variables that the collector does not
know. The walker protects them by "pins": properties with an empty name in the innermost scope.

Model choices:
* A program is given by what it does: a tree with one node for every evaluation (`Exp`), in which the statements that
  ran stand in the place of a call. Every finite run of a program is such a tree; loops are unrolled, and which branch
  was taken and whether a collection was due after a statement (`gc`) is written in the tree.
* Objects are those of `Verif.Model.GC`, without prototypes. `kind` tells the texts that serve as names, the scopes and
  all other objects apart; names are always fresh texts (`C15_violated_name` shows what happens otherwise).
* Built-in operations are lists of steps on C variables (`Step`), among them calls of blocks.
* An unknown name answers Nil, which is read from the outermost scope (`world.c:686` puts it there); a world without
  Nil does not occur. The extra argument Nil (`walker.c:130-135`) is left out. The limits of 40 arguments and 300 scopes are in `Verif.Model.Interp`.
* Errors: the messages that are ignored while an error is pending are steps that do nothing. Handlers (`catch:`) are left
  out.
* `collects` switches the collector on or off for the whole run: `false` is a run in which nothing is ever freed.
-/

namespace Verif.Model.Temp

open Verif.Model.GC (Heap Obj upd create modify addItem collect)

/-- What an object serves for: a text that names a property (with the number of the text, 0 is the empty text), a scope,
or anything else. -/
inductive Kind where
  | value
  | scope
  | name (n : Nat)
  deriving DecidableEq

/-- Objects, their kinds, open scopes (innermost first, `world.c:33`) and `ctr_in_message` (`walker.c:128-130`). -/
structure St where
  heap : Heap
  kind : Nat → Kind
  ctxs : List Nat
  inMsg : Nat

/-- A step of a built-in operation without calls; numbers are the C variables: 0 is the receiver, then come the arguments,
then the results of the steps in order. -/
inductive Basic where
  /-- a new object (`isArray`: a sequence) -/
  | new (isArray : Bool)
  /-- the element at position `j` of sequence `i` -/
  | elem (i j : Nat)
  /-- the property (method, if `m`) of `i` with name `n` -/
  | get (m : Bool) (i n : Nat)
  /-- set a property (method, if `m`) of `i` -/
  | put (m : Bool) (i n v : Nat)
  /-- delete a property (method, if `m`) of `i` -/
  | del (m : Bool) (i n : Nat)
  | push (i v : Nat)
  | pop (i : Nat)
  | shift (i : Nat)
  | pin (i : Nat)
  deriving DecidableEq

mutual
/-- Evaluation of an expression (`ctr_cwlk_expr`, `walker.c:217-305`). -/
inductive Exp where
  /-- a literal: text, number or block -/
  | lit
  /-- a variable -/
  | ref (n : Nat)
  /-- an own property -/
  | own (n : Nat)
  /-- assignment to a new local variable -/
  | loc (n : Nat) (e : Exp)
  /-- assignment to a variable -/
  | var (n : Nat) (e : Exp)
  /-- assignment to an own property -/
  | ownSet (n : Nat) (e : Exp)
  /-- messages sent one after the other to a receiver -/
  | msg (recv : Exp) (ms : List Msg)
/-- One message: the arguments, what the built-in operation does, and which of its variables it answers. -/
inductive Msg where
  | mk (args : List Exp) (steps : List Step) (res : Nat)
/-- A step of a built-in operation. -/
inductive Step where
  | basic (b : Basic)
  /-- collect garbage (`Program clean memory`) -/
  | clean
  /-- run block `b` with arguments for its parameters and maybe a receiver -/
  | run (b : Nat) (params : List (Nat × Nat)) (my : Option Nat) (body : List Stmt)
/-- A statement that was run: `ret` if it is a return statement, `gc` if a collection was due after it. -/
inductive Stmt where
  | mk (e : Exp) (ret gc : Bool)
end

/-- Reading an object through a pointer. -/
def obj (s : St) (x : Nat) : Out Obj :=
  match s.heap.mem x with
  | none => .ub
  | some o => .ok o

/-- Writing an object through a pointer. -/
def change (s : St) (x : Nat) (f : Obj → Obj) : Out St :=
  (modify s.heap x f).bind fun h => .ok { s with heap := h }

/-- `ctr_internal_create_object`, `world.c:364-394`. -/
def make (s : St) (k : Kind) (isArray sticky : Bool) : St × Nat :=
  ({ s with heap := create s.heap isArray sticky none, kind := fun x => if x = s.heap.fresh then k else s.kind x },
    s.heap.fresh)

/-- Is this the item looked for: `ctr_internal_object_is_equal(head->key, key)`, `world.c:150`. -/
def isNamed (kind : Nat → Kind) (n : Nat) (p : Nat × Nat) : Bool := kind p.1 == .name n

/-- The search of `ctr_internal_object_find_property`, `world.c:149-154`; the key of the item found is read. -/
def lookup (s : St) (n : Nat) (l : List (Nat × Nat)) : Out (Option Nat) :=
  match l.find? (isNamed s.kind n) with
  | none => .ok none
  | some (k, v) => (obj s k).bind fun _ => .ok (some v)

/-- `ctr_internal_object_find_property`, `world.c:132-158`. -/
def findProp (s : St) (m : Bool) (x n : Nat) : Out (Option Nat) :=
  (obj s x).bind fun o => lookup s n (if m then o.methods else o.props)

/-- Removal of the first item of that name, `world.c:181-213`. -/
def dropNamed (kind : Nat → Kind) (m : Bool) (n : Nat) (o : Obj) : Obj :=
  if m then { o with methods := o.methods.eraseP (isNamed kind n) } else { o with props := o.props.eraseP (isNamed kind n) }

/-- `ctr_internal_object_delete_property`, `world.c:169-218`. -/
def delProp (s : St) (m : Bool) (x n : Nat) : Out St := change s x (dropNamed s.kind m n)

/-- `ctr_internal_object_add_property`, `world.c:227-252`, with a new key of the text `n`. -/
def addProp (s : St) (m : Bool) (x n v : Nat) : Out St :=
  let (s, k) := make s (.name n) false false
  change s x (addItem m k v)

/-- `ctr_internal_object_set_property`, `world.c:283-286`. -/
def setProp (s : St) (m : Bool) (x n v : Nat) : Out St := (delProp s m x n).bind fun s => addProp s m x n v

/-- `ctr_gc_internal_pin`, `system.c:171-175`: a property with the empty text as its name in the innermost scope. -/
def pin (s : St) (v : Nat) : Out St :=
  match s.ctxs with
  | [] => .ub
  | c :: _ => addProp s false c 0 v

/-- Removal of pins, `walker.c:155-164`: the first property with an empty name of the innermost scope, `k` times. -/
def unpin (s : St) : Nat → Out St
  | 0 => .ok s
  | k + 1 =>
    match s.ctxs with
    | [] => .ub
    | c :: _ => (delProp s false c 0).bind fun s => unpin s k

/-- The loop of `ctr_find`, `world.c:534-538`. Names of variables are not empty. -/
def findIn (s : St) (n : Nat) : List Nat → Out (Option Nat)
  | [] => .ok none
  | c :: l => (findProp s false c (n + 1)).bind fun r =>
    match r with
    | some v => .ok (some v)
    | none => findIn s n l

/-- `ctr_find`, `world.c:530-563`. -/
def find (s : St) (n : Nat) : Out (Option Nat) := findIn s n s.ctxs

/-- The loop of `ctr_set`, `world.c:609-614`. -/
def ownerIn (s : St) (n : Nat) : List Nat → Out (Option Nat)
  | [] => .ok none
  | c :: l => (findProp s false c (n + 1)).bind fun r =>
    match r with
    | some _ => .ok (some c)
    | none => ownerIn s n l

/-- `ctr_assign_value_to_local`, `world.c:1195-1204`. -/
def setLocal (s : St) (n v : Nat) : Out St :=
  match s.ctxs with
  | [] => .ub
  | c :: _ => setProp s false c (n + 1) v

/-- `ctr_assign_value`, `world.c:1161-1168`; an unknown name is an error. -/
def setVar (s : St) (n v : Nat) : Out St :=
  (ownerIn s n s.ctxs).bind fun r =>
    match r with
    | some c => setProp s false c (n + 1) v
    | none => .ok s

/-- The variable `me` (`ctr_clex_keyword_me_icon`). -/
def nMe : Nat := 0

/-- The variable for the running block (`CTR_DICT_CURRENT_TASK`). -/
def nTask : Nat := 1

/-- `ctr_assign_value_to_my`, `world.c:1178-1186`. -/
def setOwn (s : St) (n v : Nat) : Out St :=
  (find s nMe).bind fun r =>
    match r with
    | some m => setProp s false m (n + 1) v
    | none => .ok s

/-- The variable `Nil`. -/
def nNil : Nat := 2

/-- The value of a search, or Nil (`CtrStdNil`, `world.c:558`, `world.c:589`). -/
def orNil (s : St) : Option Nat → Out Nat
  | some v => .ok v
  | none =>
    match s.ctxs.getLast? with
    | none => .ub
    | some w => (findProp s false w (nNil + 1)).bind fun r =>
      match r with
      | some v => .ok v
      | none => .exit

/-- `ctr_find_in_my`, `world.c:572-596`. -/
def findOwn (s : St) (n : Nat) : Out (Option Nat) :=
  (find s nMe).bind fun r =>
    match r with
    | some m => findProp s false m (n + 1)
    | none => .ok none

/-- `ctr_open_context`, `world.c:499-507`. -/
def openScope (s : St) : St :=
  let (s, c) := make s .scope false true
  { s with ctxs := c :: s.ctxs }

/-- `ctr_close_context`, `world.c:516-520` (never the outermost scope here). -/
def closeScope (s : St) : Out St :=
  match s.ctxs with
  | [] => .ub
  | c :: rest => (change s c fun o => { o with sticky := false }).bind fun s => .ok { s with ctxs := rest }

/-- `ctr_gc_internal_collect`, `system.c:147-163`, if `on`. -/
def cleanUp (s : St) (on : Bool) : Out St :=
  if on then (collect s.heap s.ctxs).bind fun h => .ok { s with heap := h } else .ok s

/-- `sticky = r->info.sticky; r->info.sticky = 1`, `walker.c:115-116`. -/
def hold (s : St) (r : Nat) : Out (St × Bool) :=
  (obj s r).bind fun o => (change s r fun o => { o with sticky := true }).bind fun s => .ok (s, o.sticky)

/-- `r->info.sticky = sticky`, `walker.c:147`. -/
def letGo (s : St) (r : Nat) (old : Bool) : Out St := change s r fun o => { o with sticky := old }

/-- Is the receiver pinned: `literal`, `walker.c:39`, `56`. -/
def isLiteral : Exp → Bool
  | .ref _ => false
  | .own _ => false
  | _ => true

/-- A C variable of a built-in operation; a number that is none does not occur in a program. -/
def var? (regs : List Nat) (i : Nat) : Out Nat :=
  match regs[i]? with
  | some v => .ok v
  | none => .exit

/-- Elements of sequences only (`world.c:854-887`: the messages are those of sequences). -/
def seqAt (s : St) (x : Nat) : Out Obj := (obj s x).bind fun o => if o.isArray then .ok o else .exit

/-- Parameters of a block, `base.c:2461-2473`. -/
def bindParams (regs : List Nat) : St → List (Nat × Nat) → Out St
  | s, [] => .ok s
  | s, (n, i) :: ps => (var? regs i).bind fun v => (setLocal s n v).bind fun s => bindParams regs s ps

/-- The local variables of a running block, `base.c:2474-2479` (`me` and `my` are one here). -/
def bindSelf (s : St) (b : Nat) (my : Option Nat) : Out St :=
  (match my with
   | some m => setLocal s nMe m
   | none => .ok s).bind fun s => setLocal s nTask b

/-- The end of `ctr_block_run`, `base.c:2483-2491`. -/
def leave (s : St) (b : Nat) (my answer : Option Nat) : Out (St × Nat) :=
  let result := answer.getD (my.getD b)
  (closeScope s).bind fun s =>
    if s.inMsg > 0 then (pin s result).bind fun s => .ok (s, result) else .ok (s, result)

/-- Steps of built-in operations without calls: the new state and the C variables. -/
def basic (s : St) (regs : List Nat) : Basic → Out (St × List Nat)
  | .new a => let (s, x) := make s .value a false; .ok (s, regs ++ [x])
  | .elem i j => (var? regs i).bind fun x => (seqAt s x).bind fun o =>
    (orNil s (o.elems[o.tail + j]?)).bind fun v => .ok (s, regs ++ [v])
  | .get m i n => (var? regs i).bind fun x => (findProp s m x n).bind fun r =>
    (orNil s r).bind fun v => .ok (s, regs ++ [v])
  | .put m i n v => (var? regs i).bind fun x => (var? regs v).bind fun v => (setProp s m x n v).bind fun s => .ok (s, regs)
  | .del m i n => (var? regs i).bind fun x => (delProp s m x n).bind fun s => .ok (s, regs)
  | .push i v => (var? regs i).bind fun x => (var? regs v).bind fun v => (seqAt s x).bind fun _ =>
    (change s x (GC.arrayPush v)).bind fun s => .ok (s, regs)
  | .pop i => (var? regs i).bind fun x => (seqAt s x).bind fun _ => (change s x GC.arrayPop).bind fun s => .ok (s, regs)
  | .shift i => (var? regs i).bind fun x => (seqAt s x).bind fun _ => (change s x GC.arrayShift).bind fun s => .ok (s, regs)
  | .pin i => (var? regs i).bind fun x => (pin s x).bind fun s => .ok (s, regs)

/-- The receiver of a block, if it has one. -/
def var?? (regs : List Nat) : Option Nat → Out (Option Nat)
  | some i => (var? regs i).bind fun m => .ok (some m)
  | none => .ok none

mutual
/-- `ctr_cwlk_expr`, `walker.c:217-305`; assignments `walker.c:184-210`. -/
def eval (collects : Bool) (s : St) : Exp → Out (St × Nat)
  | .lit => .ok (make s .value false false)
  | .ref n => (find s n).bind fun r => (orNil s r).bind fun v => .ok (s, v)
  | .own n => (findOwn s n).bind fun r => (orNil s r).bind fun v => .ok (s, v)
  | .loc n e => (eval collects s e).bind fun (s, v) => (setLocal s n v).bind fun s => .ok (s, v)
  | .var n e => (eval collects s e).bind fun (s, v) => (setVar s n v).bind fun s => .ok (s, v)
  | .ownSet n e => (eval collects s e).bind fun (s, v) => (setOwn s n v).bind fun s => .ok (s, v)
  | .msg recv ms => (eval collects s recv).bind fun (t, r) => chain collects t t.inMsg (isLiteral recv) r ms

/-- The messages to a receiver one after the other, `walker.c:94-170`; `level` is `ctr_in_message` for this message, and
the level of the beginning is restored at the end. -/
def chain (collects : Bool) (s : St) (level : Nat) (lit : Bool) (r : Nat) : List Msg → Out (St × Nat)
  | [] => .ok (s, r)
  | .mk args steps res :: ms =>
    (hold { s with inMsg := level } r).bind fun (s, old) =>
    (if lit then pin s r else .ok s).bind fun s =>
    (evalArgs collects s args).bind fun (s, vs) =>
    (native collects s (r :: vs) steps).bind fun (s, regs) =>
    (var? regs res).bind fun v =>
    (letGo s r old).bind fun s =>
    (unpin s (vs.length + if lit then 1 else 0)).bind fun s =>
    (chain collects s (level + 1) true v ms).bind fun (t, w) => .ok ({ t with inMsg := level }, w)

/-- Arguments, `walker.c:125-147`. -/
def evalArgs (collects : Bool) (s : St) : List Exp → Out (St × List Nat)
  | [] => .ok (s, [])
  | e :: es =>
    (eval collects { s with inMsg := s.inMsg + 1 } e).bind fun (t, v) =>
    (pin { t with inMsg := s.inMsg } v).bind fun s =>
    (evalArgs collects s es).bind fun (s, vs) => .ok (s, v :: vs)

/-- A built-in operation; `.run`: `ctr_block_run`, `base.c:2448-2511`. -/
def native (collects : Bool) (s : St) (regs : List Nat) : List Step → Out (St × List Nat)
  | [] => .ok (s, regs)
  | .basic b :: steps => (basic s regs b).bind fun (s, regs) => native collects s regs steps
  | .clean :: steps => (cleanUp s collects).bind fun s => native collects s regs steps
  | .run b ps my body :: steps =>
    (var? regs b).bind fun blk =>
    (var?? regs my).bind fun me =>
    (obj s blk).bind fun _ =>
    (bindParams regs (openScope s) ps).bind fun s =>
    (bindSelf s blk me).bind fun s =>
    (stmts collects s body).bind fun (s, answer) =>
    (leave s blk me answer).bind fun (s, v) =>
    native collects s (regs ++ [v]) steps

/-- `ctr_cwlk_run`, `walker.c:312-339`: a return statement ends the block before the collector may run. -/
def stmts (collects : Bool) (s : St) : List Stmt → Out (St × Option Nat)
  | [] => .ok (s, none)
  | .mk e ret gc :: rest =>
    (eval collects s e).bind fun (s, v) =>
    if ret then .ok (s, some v)
    else (cleanUp s (collects && gc)).bind fun s => stmts collects s rest
end

/-! ### Built-in operations that run blocks

The C variables are the receiver (0), the arguments (1, ...) and the results; `i` is the number of the next one. -/

/-- `ctr_array_map` (`each:`), `collections.c:125-156`: in every round a new number, the element, three pins and the call.
`names` are the parameters of the block; every round has the position read and the statements run. -/
def eachSteps (names : List Nat) : Nat → List (Nat × List Stmt) → List Step
  | _, [] => []
  | i, (j, body) :: rounds =>
    .basic (.new false) :: .basic (.elem 0 j) :: .basic (.pin 1) :: .basic (.pin 0) :: .basic (.pin (i + 1)) ::
    .run 1 (names.zip [i, i + 1, 0]) none body :: eachSteps names (i + 3) rounds

/-- `ctr_array_sort` and `ctr_sort_cmp`, `collections.c:607-647`: every comparison reads two elements, pins the block, the
sequence, the first element and again the sequence, and calls. The answers are numbers. -/
def sortSteps (names : List Nat) : Nat → List (Nat × Nat × List Stmt) → List Step
  | _, [] => []
  | i, (j, k, body) :: rounds =>
    .basic (.elem 0 j) :: .basic (.elem 0 k) :: .basic (.pin 1) :: .basic (.pin 0) :: .basic (.pin i) :: .basic (.pin 0) ::
    .run 1 (names.zip [i, i + 1]) none body :: sortSteps names (i + 3) rounds

/-- `ctr_block_times` (`×`), `base.c:1170-1192`; `sticky` of the block is set as the walker does already. -/
def timesSteps (names : List Nat) : Nat → List (List Stmt) → List Step
  | _, [] => []
  | i, body :: rounds => .basic (.new false) :: .run 0 (names.zip [i]) none body :: timesSteps names (i + 2) rounds

/-- `ctr_block_while_true` (`while:`), `base.c:2521-2542`; conditions answer booleans. -/
def whileSteps (names names' : List Nat) : List (List Stmt × List Stmt) → List Stmt → List Step
  | [], last => [.run 1 (names.zip [1]) none last]
  | (cond, body) :: rounds, last =>
    .run 1 (names.zip [1]) none cond :: .run 0 (names'.zip [1]) none body :: whileSteps names names' rounds last

/-- `ctr_bool_if_true`, `ctr_bool_if_false`, `base.c:701-750`. -/
def ifSteps (names : List Nat) (body : List Stmt) : List Step := [.run 1 (names.zip [0]) none body]

/-- A message answered by a method of the receiver itself, `world.c:1142-1150`, with `k` arguments. -/
def callSteps (n : Nat) (names : List Nat) (k : Nat) (body : List Stmt) : List Step :=
  [.basic (.get true 0 n), .run (k + 1) (names.zip (List.range' 1 k)) (some 0) body]

/-- A text asked of an object (`ctr_internal_cast2string`, `world.c:448-470`) that answers with a method `n` of its own. -/
def textSteps (n x i : Nat) (body : List Stmt) : List Step := [.basic (.get true x n), .run i [] (some x) body]

/-- The elements of `joinSteps`; the text between them (variable 3) is read for every element but the first. -/
def joinRounds (n : Nat) : Bool → Nat → List (Nat × List Stmt) → List Step
  | _, _, [] => []
  | true, i, (j, body) :: rounds => .basic (.elem 0 j) :: textSteps n i (i + 1) body ++ joinRounds n false (i + 3) rounds
  | false, i, (j, body) :: rounds =>
    .basic (.elem 0 j) :: textSteps n i (i + 1) body ++ .basic (.get false 3 0) :: joinRounds n false (i + 4) rounds

/-- `ctr_array_join` (`join:`), `collections.c:205-233`, if the argument and the elements answer `n` with methods of their
own: the text of the argument is held by a C variable while the elements are asked for theirs. -/
def joinSteps (n : Nat) (glue : List Stmt) (rounds : List (Nat × List Stmt)) : List Step :=
  textSteps n 1 2 glue ++ joinRounds n true 4 rounds ++ [.basic (.new false)]

/-- A new world with one scope that knows Nil, `world.c:647-649`, `world.c:684-693`. -/
def boot : Out St :=
  let (s, w) := make ⟨⟨fun _ => none, none, 0⟩, fun _ => .value, [], 0⟩ .scope false true
  let (s, v) := make { s with ctxs := [w] } .value false true
  addProp s false w (nNil + 1) v

end Verif.Model.Temp
