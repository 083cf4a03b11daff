import Verif.Spec.Ast
import Verif.Spec.Float

/-!
# Specification of simple programs

What programs with whole numbers, truth values and blocks mean: calculations, comparisons, variables, conditionals, loops with
Break and Continue, and blocks used as functions. A reference interpreter over plain values and a stack of scopes; it knows
nothing of objects, prototypes or a heap. The meaning is undefined (`none`) where the program would end in an error, where a
number leaves the range of exact whole numbers, and for the rest of the language.
-/

namespace Verif.Spec.Program
open Verif.Spec (Node)

/-- Words of the language. -/
structure Words where
  plus : List UInt8
  minus : List UInt8
  times : List UInt8
  star : List UInt8
  less : List UInt8
  greater : List UInt8
  atMost : List UInt8
  atLeast : List UInt8
  equal : List UInt8
  unequal : List UInt8
  modulo : List UInt8
  absolute : List UInt8
  ifTrue : List UInt8
  ifFalse : List UInt8
  otherwise : List UInt8
  stop : List UInt8
  next : List UInt8
  not : List UInt8
  and : List UInt8
  or : List UInt8
  start : List UInt8
  apply : List UInt8
  applyAnd : List UInt8
  whileTrue : List UInt8
  me : List UInt8
  my : List UInt8
  task : List UInt8
  yes : List UInt8
  no : List UInt8
  /-- other words with a meaning from the start -/
  others : List (List UInt8)
  /-- the sign after each part of a keyword message -/
  sign : UInt8

/-- Values: a block is its text, it remembers no variables. -/
inductive V where
  | num (z : Int)
  | bool (b : Bool)
  | code (params : List (List UInt8)) (body : List Node)
  | other

/-- The variables of one scope. -/
abbrev Frame := List UInt8 → Option V

/-- The two ways of leaving a round of a loop early. -/
inductive Sig where
  | brk
  | cont
  deriving DecidableEq

/-- Steps of a program: they start with a stack of scopes, innermost first, and end with a stack of scopes and a result, or
early. -/
abbrev M (α : Type) := List Frame → Option (Except Sig α × List Frame)

/-- A result without any effect. -/
def M.ret (a : α) : M α := fun fs => some (.ok a, fs)

/-- One step after the other; leaving early skips the second one. -/
def M.andThen (m : M α) (f : α → M β) : M β := fun fs =>
  match m fs with
  | none => none
  | some (.error g, fs) => some (.error g, fs)
  | some (.ok a, fs) => f a fs

/-- A result that may be undefined. -/
def M.lift (a : Option α) : M α := fun fs =>
  match a with
  | none => none
  | some a => some (.ok a, fs)

/-! ### Variables -/

/-- Replaces one binding. -/
def upd (f : Frame) (k : List UInt8) (v : V) : Frame := fun k' => if k' = k then some v else f k'

/-- The value in the innermost scope that has the name. -/
def lookup : List Frame → List UInt8 → Option V
  | [], _ => none
  | f :: fs, k =>
    match f k with
    | some v => some v
    | none => lookup fs k

/-- Changes the variable in the innermost scope that has it. -/
def assign : List Frame → List UInt8 → V → Option (List Frame)
  | [], _, _ => none
  | f :: fs, k, v =>
    match f k with
    | some _ => some (upd f k v :: fs)
    | none => (assign fs k v).map (f :: ·)

/-- Makes a variable in the innermost scope. -/
def declare : List Frame → List UInt8 → V → Option (List Frame)
  | [], _, _ => none
  | f :: fs, k, v => some (upd f k v :: fs)

/-! ### Messages -/

/-- Whole numbers that are exact. -/
def small (z : Int) : Option V := if z.natAbs ≤ 2 ^ 53 then some (.num z) else none

/-- Messages to a number. -/
def number (W : Words) (a : Int) (sel : List UInt8) : List V → Option V
  | [.num b] =>
    if sel = W.plus then small (a + b)
    else if sel = W.minus then small (a - b)
    else if sel = W.times ∨ sel = W.star then small (a * b)
    else if sel = W.less then some (.bool (decide (a < b)))
    else if sel = W.greater then some (.bool (decide (b < a)))
    else if sel = W.atMost then some (.bool (decide (a ≤ b)))
    else if sel = W.atLeast then some (.bool (decide (b ≤ a)))
    else if sel = W.equal then some (.bool (decide (a = b)))
    else if sel = W.unequal then some (.bool (decide (a ≠ b)))
    else if sel = W.modulo ∧ b ≠ 0 then some (.num (a.tmod b))
    else none
  | [] => if sel = W.absolute then some (.num a.natAbs) else none
  | _ => none

/-- Messages to a truth value, other than those that concern the order of execution. -/
def boolean (W : Words) (a : Bool) (sel : List UInt8) : List V → Option V
  | [.bool b] =>
    if sel = W.and then some (.bool (a && b))
    else if sel = W.or then some (.bool (a || b))
    else if sel = W.equal then some (.bool (a == b))
    else if sel = W.unequal then some (.bool (a != b))
    else none
  | [] => if sel = W.not then some (.bool (!a)) else none
  | _ => none

/-- What is done again and again. -/
inductive Task where
  /-- an expression -/
  | expr (e : Node)
  /-- a block with arguments; `me` tells whether it stands for itself in there -/
  | call (params : List (List UInt8)) (body : List Node) (args : List V) (me : Bool)
  /-- `body` as long as `cond` answers True -/
  | loop (body cond : List Node)

/-- Rounds of a loop: `left` are left, `done` are done. -/
def rounds (ev : Task → M V) (ps : List (List UInt8)) (b : List Node) : (left done : Nat) → M Unit
  | 0, _ => M.ret ()
  | left + 1, done => fun fs =>
    match ev (.call ps b [.num (done + 1 : Nat)] false) fs with
    | none => none
    | some (.error .brk, fs) => some (.ok (), fs)
    | some (_, fs) => rounds ev ps b left (done + 1) fs

/-- The block runs, then the answer is `v`. -/
def branch (ev : Task → M V) (ps : List (List UInt8)) (b : List Node) (v : V) : M V :=
  (ev (.call ps b [v] false)).andThen fun _ => M.ret v

/-- A call: the program may not leave it early. -/
def call (ev : Task → M V) (ps : List (List UInt8)) (b : List Node) (as : List V) : M V := fun fs =>
  match ev (.call ps b as true) fs with
  | some (.ok v, fs) => some (.ok v, fs)
  | _ => none

/-- Messages to a block: `start`, `apply`, as many rounds as a number says, and `while`. -/
def block (W : Words) (ev : Task → M V) (ps : List (List UInt8)) (b : List Node) (sel : List UInt8) (as : List V) : M V :=
  match as with
  | [] => if sel = W.start then call ev ps b [] else fun _ => none
  | [.num n] =>
    if sel = W.apply then call ev ps b [.num n]
    else if (sel = W.times ∨ sel = W.star) ∧ -2147483648 ≤ n ∧ n ≤ 2147483647 then
      (rounds ev ps b n.toNat 0).andThen fun _ => M.ret (.code ps b)
    else fun _ => none
  | [.code qs c] =>
    if sel = W.apply then call ev ps b [.code qs c]
    else if sel = W.whileTrue ∧ ps = [] ∧ qs = [] then ev (.loop b c)
    else fun _ => none
  | [v] => if sel = W.apply then call ev ps b [v] else fun _ => none
  | [v, w] => if sel = W.applyAnd then call ev ps b [v, w] else fun _ => none
  | _ => fun _ => none

/-- A message to a value. -/
def send (W : Words) (ev : Task → M V) (v : V) (sel : List UInt8) (as : List V) : M V :=
  match v with
  | .num a => M.lift (number W a sel as)
  | .bool a =>
    match as with
    | [.code ps b] =>
      if sel = W.ifTrue then (if a then branch ev ps b (.bool a) else M.ret (.bool a))
      else if sel = W.ifFalse ∨ sel = W.otherwise then (if a then M.ret (.bool a) else branch ev ps b (.bool a))
      else fun _ => none
    | [] =>
      if sel = W.stop then fun fs => some (if a then .error .brk else .ok (.bool a), fs)
      else if sel = W.next then fun fs => some (if a then .error .cont else .ok (.bool a), fs)
      else M.lift (boolean W a sel [])
    | as => M.lift (boolean W a sel as)
  | .code ps b => block W ev ps b sel as
  | .other => fun _ => none

/-- Arguments, from left to right. -/
def args (ev : Task → M V) : List Node → M (List V)
  | [] => M.ret []
  | e :: es => (ev (.expr e)).andThen fun v => (args ev es).andThen fun vs => M.ret (v :: vs)

/-- The name of a keyword message. -/
def selector (W : Words) (parts : List (List UInt8)) : List UInt8 := parts.flatMap (· ++ [W.sign])

/-- Messages one after the other, each to the answer of the one before. -/
def chain (W : Words) (ev : Task → M V) (v : V) : List Node → M V
  | [] => M.ret v
  | .una n :: ms => (send W ev v n []).andThen fun v => chain W ev v ms
  | .bin o a :: ms => (args ev [a]).andThen fun as => (send W ev v o as).andThen fun v => chain W ev v ms
  | .kw ps as :: ms => (args ev as).andThen fun as => (send W ev v (selector W ps) as).andThen fun v => chain W ev v ms
  | _ :: _ => fun _ => none

/-- Digits. -/
def isDigits (t : List UInt8) : Bool := !t.isEmpty && t.all fun c => decide (48 ≤ c) && decide (c ≤ 57)

/-- The whole number that is written, if it is exact; at most 40 bytes. -/
def literal (t : List UInt8) : Option Int :=
  if t.length ≤ 40 then
    if isDigits t ∧ Float.value t ≤ 2 ^ 53 then some (Float.value t)
    else if t.head? = some 45 ∧ isDigits t.tail ∧ Float.value t.tail ≤ 2 ^ 53 then some (-(Float.value t.tail : Int))
    else none
  else none

/-- An expression. -/
def expr (W : Words) (ev : Task → M V) : Node → M V
  | .num t => M.lift ((literal t).map .num)
  | .ref 0 n => fun fs => M.lift (lookup fs n) fs
  | .block ps b => M.ret (.code ps b)
  | .nested e => ev (.expr e)
  | .msg r ms => (ev (.expr r)).andThen fun v => chain W ev v ms
  | .assign (.ref 2 n) e => (ev (.expr e)).andThen fun v => fun fs => (declare fs n v).map fun fs => (.ok v, fs)
  | .assign (.ref 0 n) e => (ev (.expr e)).andThen fun v => fun fs => (assign fs n v).map fun fs => (.ok v, fs)
  | _ => fun _ => none

/-- Statements, up to a return; the result is what is returned. -/
def stmts (ev : Task → M V) : List Node → M (Option V)
  | [] => M.ret none
  | .ret e :: _ => (ev (.expr e)).andThen fun v => M.ret (some v)
  | e :: es => (ev (.expr e)).andThen fun _ => stmts ev es

/-! ### Blocks -/

/-- What can be sent a message. -/
def receiver : Node → Bool
  | .ref .. | .num _ | .str _ | .block .. | .nested _ => true
  | _ => false

mutual
/-- Messages are sent to names, literals, blocks and expressions in parentheses, and have at most 38 arguments. -/
def few : Node → Bool
  | .ref .. => true
  | .num _ => true
  | .str _ => true
  | .block .. => true
  | .nested e => few e
  | .assign r e => (match r with | .ref .. => true | _ => false) && few e
  | .msg r ms => receiver r && few r && fewMsgs ms
  | _ => false
/-- The same for messages. -/
def fewMsgs : List Node → Bool
  | [] => true
  | .una _ :: ms => fewMsgs ms
  | .bin _ a :: ms => few a && fewMsgs ms
  | .kw _ as :: ms => decide (as.length ≤ 38) && fewArgs as && fewMsgs ms
  | _ => false
/-- The same for arguments. -/
def fewArgs : List Node → Bool
  | [] => true
  | a :: as => few a && fewArgs as
end

/-- The same for statements. -/
def fewStmts : List Node → Bool
  | [] => true
  | .ret e :: es => few e && fewStmts es
  | e :: es => few e && fewStmts es

/-- The variables of a block at its start: its parameters, then what it is called itself. -/
def entry (W : Words) (ps : List (List UInt8)) (b : List Node) (as : List V) (me : Bool) : Frame :=
  let f := (ps.zip as).foldl (fun f p => upd f p.1 p.2) (fun _ => none)
  let f := if me then upd (upd f W.me (.code ps b)) W.my (.code ps b) else f
  upd f W.task (.code ps b)

/-- A block runs in a scope of its own, at most 299 deep; its answer is what is returned, or the block. -/
def enter (W : Words) (ev : Task → M V) (ps : List (List UInt8)) (b : List Node) (as : List V) (me : Bool) : M V := fun fs =>
  if fs.length < 300 ∧ ps.length ≤ as.length ∧ fewStmts b = true then
    match stmts ev b (entry W ps b as me :: fs) with
    | some (.ok r, _ :: f :: fs) => some (.ok (r.getD (.code ps b)), f :: fs)
    | some (.error g, _ :: f :: fs) => some (.error g, f :: fs)
    | _ => none
  else none

/-- The loop: the condition, then the body, then again. -/
def loop (ev : Task → M V) (b c : List Node) : M V := fun fs =>
  match ev (.call [] c [] false) fs with
  | some (.ok (.bool false), fs) => some (.ok (.code [] b), fs)
  | some (.ok (.bool true), fs) =>
    match ev (.call [] b [] false) fs with
    | none => none
    | some (.error .brk, fs) => some (.ok (.code [] b), fs)
    | some (_, fs) => ev (.loop b c) fs
  | _ => none

/-- The reference interpreter with at most so many nested steps. -/
def exec (W : Words) : Nat → Task → M V
  | 0, _ => fun _ => none
  | n + 1, .expr e => expr W (exec W n) e
  | n + 1, .call ps b as me => enter W (exec W n) ps b as me
  | n + 1, .loop b c => loop (exec W n) b c

/-- What the words mean at the start. -/
def globals (W : Words) : Frame := fun k =>
  if k = W.yes then some (.bool true)
  else if k = W.no then some (.bool false)
  else if k ∈ W.others then some .other
  else none

/-- The program ends, with these variables. -/
def Ends (W : Words) (es : List Node) (f : Frame) : Prop :=
  ∃ n r, stmts (exec W n) es [globals W] = some (.ok r, [f])

/-- The words of the English dictionary, `i18n/en/dictionary.h`; of the other words with a meaning these are `Object`, `None`,
`Boolean`, `Number`, `Text` and `Task`. -/
def english : Words where
  plus := [43]
  minus := [45]
  times := [195, 151]
  star := [42]
  less := [60]
  greater := [62]
  atMost := [226, 137, 164]
  atLeast := [226, 137, 165]
  equal := [61]
  unequal := [226, 137, 160]
  modulo := [109, 111, 100, 117, 108, 111, 58]
  absolute := [97, 98, 115, 111, 108, 117, 116, 101]
  ifTrue := [116, 114, 117, 101, 58]
  ifFalse := [102, 97, 108, 115, 101, 58]
  otherwise := [101, 108, 115, 101, 58]
  stop := [98, 114, 101, 97, 107]
  next := [99, 111, 110, 116, 105, 110, 117, 101]
  not := [110, 111, 116]
  and := [97, 110, 100, 58]
  or := [111, 114, 58]
  start := [115, 116, 97, 114, 116]
  apply := [97, 112, 112, 108, 121, 58]
  applyAnd := [97, 112, 112, 108, 121, 58, 97, 110, 100, 58]
  whileTrue := [119, 104, 105, 108, 101, 58]
  me := [115, 101, 108, 102]
  my := [111, 119, 110]
  task := [116, 104, 105, 115, 45, 116, 97, 115, 107]
  yes := [84, 114, 117, 101]
  no := [70, 97, 108, 115, 101]
  others := [[79, 98, 106, 101, 99, 116], [78, 111, 110, 101], [66, 111, 111, 108, 101, 97, 110], [78, 117, 109, 98, 101, 114], [84, 101, 120, 116], [84, 97, 115, 107]]
  sign := 58

end Verif.Spec.Program
