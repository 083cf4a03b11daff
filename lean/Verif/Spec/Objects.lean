import Verif.Spec.Program

/-!
# Specification of programs with objects, sequences, texts and errors

What programs mean that make objects with variables and methods of their own, objects from objects, sequences and texts, and that
raise and catch errors. A reference interpreter over plain values, a stack of scopes and a list of things (blocks, objects,
sequences), each known by its number; it knows nothing of addresses, prototypes, hidden properties or a pending error. The meaning
is undefined (`none`) where a number leaves the range of exact whole numbers, and for the rest of the language.
-/

namespace Verif.Spec.Objects
open Verif.Spec (Node)
open Verif.Spec.Program (literal selector few fewMsgs fewArgs fewStmts)

/-- Words of the language. -/
structure Words extends Spec.Program.Words where
  over : List UInt8
  slash : List UInt8
  new : List UInt8
  onDo : List UInt8
  recursive : List UInt8
  error : List UInt8
  except : List UInt8
  newWith : List UInt8
  append : List UInt8
  semicolon : List UInt8
  count : List UInt8
  position : List UInt8
  each : List UInt8
  object : List UInt8
  sequence : List UInt8
  nothing : List UInt8

/-- Values: a thing is known by its number. -/
inductive V where
  | num (z : Int)
  | bool (b : Bool)
  | text (t : List UInt8)
  | nothing
  | ref (i : Nat)
  /-- `Object` -/
  | root
  /-- `Sequence` -/
  | list
  | other

/-- Named values. -/
abbrev Frame := List UInt8 → Option V

/-- Things. -/
inductive Ob where
  /-- a block with the block for its errors; `bound` tells whether it is a method -/
  | block (params : List (List UInt8)) (body : List Node) (handler : Option Nat) (bound : Bool)
  /-- an object, made from `Object` or from another object, with its own variables and methods -/
  | obj (parent : Option Nat) (own : Frame) (methods : List UInt8 → Option Nat)
  /-- a sequence -/
  | seq (l : List V)

/-- The state: scopes (innermost first), things, methods that are being executed (latest first), and the object that may use them
again. -/
structure State where
  frames : List Frame
  store : List Ob
  running : List Nat
  again : Option Nat

/-- The ways of leaving early: Break, Continue, an error with a text (`none`: some text of the interpreter). -/
inductive Sig where
  | brk
  | cont
  | err (t : Option (List UInt8))

/-- Steps of a program. -/
abbrev M (α : Type) := State → Option (Except Sig α × State)

/-- A result without any effect. -/
def M.ret (a : α) : M α := fun st => some (.ok a, st)

/-- One step after the other; leaving early skips the second one. -/
def M.andThen (m : M α) (f : α → M β) : M β := fun st =>
  match m st with
  | none => none
  | some (.error g, st) => some (.error g, st)
  | some (.ok a, st) => f a st

/-- A result that may be undefined. -/
def M.lift (a : Option α) : M α := fun st =>
  match a with
  | none => none
  | some a => some (.ok a, st)

/-- An error of the interpreter. -/
def M.fail : M α := fun st => some (.error (.err none), st)

/-! ### Variables -/

/-- Replaces one binding. -/
def upd (f : List UInt8 → Option α) (k : List UInt8) (v : α) : List UInt8 → Option α := fun k' => if k' = k then some v else f k'

/-- The value in the innermost scope that has the name. -/
def lookup : List Frame → List UInt8 → Option V
  | [], _ => none
  | f :: fs, k =>
    match f k with
    | some v => some v
    | none => lookup fs k

/-- Changes the variable in the innermost scope that has it. -/
def assign : List Frame → List UInt8 → V → Option (List Frame)
  | [], _, _ => none
  | f :: fs, k, v =>
    match f k with
    | some _ => some (upd f k v :: fs)
    | none => (assign fs k v).map (f :: ·)

/-- Makes a variable in the innermost scope. -/
def declare : List Frame → List UInt8 → V → Option (List Frame)
  | [], _, _ => none
  | f :: fs, k, v => some (upd f k v :: fs)

/-- What is done with a variable of a name: an unknown name is an error. -/
def fetch (k : List UInt8) : M V := fun st =>
  match lookup st.frames k with
  | some v => M.ret v st
  | none => M.fail st

/-- Assignment: an unknown name is an error. -/
def store (k : List UInt8) (v : V) : M V := fun st =>
  match assign st.frames k v with
  | some fs => M.ret v { st with frames := fs }
  | none => M.fail st

/-- Declaration. -/
def make (k : List UInt8) (v : V) : M V := fun st =>
  match declare st.frames k v with
  | some fs => M.ret v { st with frames := fs }
  | none => none

/-- The object that executes the method, with its own variables; outside of any method that is an error, and inside of a block
without a method it is undefined here. -/
def me (W : Words) (f : Nat → Option Nat → Frame → (List UInt8 → Option Nat) → M V) : M V := fun st =>
  match lookup st.frames W.me with
  | none => M.fail st
  | some (.ref i) =>
    match st.store[i]? with
    | some (.obj p own ms) => f i p own ms st
    | _ => none
  | some _ => none

/-- Own variable. -/
def ownVariable (W : Words) (k : List UInt8) : M V :=
  me W fun _ _ own _ =>
    match own k with
    | some v => M.ret v
    | none => M.fail

/-- Assignment to an own variable. -/
def ownStore (W : Words) (k : List UInt8) (v : V) : M V :=
  me W fun i p own ms st => M.ret v { st with store := st.store.set i (.obj p (upd own k v) ms) }

/-! ### Messages -/

/-- Whole numbers that are exact. -/
def small (z : Int) : Option V := if z.natAbs ≤ 2 ^ 53 then some (.num z) else none

/-- Messages to a number; a division by zero is an error. -/
def number (W : Words) (a : Int) (sel : List UInt8) : List V → Option (Except Sig V)
  | [.num b] =>
    if sel = W.plus then (small (a + b)).map .ok
    else if sel = W.minus then (small (a - b)).map .ok
    else if sel = W.times ∨ sel = W.star then (small (a * b)).map .ok
    else if sel = W.less then some (.ok (.bool (decide (a < b))))
    else if sel = W.greater then some (.ok (.bool (decide (b < a))))
    else if sel = W.atMost then some (.ok (.bool (decide (a ≤ b))))
    else if sel = W.atLeast then some (.ok (.bool (decide (b ≤ a))))
    else if sel = W.equal then some (.ok (.bool (decide (a = b))))
    else if sel = W.unequal then some (.ok (.bool (decide (a ≠ b))))
    else if sel = W.modulo then some (if b = 0 then .error (.err none) else .ok (.num (a.tmod b)))
    else if sel = W.over ∨ sel = W.slash then
      if b = 0 then some (.error (.err none))
      else if a % b = 0 then (small (a / b)).map .ok
      else none
    else none
  | [] => if sel = W.absolute then some (.ok (.num a.natAbs)) else none
  | _ => none

/-- Messages to a truth value, other than those that concern the order of execution. -/
def boolean (W : Words) (a : Bool) (sel : List UInt8) : List V → Option V
  | [.bool b] =>
    if sel = W.and then some (.bool (a && b))
    else if sel = W.or then some (.bool (a || b))
    else if sel = W.equal then some (.bool (a == b))
    else if sel = W.unequal then some (.bool (a != b))
    else none
  | [] => if sel = W.not then some (.bool (!a)) else none
  | _ => none

/-- Messages to a text; texts with NUL bytes cannot be compared. -/
def letters (W : Words) (t : List UInt8) (sel : List UInt8) : List V → Option V
  | [.text u] =>
    if sel = W.plus then some (.text (t ++ u))
    else if sel = W.equal ∧ 0 ∉ t ∧ 0 ∉ u then some (.bool (decide (t = u)))
    else none
  | _ => none

/-- What is done again and again. -/
inductive Task where
  /-- an expression -/
  | expr (e : Node)
  /-- block number `b` with arguments; `me` is what it stands for in there, if anything -/
  | call (b : Nat) (args : List V) (me : Option V)
  /-- block `b` as long as block `c` answers True -/
  | loop (b c : Nat)
  /-- block `b` for each element of sequence `q` from number `i` on, the first one is 0 -/
  | each (q b i : Nat)

/-- The number of the thing is that of a block. -/
def isBlock (st : State) (b : Nat) : Bool :=
  match st.store[b]? with
  | some (.block ..) => true
  | _ => false

/-- Rounds of a loop: `left` are left, `done` are done. -/
def rounds (ev : Task → M V) (b : Nat) : (left done : Nat) → M Unit
  | 0, _ => M.ret ()
  | left + 1, done => fun st =>
    match ev (.call b [.num (done + 1 : Nat)] none) st with
    | none => none
    | some (.error .brk, st) => some (.ok (), st)
    | some (.error (.err t), st) => some (.error (.err t), st)
    | some (_, st) => rounds ev b left (done + 1) st

/-- The block runs, then the answer is `v`. -/
def branch (ev : Task → M V) (b : Nat) (v : V) : M V := fun st =>
  if isBlock st b then ((ev (.call b [v] none)).andThen fun _ => M.ret v) st else none

/-- A call: the program may leave it early by an error only. -/
def call (ev : Task → M V) (b : Nat) (as : List V) : M V := fun st =>
  match ev (.call b as (some (.ref b))) st with
  | some (.ok v, st) => some (.ok v, st)
  | some (.error (.err t), st) => some (.error (.err t), st)
  | _ => none

/-- A new thing. -/
def add (ob : Ob) : M V := fun st => some (.ok (.ref st.store.length), { st with store := st.store ++ [ob] })

/-- Another block for the errors of a block. -/
def catching (b h : Nat) : M V := fun st =>
  match st.store[b]? with
  | some (.block ps c _ bound) =>
    if isBlock st h then some (.ok (.ref b), { st with store := st.store.set b (.block ps c (some h) bound) }) else none
  | _ => none

/-- Messages to a block: `start`, `apply`, as many rounds as a number says, `while`, `error` and `except`. -/
def block (W : Words) (ev : Task → M V) (b : Nat) (sel : List UInt8) (as : List V) : M V :=
  if sel = W.start ∧ as.length = 0 ∨ sel = W.apply ∧ as.length = 1 ∨ sel = W.applyAnd ∧ as.length = 2 then call ev b as
  else match as with
  | [.num n] =>
    if (sel = W.times ∨ sel = W.star) ∧ -2147483648 ≤ n ∧ n ≤ 2147483647 then
      (rounds ev b n.toNat 0).andThen fun _ => M.ret (.ref b)
    else fun _ => none
  | [.ref c] =>
    if sel = W.whileTrue then fun st => if isBlock st c then ev (.loop b c) st else none
    else if sel = W.except then catching b c
    else fun _ => none
  | [.text t] => if sel = W.error then fun st => some (.error (.err (some t)), st) else fun _ => none
  | _ => fun _ => none

/-- The method an object has for a message: its own one, or that of the object it was made from, and so on. Methods that are being
executed are skipped, unless the object may use them again. `some none` is no method; a chain of more than `n` objects is
undefined. -/
def method (st : State) (r : Nat) (sel : List UInt8) : (n i : Nat) → Option (Option (Nat × Option Nat))
  | 0, _ => none
  | n + 1, i =>
    match st.store[i]? with
    | some (.obj p _ ms) =>
      let above := match p with
        | some q => method st r sel n q
        | none => some none
      match ms sel with
      | none => above
      | some f =>
        if f ∈ st.running then
          if st.again = some r then some (some (f, none)) else above
        else some (some (f, st.again))
    | _ => none

/-- A method runs, at most 300 at a time. -/
def run (ev : Task → M V) (i f : Nat) (again : Option Nat) (as : List V) : M V := fun st =>
  match st.store[f]? with
  | some (.block _ _ _ true) =>
    if st.running.length < 300 then
      match ev (.call f as (some (.ref i))) { st with again := again, running := f :: st.running } with
      | some (r, st) => some (r, { st with running := st.running.tail })
      | none => none
    else none
  | _ => none

/-- Another method of an object. -/
def learn (i : Nat) (k : List UInt8) (b : Nat) : M V := fun st =>
  match st.store[b]?, st.store[i]? with
  | some (.block ps c h _), some (.obj p own ms) =>
    some (.ok (.ref i), { st with store := (st.store.set b (.block ps c h true)).set i (.obj p own (upd ms k b)) })
  | _, _ => none

/-- What any object can do: make another object, learn a method, and use a method that is being executed. -/
def plainObject (W : Words) (i : Nat) (sel : List UInt8) : List V → M V
  | [] =>
    if sel = W.new then add (.obj (some i) (fun _ => none) fun _ => none)
    else if sel = W.recursive then fun st => some (.ok (.ref i), { st with again := some i })
    else fun _ => none
  | [.text k, .ref b] => if sel = W.onDo then learn i k b else fun _ => none
  | _ => fun _ => none

/-- Messages to an object. -/
def object (W : Words) (ev : Task → M V) (i : Nat) (sel : List UInt8) (as : List V) : M V := fun st =>
  match method st i sel st.store.length i with
  | none => none
  | some (some (f, again)) => run ev i f again as st
  | some none => plainObject W i sel as st

/-- Messages to a sequence. -/
def sequence (W : Words) (ev : Task → M V) (q : Nat) (l : List V) (sel : List UInt8) (as : List V) : M V := fun st =>
  if (sel = W.append ∨ sel = W.semicolon) ∧ as.length = 1 then
    some (.ok (.ref q), { st with store := st.store.set q (.seq (l ++ as)) })
  else match as with
  | [] => if sel = W.count ∧ l.length ≤ 2 ^ 53 then some (.ok (.num l.length), st) else none
  | [.num n] =>
    if sel = W.position ∧ -2147483648 < n ∧ n ≤ 2147483647 then
      some (.ok (if 1 ≤ n then (l[(n - 1).toNat]?).getD .nothing else .nothing), st)
    else none
  | [.ref b] => if sel = W.each ∧ isBlock st b then ev (.each q b 0) st else none
  | _ => none

/-- A message to a value. -/
def send (W : Words) (ev : Task → M V) (v : V) (sel : List UInt8) (as : List V) : M V := fun st =>
  match v with
  | .num a =>
    match number W a sel as with
    | none => none
    | some r => some (r, st)
  | .bool a =>
    match as with
    | [.ref b] =>
      if sel = W.ifTrue then (if a then branch ev b (.bool a) st else M.ret (.bool a) st)
      else if sel = W.ifFalse ∨ sel = W.otherwise then (if a then M.ret (.bool a) st else branch ev b (.bool a) st)
      else none
    | [] =>
      if sel = W.stop then some (if a then .error .brk else .ok (.bool a), st)
      else if sel = W.next then some (if a then .error .cont else .ok (.bool a), st)
      else M.lift (boolean W a sel []) st
    | as => M.lift (boolean W a sel as) st
  | .text t => M.lift (letters W t sel as) st
  | .ref i =>
    match st.store[i]? with
    | some (.block ..) => block W ev i sel as st
    | some (.obj ..) => object W ev i sel as st
    | some (.seq l) => sequence W ev i l sel as st
    | none => none
  | .root => if sel = W.new ∧ as.length = 0 then add (.obj none (fun _ => none) fun _ => none) st else none
  | .list =>
    if sel = W.new ∧ as.length = 0 ∨ sel = W.newWith ∧ as.length = 1 then add (.seq as) st
    else none
  | .nothing => none
  | .other => none

/-- Arguments, from left to right. -/
def args (ev : Task → M V) : List Node → M (List V)
  | [] => M.ret []
  | e :: es => (ev (.expr e)).andThen fun v => (args ev es).andThen fun vs => M.ret (v :: vs)

/-- Messages one after the other, each to the answer of the one before. -/
def chain (W : Words) (ev : Task → M V) (v : V) : List Node → M V
  | [] => M.ret v
  | .una n :: ms => (send W ev v n []).andThen fun v => chain W ev v ms
  | .bin o a :: ms => (args ev [a]).andThen fun as => (send W ev v o as).andThen fun v => chain W ev v ms
  | .kw ps as :: ms =>
    (args ev as).andThen fun as => (send W ev v (selector W.toWords ps) as).andThen fun v => chain W ev v ms
  | _ :: _ => fun _ => none

/-- An expression. -/
def expr (W : Words) (ev : Task → M V) : Node → M V
  | .num t => M.lift ((literal t).map .num)
  | .str t => M.ret (.text t)
  | .ref 0 n => fetch n
  | .ref 1 n => ownVariable W n
  | .block ps b => add (.block ps b none false)
  | .nested e => ev (.expr e)
  | .msg r ms => (ev (.expr r)).andThen fun v => chain W ev v ms
  | .assign (.ref 2 n) e => (ev (.expr e)).andThen (make n)
  | .assign (.ref 1 n) e => (ev (.expr e)).andThen (ownStore W n)
  | .assign (.ref 0 n) e => (ev (.expr e)).andThen (store n)
  | _ => fun _ => none

/-- Statements, up to a return; the result is what is returned. -/
def stmts (ev : Task → M V) : List Node → M (Option V)
  | [] => M.ret none
  | .ret e :: _ => (ev (.expr e)).andThen fun v => M.ret (some v)
  | e :: es => (ev (.expr e)).andThen fun _ => stmts ev es

/-- The variables of a block at its start: its parameters, then what it stands for, and itself. -/
def entry (W : Words) (ps : List (List UInt8)) (b : Nat) (as : List V) (me : Option V) : Frame :=
  let f := (ps.zip as).foldl (fun f p => upd f p.1 p.2) (fun _ => none)
  let f := match me with
    | some m => upd (upd f W.me m) W.my m
    | none => f
  upd f W.task (.ref b)

/-- What a block for errors is told. -/
def told : Option (List UInt8) → V
  | some t => .text t
  | none => .other

/-- The error goes to the block for errors, if there is one, with its text; the answer then is the block itself. -/
def rescue (ev : Task → M V) (b : Nat) (t : Option (List UInt8)) : M V := fun st =>
  match st.store[b]? with
  | some (.block _ _ (some h) _) =>
    ((ev (.call h [told t] none)).andThen fun _ => M.ret (.ref b)) st
  | some (.block _ _ none _) => some (.error (.err t), st)
  | _ => none

/-- A block runs in a scope of its own, at most 299 deep; its answer is what is returned, or what it stands for. -/
def enter (W : Words) (ev : Task → M V) (b : Nat) (as : List V) (me : Option V) : M V := fun st =>
  match st.store[b]? with
  | some (.block ps c _ _) =>
    if st.frames.length < 300 ∧ ps.length ≤ as.length ∧ fewStmts c = true then
      match stmts ev c { st with frames := entry W ps b as me :: st.frames } with
      | none => none
      | some (r, st) =>
        match st.frames with
        | _ :: f :: fs =>
          let st := { st with frames := f :: fs }
          match r with
          | .ok v => some (.ok (v.getD (me.getD (.ref b))), st)
          | .error (.err t) => rescue ev b t st
          | .error g => some (.error g, st)
        | _ => none
    else none
  | _ => none

/-- The loop: the condition, then the body, then again. An error in the condition is an error, but the text may
be another one. -/
def loop (ev : Task → M V) (b c : Nat) : M V := fun st =>
  match ev (.call c [] none) st with
  | some (.ok (.bool false), st) => some (.ok (.ref b), st)
  | some (.ok (.bool true), st) =>
    match ev (.call b [] none) st with
    | none => none
    | some (.error .brk, st) => some (.ok (.ref b), st)
    | some (.error (.err t), st) => some (.error (.err t), st)
    | some (_, st) => ev (.loop b c) st
  | some (.error (.err _), st) => some (.error (.err none), st)
  | _ => none

/-- The block for each element, with its position, the element and the sequence. -/
def each (ev : Task → M V) (q b i : Nat) : M V := fun st =>
  match st.store[q]? with
  | some (.seq l) =>
    match l[i]? with
    | none => some (.ok (.ref q), st)
    | some v =>
      match ev (.call b [.num (i + 1 : Nat), v, .ref q] none) st with
      | none => none
      | some (.error .brk, st) => some (.ok (.ref q), st)
      | some (.error (.err t), st) => some (.error (.err t), st)
      | some (_, st) => ev (.each q b (i + 1)) st
  | _ => none

/-- The reference interpreter with at most so many nested steps. -/
def exec (W : Words) : Nat → Task → M V
  | 0, _ => fun _ => none
  | n + 1, .expr e => expr W (exec W n) e
  | n + 1, .call b as me => enter W (exec W n) b as me
  | n + 1, .loop b c => loop (exec W n) b c
  | n + 1, .each q b i => each (exec W n) q b i

/-- What the words mean at the start. -/
def globals (W : Words) : Frame := fun k =>
  if k = W.yes then some (.bool true)
  else if k = W.no then some (.bool false)
  else if k = W.object then some .root
  else if k = W.sequence then some .list
  else if k = W.nothing then some .nothing
  else if k ∈ W.others then some .other
  else none

/-- The start. -/
def start (W : Words) : State := ⟨[globals W], [], [], none⟩

/-- The program ends, with this result and these variables and things. -/
def Ends (W : Words) (es : List Node) (r : Except Sig Unit) (f : Frame) (l : List Ob) : Prop :=
  ∃ n x st, stmts (exec W n) es (start W) = some (x, st) ∧ x.map (fun _ => ()) = r ∧ st.frames = [f] ∧ st.store = l

/-- The words of the English dictionary, `i18n/en/dictionary.h`; of the other words with a meaning these are `Boolean`, `Number`,
`Text` and `Task`. -/
def english : Words where
  toWords := { Spec.Program.english with
    others := [[66, 111, 111, 108, 101, 97, 110], [78, 117, 109, 98, 101, 114], [84, 101, 120, 116], [84, 97, 115, 107]] }
  over := [195, 183]
  slash := [47]
  new := [110, 101, 119]
  onDo := [111, 110, 58, 100, 111, 58]
  recursive := [114, 101, 99, 117, 114, 115, 105, 118, 101]
  error := [101, 114, 114, 111, 114, 58]
  except := [101, 120, 99, 101, 112, 116, 58]
  newWith := [226, 134, 144]
  append := [97, 112, 112, 101, 110, 100, 58]
  semicolon := [59]
  count := [99, 111, 117, 110, 116]
  position := [112, 111, 115, 105, 116, 105, 111, 110, 58]
  each := [101, 97, 99, 104, 58]
  object := [79, 98, 106, 101, 99, 116]
  sequence := [83, 101, 113, 117, 101, 110, 99, 101]
  nothing := [78, 111, 110, 101]

end Verif.Spec.Objects
