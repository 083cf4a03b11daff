/-!
# Specifications for the interpreter core

Nothing here refers to the model: variable scopes as a stack of partial functions, loops as relations
between states, and dispatch as a search in a list of prototypes.
-/

namespace Verif.Spec

/-! ## Variable scopes (C13) -/

namespace Scope

/-- A stack of scopes, innermost first (the last one is the world), and whether an error is pending. -/
structure Stack where
  scopes : List (Nat → Option Nat)
  pending : Bool

/-- Operations on scopes: entering and leaving a block, declaring a local, assigning, reading, and
catching a pending error. -/
inductive Op where
  | enter
  | leave
  | declare (k v : Nat)
  | assign (k v : Nat)
  | read (k : Nat)
  | caught
  deriving DecidableEq

/-- Value in the innermost scope that declares the name. -/
def lookup : List (Nat → Option Nat) → Nat → Option Nat
  | [], _ => none
  | f :: fs, k => if (f k).isSome then f k else lookup fs k

/-- Replaces one binding. -/
def upd (f : Nat → Option Nat) (k v : Nat) : Nat → Option Nat := fun k' => if k' = k then some v else f k'

/-- Changes the binding in the innermost scope that declares the name. -/
def assignIn : List (Nat → Option Nat) → Nat → Nat → List (Nat → Option Nat)
  | [], _, _ => []
  | f :: fs, k, v => if (f k).isSome then upd f k v :: fs else f :: assignIn fs k v

/-- One operation; the answer is `none` where the language answers Nil because of an error. -/
def step (w : Stack) : Op → Stack × Option Nat
  | .enter => ({ w with scopes := (fun _ => none) :: w.scopes }, none)
  | .leave =>
    match w.scopes with
    | _ :: f :: fs => ({ w with scopes := f :: fs }, none)
    | _ => (w, none)
  | .caught => ({ w with pending := false }, none)
  | .declare k v =>
    if w.pending then (w, none)
    else
      match w.scopes with
      | f :: fs => ({ w with scopes := upd f k v :: fs }, some v)
      | [] => (w, some v)
  | .assign k v =>
    if w.pending then (w, none)
    else if (lookup w.scopes k).isSome then ({ w with scopes := assignIn w.scopes k v }, some v)
    else ({ w with pending := true }, some v)
  | .read k =>
    if w.pending then (w, none)
    else if (lookup w.scopes k).isSome then (w, lookup w.scopes k)
    else ({ w with pending := true }, none)

/-- A sequence of operations, with the answers. -/
def run (w : Stack) : List Op → Stack × List (Option Nat)
  | [] => (w, [])
  | o :: os =>
    let (w, a) := step w o
    let (w, as) := run w os
    (w, a :: as)

/-- At most `d` scopes are open at any time. -/
def Shallow (d : Nat) (w : Stack) : List Op → Prop
  | [] => True
  | .enter :: os => w.scopes.length < d ∧ Shallow d (step w .enter).1 os
  | o :: os => Shallow d (step w o).1 os

instance instDecidableShallow : (d : Nat) → (w : Stack) → (os : List Op) → Decidable (Shallow d w os)
  | _, _, [] => inferInstanceAs (Decidable True)
  | d, w, .enter :: os =>
    have : Decidable (Shallow d (step w .enter).1 os) := instDecidableShallow d _ os
    inferInstanceAs (Decidable (_ ∧ _))
  | d, w, .leave :: os => instDecidableShallow d (step w .leave).1 os
  | d, w, .caught :: os => instDecidableShallow d (step w .caught).1 os
  | d, w, .declare k v :: os => instDecidableShallow d (step w (.declare k v)).1 os
  | d, w, .assign k v :: os => instDecidableShallow d (step w (.assign k v)).1 os
  | d, w, .read k :: os => instDecidableShallow d (step w (.read k)).1 os

end Scope

/-! ## Loops (C36) -/

namespace Loop

/-- How a round of a loop ends. -/
inductive Sig (ε : Type) where
  | normal
  | brk
  | cont
  | stop (e : ε)

/-- `Rounds body i n s s' out`: up to `n` rounds numbered from `i` on lead from `s` to `s'`; `out` is
what goes on to the surroundings: an error, or nothing. -/
inductive Rounds {σ ε : Type} (body : Nat → σ → σ → Sig ε → Prop) :
    Nat → Nat → σ → σ → Option ε → Prop where
  | done (i : Nat) (s : σ) : Rounds body i 0 s s none
  | normal {i n : Nat} {s s1 s' : σ} {out : Option ε} :
      body i s s1 .normal → Rounds body (i + 1) n s1 s' out → Rounds body i (n + 1) s s' out
  | cont {i n : Nat} {s s1 s' : σ} {out : Option ε} :
      body i s s1 .cont → Rounds body (i + 1) n s1 s' out → Rounds body i (n + 1) s s' out
  | brk {i n : Nat} {s s1 : σ} : body i s s1 .brk → Rounds body i (n + 1) s s1 none
  | stop {i n : Nat} {s s1 : σ} {e : ε} : body i s s1 (.stop e) → Rounds body i (n + 1) s s1 (some e)

/-- `While cond body s s' out`: a loop with a condition.  The condition answers a Boolean. -/
inductive While {σ ε : Type} (cond : σ → σ → Bool → Sig ε → Prop) (body : σ → σ → Sig ε → Prop) :
    σ → σ → Option ε → Prop where
  | false {s s1 : σ} : cond s s1 false .normal → While cond body s s1 none
  | condBrk {s s1 : σ} {b : Bool} : cond s s1 b .brk → While cond body s s1 none
  | condStop {s s1 : σ} {b : Bool} {e : ε} : cond s s1 b (.stop e) → While cond body s s1 (some e)
  | normal {s s1 s2 s' : σ} {out : Option ε} :
      cond s s1 true .normal → body s1 s2 .normal → While cond body s2 s' out → While cond body s s' out
  | cont {s s1 s2 s' : σ} {out : Option ε} :
      cond s s1 true .normal → body s1 s2 .cont → While cond body s2 s' out → While cond body s s' out
  | brk {s s1 s2 : σ} : cond s s1 true .normal → body s1 s2 .brk → While cond body s s2 none
  | stop {s s1 s2 : σ} {e : ε} :
      cond s s1 true .normal → body s1 s2 (.stop e) → While cond body s s2 (some e)

/-- `Each items body i s s' out`: one round for every item from index `i` on, as long as there is an
item; `items` may depend on the state. -/
inductive Each {σ α ε : Type} (items : σ → List α) (body : Nat → α → σ → σ → Sig ε → Prop) :
    Nat → σ → σ → Option ε → Prop where
  | done {i : Nat} {s : σ} : (items s)[i]? = none → Each items body i s s none
  | normal {i : Nat} {s s1 s' : σ} {x : α} {out : Option ε} : (items s)[i]? = some x →
      body (i + 1) x s s1 .normal → Each items body (i + 1) s1 s' out → Each items body i s s' out
  | cont {i : Nat} {s s1 s' : σ} {x : α} {out : Option ε} : (items s)[i]? = some x →
      body (i + 1) x s s1 .cont → Each items body (i + 1) s1 s' out → Each items body i s s' out
  | brk {i : Nat} {s s1 : σ} {x : α} : (items s)[i]? = some x →
      body (i + 1) x s s1 .brk → Each items body i s s1 none
  | stop {i : Nat} {s s1 : σ} {x : α} {e : ε} : (items s)[i]? = some x →
      body (i + 1) x s s1 (.stop e) → Each items body i s s1 (some e)

end Loop

/-! ## Dispatch (C37) -/

namespace Dispatch

/-- `Protos link o l`: `l` lists `o`, its prototype, the prototype of that, and so on to the end. -/
inductive Protos (link : Nat → Option Nat) : Nat → List Nat → Prop where
  | last {o : Nat} : link o = none → Protos link o [o]
  | more {o p : Nat} {l : List Nat} : link o = some p → Protos link p l → Protos link o (o :: l)

/-- The method that answers a message: that of the first object with a method for it that may run. -/
def pick (method : Nat → Option Nat) (mayRun : Nat → Bool) : List Nat → Option Nat
  | [] => none
  | o :: l =>
    match method o with
    | some f => if mayRun f then some f else pick method mayRun l
    | none => pick method mayRun l

end Dispatch

end Verif.Spec
