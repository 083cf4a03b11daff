/-!
Specification for garbage collection: reachability in a graph, independent of the model.
-/

namespace Verif.Spec.GC

/-- What can be reached from `roots` along `edge`. -/
inductive Reach (edge : Nat → Nat → Prop) (roots : List Nat) : Nat → Prop where
  | root {x : Nat} : x ∈ roots → Reach edge roots x
  | step {x y : Nat} : Reach edge roots x → edge x y → Reach edge roots y

/-!
## A program without a collector

The same operations on a graph from which nothing is ever removed: asking for a collection does nothing.
-/

/-- An object as the program sees it; `isName` marks texts that serve as names of properties. -/
structure Node where
  isArray : Bool
  isName : Bool
  elems : List Nat
  props : List (Nat × Nat)
  methods : List (Nat × Nat)
  deriving DecidableEq

/-- All objects ever made, open scopes (innermost first), number of objects made so far. -/
structure World where
  node : Nat → Option Node
  scopes : List Nat
  fresh : Nat

/-- What the program can follow from `x`: elements, names and values of properties and of methods. -/
def World.edge (w : World) (x y : Nat) : Prop :=
  ∃ n, w.node x = some n ∧
    (y ∈ n.elems ∨ (∃ k v, ((k, v) ∈ n.props ∨ (k, v) ∈ n.methods) ∧ (y = k ∨ y = v)))

/-- What the program can get hold of. -/
def World.Live (w : World) : Nat → Prop := Reach w.edge w.scopes

/-- What a program does. -/
inductive Op where
  /-- make an object (with the given prototype) and store it in `owner` under a fresh name -/
  | make (owner : Nat) (isArray : Bool) (proto : Option Nat)
  /-- set a property (or method, if `m`) of `x` -/
  | put (m : Bool) (x k v : Nat)
  /-- remove the `i`-th property (or method) of `x` -/
  | del (m : Bool) (x i : Nat)
  | push (x v : Nat)
  | shift (x : Nat)
  | pop (x : Nat)
  /-- open a scope -/
  | enter
  /-- close the innermost scope -/
  | leave
  | collect
  deriving DecidableEq

def World.set (w : World) (x : Nat) (f : Node → Node) : World :=
  { w with node := fun y => if y = x then (w.node x).map f else w.node y }

def addTo (m : Bool) (kv : Nat × Nat) (n : Node) : Node :=
  if m then { n with methods := kv :: n.methods } else { n with props := kv :: n.props }

def dropFrom (m : Bool) (i : Nat) (n : Node) : Node :=
  if m then { n with methods := n.methods.eraseIdx i } else { n with props := n.props.eraseIdx i }

def World.step (w : World) : Op → World
  | .make owner isArray _ =>
    let name : Node := ⟨false, true, [], [], []⟩
    let value : Node := ⟨isArray, false, [], [], []⟩
    let w' : World := { w with
      node := fun y => if y = w.fresh then some name else if y = w.fresh + 1 then some value else w.node y
      fresh := w.fresh + 2 }
    w'.set owner (addTo false (w.fresh, w.fresh + 1))
  | .put m x k v => w.set x (addTo m (k, v))
  | .del m x i => w.set x (dropFrom m i)
  | .push x v => w.set x fun n => { n with elems := n.elems ++ [v] }
  | .shift x => w.set x fun n => { n with elems := n.elems.tail }
  | .pop x => w.set x fun n => { n with elems := n.elems.dropLast }
  | .enter =>
    { w with
      node := fun y => if y = w.fresh then some ⟨false, false, [], [], []⟩ else w.node y
      scopes := w.fresh :: w.scopes
      fresh := w.fresh + 1 }
  | .leave => { w with scopes := w.scopes.tail }
  | .collect => w

/-- A program only handles objects it can get hold of; only sequences have elements; names are texts and get no
properties of their own; the outermost scope stays open. -/
def World.Legal (w : World) : Op → Prop
  | .make owner _ _ => w.Live owner ∧ ∃ n, w.node owner = some n ∧ n.isName = false
  | .put _ x k v =>
    w.Live x ∧ w.Live k ∧ w.Live v ∧ (∃ n, w.node x = some n ∧ n.isName = false) ∧
      ∃ n, w.node k = some n ∧ n.isName = true
  | .del _ x _ => w.Live x
  | .push x v => w.Live x ∧ w.Live v ∧ ∃ n, w.node x = some n ∧ n.isArray = true ∧ n.isName = false
  | .shift x => w.Live x
  | .pop x => w.Live x
  | .enter => True
  | .leave => 2 ≤ w.scopes.length
  | .collect => True

def World.run (w : World) : List Op → World
  | [] => w
  | op :: ops => (w.step op).run ops

def World.LegalRun (w : World) : List Op → Prop
  | [] => True
  | op :: ops => w.Legal op ∧ (w.step op).LegalRun ops

/-- Only the outermost scope. -/
def World.start : World := ⟨fun y => if y = 0 then some ⟨false, false, [], [], []⟩ else none, [0], 1⟩

end Verif.Spec.GC
