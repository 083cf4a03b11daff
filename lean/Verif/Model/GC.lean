import Verif.Basic
import Verif.Spec.GC

/-!
# Garbage collector (`system.c`)

Model choices:
* An object is identified by a number; `mem` says which objects exist (a freed object is absent and any
  access to it is undefined behaviour). Properties and methods are lists of (key, value) pairs in list order.
  Fields that the collector does not look at are left out.
* The memory of the parts of an object (property cells, text bytes, element buffer) lives and dies with the
  object and is not shown separately.
* `ctr_gc_internal_collect` reads `ctr_contexts[-1]` once after the last context (`system.c:159`); the value is
  not used and the read is not modelled.
* The recursion of `ctr_gc_mark` is bounded by fuel; running out of fuel is `ub`. The theorems show that it does
  not happen. Exhaustion of the C stack is not modelled.
* The counters for reporting (`ctr_gc_dust_counter` etc.) are in `Verif.Model.Report`.
-/

namespace Verif.Model.GC

/-- Parts of `ctr_object` that matter to the collector, `citrine.h`. `elems` are the element slots 0 to
`head - 1` of a sequence, of which the first `tail` have been shifted off. -/
structure Obj where
  isArray : Bool
  elems : List Nat
  tail : Nat
  props : List (Nat × Nat)
  methods : List (Nat × Nat)
  link : Option Nat
  sticky : Bool
  mark : Bool
  gnext : Option Nat
  deriving DecidableEq

/-- Objects, head of the list of all objects (`ctr_first_object`), number of objects created so far. -/
structure Heap where
  mem : Nat → Option Obj
  first : Option Nat
  fresh : Nat

/-- Functional update. -/
def upd (f : Nat → Option Obj) (k : Nat) (v : Option Obj) : Nat → Option Obj := fun x => if x = k then v else f x

/-- `k->info.mark = 1`, `system.c:33`, `system.c:44`. -/
def touch (h : Heap) (k : Nat) : Out Heap :=
  match h.mem k with
  | none => .ub
  | some o => .ok { h with mem := upd h.mem k (some { o with mark := true }) }

/-- `if (!o->info.mark) { o->info.mark = 1; ctr_gc_mark(o); }`, `system.c:23-26`, `34-37`, `45-48`. -/
def visit (rec : Heap → Nat → Out Heap) (h : Heap) (x : Nat) : Out Heap :=
  match h.mem x with
  | none => .ub
  | some o => if o.mark then .ok h else rec { h with mem := upd h.mem x (some { o with mark := true }) } x

/-- Loop over the elements, `system.c:21-27`. -/
def markElems (rec : Heap → Nat → Out Heap) : Heap → List Nat → Out Heap
  | h, [] => .ok h
  | h, e :: es => do
    let h ← visit rec h e
    markElems rec h es

/-- Loop over properties resp. methods, `system.c:29-39`, `system.c:40-50`. -/
def markItems (rec : Heap → Nat → Out Heap) : Heap → List (Nat × Nat) → Out Heap
  | h, [] => .ok h
  | h, (k, v) :: items => do
    let h ← touch h k
    let h ← visit rec h v
    markItems rec h items

/-- `ctr_gc_mark`, `system.c:14-51`. -/
def mark : Nat → Heap → Nat → Out Heap
  | 0, _, _ => .ub
  | fuel + 1, h, x =>
    match h.mem x with
    | none => .ub
    | some o => do
      let h ← (if o.isArray then markElems (mark fuel) h o.elems else .ok h)
      let h ← markItems (mark fuel) h o.props
      markItems (mark fuel) h o.methods

/-- Unlinking the current object from the list of objects, `system.c:74-90`. -/
def unlink (h : Heap) (prev : Option Nat) (next : Option Nat) : Out Heap :=
  match prev with
  | none => .ok { h with first := next }
  | some p =>
    match h.mem p with
    | none => .ub
    | some o => .ok { h with mem := upd h.mem p (some { o with gnext := next }) }

/-- Loop of `ctr_gc_sweep`, `system.c:64-140`. -/
def sweepLoop (all : Bool) : Nat → Heap → Option Nat → Option Nat → Out Heap
  | _, h, _, none => .ok h
  | 0, _, _, some _ => .ub
  | fuel + 1, h, prev, some c =>
    match h.mem c with
    | none => .ub
    | some o =>
      if (o.mark = false ∧ o.sticky = false) ∨ all = true then do
        let h ← unlink h prev o.gnext
        sweepLoop all fuel { h with mem := upd h.mem c none } prev o.gnext
      else
        sweepLoop all fuel { h with mem := upd h.mem c (some { o with mark := false }) } (some c) o.gnext

/-- `ctr_gc_sweep`, `system.c:58-141`. -/
def sweep (h : Heap) (all : Bool) : Out Heap := sweepLoop all (h.fresh + 1) h none h.first

/-- Marking from the contexts, innermost first, `system.c:154-160`. -/
def markRoots (h : Heap) : List Nat → Out Heap
  | [] => .ok h
  | r :: rs => do
    let h ← mark (h.fresh + 1) h r
    markRoots h rs

/-- `ctr_gc_internal_collect`, `system.c:147-163`; `contexts` are the open contexts, innermost first. -/
def collect (h : Heap) (contexts : List Nat) : Out Heap := do
  let h ← markRoots h contexts
  sweep h false

/-!
## Programs

The operations (named in `Spec.GC.Op`) that change the object graph between collections.
-/

open Verif.Spec.GC (Op)

/-- Objects and open contexts, innermost first (`ctr_contexts[0..ctr_context_id]`, `world.c:33`). -/
structure St where
  heap : Heap
  ctxs : List Nat

/-- `ctr_internal_create_object`, `world.c:364-394`; the new object comes first in the list of all objects. -/
def create (h : Heap) (isArray sticky : Bool) (link : Option Nat) : Heap :=
  { mem := upd h.mem h.fresh (some ⟨isArray, [], 0, [], [], link, sticky, false, h.first⟩)
    first := some h.fresh
    fresh := h.fresh + 1 }

/-- Writing through an object pointer. -/
def modify (h : Heap) (x : Nat) (f : Obj → Obj) : Out Heap :=
  match h.mem x with
  | none => .ub
  | some o => .ok { h with mem := upd h.mem x (some (f o)) }

/-- `ctr_internal_object_add_property`, `world.c:226-252`: the new item comes first. -/
def addItem (m : Bool) (k v : Nat) (o : Obj) : Obj :=
  if m then { o with methods := (k, v) :: o.methods } else { o with props := (k, v) :: o.props }

/-- `ctr_internal_object_delete_property`, `world.c:165-217`, with the position of the item given. -/
def delItem (m : Bool) (i : Nat) (o : Obj) : Obj :=
  if m then { o with methods := o.methods.eraseIdx i } else { o with props := o.props.eraseIdx i }

/-- `ctr_array_push`, `collections.c:53-65` (the growth of the buffer is in `Verif.Model.Seq`). -/
def arrayPush (v : Nat) (o : Obj) : Obj := { o with elems := o.elems ++ [v] }

/-- `ctr_array_shift`, `collections.c:394-402`: the slot keeps its value. -/
def arrayShift (o : Obj) : Obj := if o.tail ≥ o.elems.length then o else { o with tail := o.tail + 1 }

/-- `ctr_array_pop`, `collections.c:376-382`. -/
def arrayPop (o : Obj) : Obj := if o.tail ≥ o.elems.length then o else { o with elems := o.elems.dropLast }

/-- One operation. `make`: `ctr_object_make`, `base.c:150-155`, then assignment under a fresh key
(`world.c:1194-1204`); `enter`: `ctr_open_context`, `world.c:499-507` (the limit of 300 contexts is in
`Verif.Model.Scope`); `leave`: `ctr_close_context`, `world.c:516-520`; `collect`: `system.c:147-163`. -/
def step (s : St) : Op → Out St
  | .make owner isArray proto => do
    let h := create (create s.heap false false none) isArray false proto
    let h ← modify h owner (addItem false s.heap.fresh (s.heap.fresh + 1))
    .ok { s with heap := h }
  | .put m x k v => do
    let h ← modify s.heap x (addItem m k v)
    .ok { s with heap := h }
  | .del m x i => do
    let h ← modify s.heap x (delItem m i)
    .ok { s with heap := h }
  | .push x v => do
    let h ← modify s.heap x (arrayPush v)
    .ok { s with heap := h }
  | .shift x => do
    let h ← modify s.heap x arrayShift
    .ok { s with heap := h }
  | .pop x => do
    let h ← modify s.heap x arrayPop
    .ok { s with heap := h }
  | .enter => .ok { heap := create s.heap false true none, ctxs := s.heap.fresh :: s.ctxs }
  | .leave =>
    match s.ctxs with
    | [] => .ub
    | c :: rest => do
      let h ← modify s.heap c fun o => { o with sticky := false }
      .ok { heap := h, ctxs := if rest = [] then [c] else rest }
  | .collect => do
    let h ← collect s.heap s.ctxs
    .ok { s with heap := h }

def run : St → List Op → Out St
  | s, [] => .ok s
  | s, op :: ops => do
    let s ← step s op
    run s ops

/-- Only the world (`world.c:647-649`). -/
def start : St := ⟨create ⟨fun _ => none, none, 0⟩ false true none, [0]⟩

end Verif.Model.GC
