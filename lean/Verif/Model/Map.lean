import Verif.Model.Seq

/-!
# Properties of objects and the Map object (`world.c:81-301`, `collections.c:758-1046`)

The property list of an object is a doubly linked list of heap cells (`ctr_mapitem`). The model keeps the
cells in an explicit heap, so that a wrong unlink or a use after free is visible: reading a cell that is not
allocated is `Out.ub`.

Simplifications:
* addresses come from a counter and are not reused; a use after free therefore always shows up as `ub`;
* keys are values of a type `κ` with decidable equality (`ctr_internal_object_is_equal` on two texts is equality
  of length and bytes), `hash` is an arbitrary function on keys (`ctr_internal_index_hash`);
* loops carry a bound; running out of it is reported as `ub` (the theorems show that it does not happen).
-/

namespace Verif.Model

variable {κ ν : Type}

/-- `ctr_mapitem`, `citrine.h` (`struct ctr_mapitem`): cached hash, key, value, next, prev. -/
structure Item (κ ν : Type) where
  hash : Nat
  key : κ
  val : ν
  next : Option Nat
  prev : Option Nat

/-- `ctr_map`, `citrine.h` (`struct ctr_map`): head pointer and size, with the heap of cells. -/
structure PMap (κ ν : Type) where
  heap : Nat → Option (Item κ ν)
  fresh : Nat
  head : Option Nat
  size : Nat

namespace PMap

/-- Point update of a heap. -/
def upd (h : Nat → Option (Item κ ν)) (p : Nat) (x : Option (Item κ ν)) : Nat → Option (Item κ ν) :=
  fun q => if q = p then x else h q

/-- Dereferencing a `ctr_mapitem*`. -/
def deref (h : Nat → Option (Item κ ν)) (p : Nat) : Out (Item κ ν) :=
  match h p with
  | some it => .ok it
  | none => .ub

/-- `ctr_internal_create_object` / `ctr_map_new` (`collections.c:758-762`): no properties. -/
def new : PMap κ ν := { heap := fun _ => none, fresh := 0, head := none, size := 0 }

variable [DecidableEq κ] (hash : κ → Nat)

/-- The `while(head)` walk shared by `ctr_internal_object_find_property` (`world.c:147-152`) and
`ctr_internal_object_delete_property` (`world.c:179-214`): the first cell with equal hash and equal key. -/
def walk (h : Nat → Option (Item κ ν)) (k : κ) : Nat → Option Nat → Out (Option Nat)
  | _, none => .ok none
  | 0, some _ => .ub
  | fuel + 1, some p => do
    let it ← deref h p
    if hash k = it.hash ∧ it.key = k then .ok (some p) else walk h k fuel it.next

/-- `ctr_internal_object_find_property`, `world.c:132-154`. -/
def find (m : PMap κ ν) (k : κ) : Out (Option ν) :=
  if m.size = 0 then .ok none
  else do
    match ← walk hash m.heap k m.fresh m.head with
    | none => .ok none
    | some p =>
      let it ← deref m.heap p
      .ok (some it.val)

/-- Unlinking the cell `p` and freeing it, `world.c:181-211`. -/
def unlink (m : PMap κ ν) (p : Nat) : Out (PMap κ ν) := do
  let it ← deref m.heap p
  let h ← match it.next, it.prev with
    | some n, some q => do
      let itn ← deref m.heap n
      let h := upd m.heap n (some { itn with prev := it.prev })
      let itq ← deref h q
      .ok (upd h q (some { itq with next := it.next }))
    | some n, none => do
      let itn ← deref m.heap n
      .ok (upd m.heap n (some { itn with prev := none }))
    | none, some q => do
      let itq ← deref m.heap q
      .ok (upd m.heap q (some { itq with next := none }))
    | none, none => .ok m.heap
  let head := if m.head = some p then it.next else m.head
  .ok { m with heap := upd h p none, head := head, size := m.size - 1 }

/-- `ctr_internal_object_delete_property`, `world.c:164-217`. -/
def delete (m : PMap κ ν) (k : κ) : Out (PMap κ ν) :=
  if m.size = 0 then .ok m
  else do
    match ← walk hash m.heap k m.fresh m.head with
    | none => .ok m
    | some p => m.unlink p

/-- `ctr_internal_object_add_property`, `world.c:227-256`: the new cell becomes the head. -/
def add (m : PMap κ ν) (k : κ) (v : ν) : Out (PMap κ ν) :=
  let p := m.fresh
  if m.size = 0 then
    .ok { heap := upd m.heap p (some ⟨hash k, k, v, none, none⟩), fresh := p + 1, head := some p,
          size := m.size + 1 }
  else
    match m.head with
    | none => .ub
    | some c => do
      let itc ← deref m.heap c
      .ok { heap := upd (upd m.heap c (some { itc with prev := some p })) p (some ⟨hash k, k, v, some c, none⟩),
            fresh := p + 1, head := some p, size := m.size + 1 }

/-- `ctr_internal_object_set_property` (`world.c:265-268`) and `ctr_map_put` (`collections.c:785-808`, the key
already turned into a text): delete, then add. -/
def put (m : PMap κ ν) (k : κ) (v : ν) : Out (PMap κ ν) := do
  let m ← m.delete hash k
  m.add hash k v

/-- `ctr_map_count`, `collections.c:943-945`. -/
def count (m : PMap κ ν) : Nat := m.size

/-- The enumeration loops of `ctr_map_keys` (`collections.c:871-875`) and `ctr_map_values`
(`collections.c:896-900`): push `f` of every cell, from the head, on a sequence. -/
def enumLoop {β : Type} (h : Nat → Option (Item κ ν)) (f : Item κ ν → β) :
    Nat → Option Nat → Seq β → Out (Seq β)
  | _, none, s => .ok s
  | 0, some _, _ => .ub
  | fuel + 1, some p, s => do
    let it ← deref h p
    let s ← s.push (f it)
    enumLoop h f fuel it.next s

/-- `ctr_map_keys` (`entries`), `collections.c:863-878`. -/
def keys (m : PMap κ ν) : Out (Seq κ) := enumLoop m.heap (·.key) m.fresh m.head Seq.new

/-- `ctr_map_values` (`values`), `collections.c:888-903`. -/
def values (m : PMap κ ν) : Out (Seq ν) := enumLoop m.heap (·.val) m.fresh m.head Seq.new

/-- Loop of `ctr_map_has`, `collections.c:1029-1039`; `same` is the textual comparison with the needle. -/
def hasLoop (h : Nat → Option (Item κ ν)) (same : ν → Bool) : Nat → Option Nat → Bool → Out Bool
  | _, none, found => .ok found
  | 0, some _, _ => .ub
  | fuel + 1, some p, found => do
    let it ← deref h p
    hasLoop h same fuel it.next (if same it.val then true else found)

/-- `ctr_map_has`, `collections.c:1023-1041`. -/
def has (m : PMap κ ν) (same : ν → Bool) : Out Bool := hasLoop m.heap same m.fresh m.head false

/-- Loop of `ctr_map_copy`, `collections.c:951-961`: put every binding, from the head, in the copy. -/
def copyLoop (h : Nat → Option (Item κ ν)) : Nat → Option Nat → PMap κ ν → Out (PMap κ ν)
  | _, none, c => .ok c
  | 0, some _, _ => .ub
  | fuel + 1, some p, c => do
    let it ← deref h p
    let c ← c.put hash it.key it.val
    copyLoop h fuel it.next c

/-- `ctr_map_copy`, `collections.c:947-963`. -/
def copy (m : PMap κ ν) : Out (PMap κ ν) := copyLoop hash m.heap m.fresh m.head new

/-- Loop of `ctr_map_each`, `collections.c:983-1004`: `block st c k v` runs the block in program state `st`
with key `k`, value `v` and the copied map `c` as third argument; it may change `c`. The next cell is read
from the copy *after* the block ran. -/
def eachLoop {σ : Type} (block : σ → PMap κ ν → κ → ν → σ × PMap κ ν × Flow) :
    Nat → σ → PMap κ ν → Option Nat → Out (σ × Flow)
  | _, st, _, none => .ok (st, .none)
  | 0, _, _, some _ => .ub
  | fuel + 1, st, c, some p => do
    let it ← deref c.heap p
    let (st, c, fl) := block st c it.key it.val
    let it ← deref c.heap p
    match fl with
    | .none => eachLoop block fuel st c it.next
    | .cont => eachLoop block fuel st c it.next
    | .brk => .ok (st, .none)
    | .err => .ok (st, .err)

/-- `ctr_map_each`, `collections.c:974-1009`, with a block argument and no pending flow. -/
def each {σ : Type} (m : PMap κ ν) (block : σ → PMap κ ν → κ → ν → σ × PMap κ ν × Flow) (st : σ) :
    Out (σ × Flow) := do
  let c ← m.copy hash
  eachLoop block c.fresh st c c.head

/-- Loop of `ctr_array_combine`, `collections.c:561-568`, for `i = i0 .. i0+n-1`: the element of the receiver is
the value, the element of the argument the key (`ctr_map_put` takes the value first). -/
def combineLoop {α : Type} [HasNil α] [DecidableEq α] (self arg : Seq α) (toKey : α → κ) (m : PMap κ α)
    (i : Nat) : Nat → Out (PMap κ α)
  | 0 => .ok m
  | n + 1 => do
    let v ← self.get ((i : Int) + 1)
    let k ← arg.get ((i : Int) + 1)
    let m ← if k = HasNil.nil then .ok m else m.put hash (toKey k) v
    combineLoop self arg toKey m (i + 1) n

/-- `ctr_array_combine` (`by:`), `collections.c:552-573`, with a sequence argument. `toKey` is the conversion
of a key to text. -/
def combine {α : Type} [HasNil α] [DecidableEq α] (self arg : Seq α) (toKey : α → κ) : Out (PMap κ α) :=
  combineLoop hash self arg toKey new self.tail (self.head - self.tail)

end PMap

/-- One message to a map. -/
inductive MapOp (κ ν : Type) where
  | put (k : κ) (v : ν)
  | delete (k : κ)
  | get (k : κ)
  | count

/-- A map's answer: a value (or None), a number, or the map itself. -/
inductive MapReply (ν : Type) where
  | val (v : Option ν)
  | num (n : Nat)
  | self
  deriving DecidableEq, Repr

/-- Dispatch of one message to a map (method table `world.c:893-912`). -/
def PMap.step [DecidableEq κ] (hash : κ → Nat) (m : PMap κ ν) : MapOp κ ν → Out (PMap κ ν × MapReply ν)
  | .put k v => do let m ← m.put hash k v; .ok (m, .self)
  | .delete k => do let m ← m.delete hash k; .ok (m, .self)
  | .get k => do let r ← m.find hash k; .ok (m, .val r)
  | .count => .ok (m, .num m.count)

/-- Run a history of map messages. -/
def PMap.run [DecidableEq κ] (hash : κ → Nat) (m : PMap κ ν) :
    List (MapOp κ ν) → Out (PMap κ ν × List (MapReply ν))
  | [] => .ok (m, [])
  | op :: ops => do
    let (m, r) ← m.step hash op
    let (m, rs) ← m.run hash ops
    .ok (m, r :: rs)

end Verif.Model
