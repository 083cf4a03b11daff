import Verif.Basic

/-!
# Model of the Citrine sequence (`collections.c:1-744`)

A sequence is a heap buffer of object pointers with three counters: `length` (allocated slots), `head`
(index one past the last element) and `tail` (index of the first element).

Simplifications, valid for the whole file:
* An object pointer is an abstract value of type `α`; `HasNil.nil` is `CtrStdNil`.
* A slot that was never written (fresh memory from `ctr_heap_reallocate`) is `none`; reading it is `ub`.
* `ctr_heap_allocate`/`ctr_heap_reallocate` succeed (the memory limit is modelled in `Model/Heap`).
* `ctr_size` counters are unbounded naturals: a wrap-around needs a buffer of 2^61 slots.
* A number argument is represented by its value truncated towards zero (an `Int`), which is the only thing
  the code looks at: all uses are C casts to an integer type or the comparison `< 1`.
* Garbage collection pins and argument list nodes are left out.
-/

namespace Verif.Model

/-- `CtrStdNil` (`world.c:699-706`). -/
class HasNil (α : Type) where
  nil : α

instance : HasNil (Option α) := ⟨none⟩

/-- `struct ctr_collection` (`citrine.h:215-221`): `buf` is the allocation `elements` points to. -/
structure Seq (α : Type) where
  length : Nat
  head : Nat
  tail : Nat
  buf : List (Option α)
  deriving Repr, DecidableEq

/-- What a message to a sequence answers. `self` is the receiver itself, `err` means an error became
pending (`CtrStdFlow`, set by `ctr_error`, `util.c:148`). -/
inductive Reply (α : Type) where
  | val (a : α)
  | num (n : Int)
  | self
  | err
  deriving Repr, DecidableEq

namespace Seq

variable {α : Type}

/-- Read slot `i` of the element buffer: `*(elements + i)`. -/
def read (s : Seq α) (i : Nat) : Out α :=
  match s.buf[i]? with
  | some (some a) => .ok a
  | _ => .ub

/-- Write slot `i` of the element buffer: `*(elements + i) = a`. -/
def write (s : Seq α) (i : Nat) (a : α) : Out (Seq α) :=
  if i < s.buf.length then .ok { s with buf := s.buf.set i (some a) } else .ub

/-- `ctr_array_new`, `collections.c:18-27`: one zeroed slot (a zeroed slot is not an object). -/
def new : Seq α := { length := 1, head := 0, tail := 0, buf := [none] }

/-- The growth step shared by `ctr_array_push` (`collections.c:55-60`) and `ctr_array_unshift`
(`collections.c:186-189`): triple the buffer when `length <= head + 1`. The reallocation keeps the old
slots and leaves the new ones uninitialised. -/
def grow (s : Seq α) : Seq α :=
  if s.length ≤ s.head + 1 then
    { s with
      length := s.length * 3
      buf := s.buf.take (s.length * 3) ++ List.replicate (s.length * 3 - s.buf.length) none }
  else s

/-- `ctr_array_push`, `collections.c:53-65`. -/
def push (s : Seq α) (a : α) : Out (Seq α) := do
  let s := s.grow
  let s ← s.write s.head a
  .ok { s with head := s.head + 1 }

/-- `memmove(elements+1, elements, n*sizeof)`: both ranges must lie in the buffer. -/
def memmoveUp (s : Seq α) (n : Nat) : Out (Seq α) :=
  if n + 1 ≤ s.buf.length then
    .ok { s with buf := s.buf.take 1 ++ s.buf.take n ++ s.buf.drop (n + 1) }
  else .ub

/-- `ctr_array_unshift`, `collections.c:181-195`. -/
def unshift (s : Seq α) (a : α) : Out (Seq α) := do
  let s ← if s.tail > 0 then .ok { s with tail := s.tail - 1 }
    else
      let s := s.grow
      let s := { s with head := s.head + 1 }
      s.memmoveUp s.head
  s.write s.tail a

/-- `ctr_array_pop`, `collections.c:376-382`. -/
def pop [HasNil α] (s : Seq α) : Out (Seq α × α) :=
  if s.tail ≥ s.head then .ok (s, HasNil.nil)
  else do
    let s := { s with head := s.head - 1 }
    let a ← s.read s.head
    .ok (s, a)

/-- `ctr_array_shift`, `collections.c:394-402`. -/
def shift [HasNil α] (s : Seq α) : Out (Seq α × α) :=
  if s.tail ≥ s.head then .ok (s, HasNil.nil)
  else do
    let a ← s.read s.tail
    .ok ({ s with tail := s.tail + 1 }, a)

/-- `ctr_array_count`, `collections.c:412-416`: a `double` subtraction. -/
def count (s : Seq α) : Int := (s.head : Int) - s.tail

/-- `ctr_array_get`, `collections.c:246-259`, for a number argument. `(int) nvalue - 1` is undefined
when the value does not fit an `int`. The comparison `head <= i + tail` is done in `ctr_size`; for a
negative `i` the second disjunct `i < 0` decides, so the model tests that first. -/
def get [HasNil α] (s : Seq α) (n : Int) : Out α :=
  if ¬ InInt n ∨ ¬ InInt (n - 1) then .ub
  else
    let i := n - 1
    if i < 0 then .ok HasNil.nil
    else if s.head ≤ i.toNat + s.tail then .ok HasNil.nil
    else s.read (s.tail + i.toNat)

/-- `ctr_array_first`, `collections.c:271-278`. The length is an unsigned subtraction; `head ≥ tail` in
every reachable state (`Seq.Inv`), so no wrap-around is modelled. -/
def first [HasNil α] (s : Seq α) : Out α :=
  if s.head - s.tail < 1 then .ok HasNil.nil else s.read s.tail

/-- `ctr_array_last`, `collections.c:290-297`. -/
def last [HasNil α] (s : Seq α) : Out α :=
  if s.head - s.tail < 1 then .ok HasNil.nil else s.read (s.tail + (s.head - s.tail - 1))

/-- `ctr_array_second_last`, `collections.c:309-316`. -/
def secondLast [HasNil α] (s : Seq α) : Out α :=
  if s.head - s.tail < 2 then .ok HasNil.nil else s.read (s.tail + (s.head - s.tail - 2))

/-- The `ctr_array_push` loop of `ctr_array_put` (`collections.c:345-353`) and of `ctr_array_fill`
(`collections.c:712-714`): push `a` `n` times. -/
def pushN (s : Seq α) (a : α) : Nat → Out (Seq α)
  | 0 => .ok s
  | n + 1 => do
    let s ← s.push a
    s.pushN a n

/-- The loop `for(j = tail; j > lo; j--) elements[j] = Nil` of `ctr_array_put`
(`collections.c:356-360`), run for `j = hi, hi-1, ..., lo+1` where `hi = lo + n`. -/
def nilDown [HasNil α] (s : Seq α) (lo : Nat) : Nat → Out (Seq α)
  | 0 => .ok s
  | n + 1 => do
    let s ← s.write (lo + (n + 1)) HasNil.nil
    s.nilDown lo n

/-- `ctr_array_put`, `collections.c:328-364`; `n` is the (truncated) index argument. The conversion of a
value of 2^64 or more to `ctr_size` is undefined. -/
def put [HasNil α] (s : Seq α) (a : α) (n : Int) : Out (Seq α × Reply α) :=
  if n < 1 then .ok (s, .err)
  else if n ≥ 18446744073709551616 then .ub
  else do
    let idx := n.toNat - 1
    let head := s.head
    let tail := s.tail
    let s ← if head ≤ idx then do
        let s ← s.pushN HasNil.nil (idx + 1 - head)
        .ok { s with head := idx + 1 }
      else .ok s
    let s ← if idx < tail then do
        let s ← s.nilDown idx (tail - idx)
        .ok { s with tail := idx }
      else .ok s
    let s ← s.write idx a
    .ok (s, .self)

/-- `ctr_array_fill`, `collections.c:702-717`; the count is a truncated number. -/
def fill (s : Seq α) (n : Int) (a : α) : Out (Seq α) :=
  if n < 1 then .ok s
  else if n ≥ 18446744073709551616 then .ub
  else s.pushN a n.toNat

/-- The loop shared by `ctr_array_copy` (`collections.c:591-595`) and both loops of `ctr_array_add`
(`collections.c:517-526`, `528-537`): for `i = i0 .. i0+n-1` push `src position: i+1` on `dst`. -/
def pushGets [HasNil α] (src dst : Seq α) (i : Nat) : Nat → Out (Seq α)
  | 0 => .ok dst
  | n + 1 => do
    let a ← src.get ((i : Int) + 1)
    let dst ← dst.push a
    src.pushGets dst (i + 1) n

/-- `ctr_array_copy`, `collections.c:586-599`. -/
def copy [HasNil α] (s : Seq α) : Out (Seq α) :=
  s.pushGets new s.tail (s.head - s.tail)

/-- `ctr_array_add`, `collections.c:513-540`, with a sequence argument. -/
def add [HasNil α] (s t : Seq α) : Out (Seq α) := do
  let r ← s.pushGets new s.tail (s.head - s.tail)
  t.pushGets r t.tail (t.head - t.tail)

/-- Loop of `ctr_array_from_length`, `collections.c:437-446`: for `i = i0 .. i0+n-1` push
`s position: i`. -/
def fromLengthLoop [HasNil α] (s dst : Seq α) (i : Int) : Nat → Out (Seq α)
  | 0 => .ok dst
  | n + 1 => do
    let a ← s.get i
    let dst ← dst.push a
    s.fromLengthLoop dst (i + 1) n

/-- `ctr_array_from_length`, `collections.c:427-448`. Both arguments are cast to `int` and added. -/
def fromLength [HasNil α] (s : Seq α) (start len : Int) : Out (Seq α) :=
  if ¬ InInt start ∨ ¬ InInt len ∨ ¬ InInt (start + len) then .ub
  else s.fromLengthLoop new start len.toNat

/-- `ctr_array_splice`, `collections.c:460-501`, for a sequence replacement and whole-number
arguments. -/
def splice [HasNil α] (s : Seq α) (frm len : Int) (r : Seq α) : Out (Seq α) := do
  let a ← s.fromLength 1 (frm - 1)
  let a ← a.add r
  if frm + len ≤ s.count then do
    let rem ← s.fromLength (frm + len) (1 + s.count - (frm + len))
    a.add rem
  else .ok a

/-- Loop of `ctr_array_min` (`collections.c:81-87`): `i` runs from 0 to `head`, `m` is `min`. `num` is the
number conversion of an element (`ctr_internal_cast2number`); the numbers `ν` and their `<` are parameters, the
type `double` with its comparison in `Verif.Props.Extreme`. -/
def minLoop (s : Seq α) (lt : ν → ν → Bool) (num : α → ν) (i : Nat) (m : ν) : Nat → Out ν
  | 0 => .ok m
  | n + 1 => do
    let el ← s.read i
    let v := num el
    s.minLoop lt num (i + 1) (if i = 0 ∨ lt v m then v else m) n

/-- `ctr_array_min`, `collections.c:76-89`; `zero` is the number 0. -/
def minimum (s : Seq α) (lt : ν → ν → Bool) (zero : ν) (num : α → ν) : Out ν := s.minLoop lt num 0 zero s.head

/-- Loop of `ctr_array_max` (`collections.c:105-111`). -/
def maxLoop (s : Seq α) (lt : ν → ν → Bool) (num : α → ν) (i : Nat) (m : ν) : Nat → Out ν
  | 0 => .ok m
  | n + 1 => do
    let el ← s.read i
    let v := num el
    s.maxLoop lt num (i + 1) (if i = 0 ∨ lt m v then v else m) n

/-- `ctr_array_max`, `collections.c:100-113`; `zero` is the number 0. -/
def maximum (s : Seq α) (lt : ν → ν → Bool) (zero : ν) (num : α → ν) : Out ν := s.maxLoop lt num 0 zero s.head

/-- Loop of `ctr_array_index_of` (`collections.c:733-741`). `same` is the test "equal length and
`strncmp` = 0" between the text of an element and the needle. The result is the raw slot index. -/
def indexOfLoop (s : Seq α) (same : α → Bool) (i : Nat) : Nat → Out (Option Nat)
  | 0 => .ok none
  | n + 1 => do
    let el ← s.read i
    if same el then .ok (some i) else s.indexOfLoop same (i + 1) n

/-- `ctr_array_index_of`, `collections.c:728-744`: answers `found + 1` where `found` is the raw slot
index, None when not found. (`found` is an `int`; the model does not truncate, so it is faithful for
buffers below 2^31 slots.) -/
def indexOf (s : Seq α) (same : α → Bool) : Out (Option Nat) := do
  let r ← s.indexOfLoop same s.tail (s.head - s.tail)
  .ok (r.map (· + 1))

/-- `ctr_array_sort`, `collections.c:637-647`: `qsort` (a parameter) is applied to the slots
`tail .. head-1` in place. The range must be initialised and inside the buffer. -/
def sort (s : Seq α) (qsort : List α → List α) : Out (Seq α) :=
  let mid := (s.buf.drop s.tail).take (s.head - s.tail)
  if s.head ≤ s.buf.length ∧ mid.all Option.isSome then
    .ok { s with buf := s.buf.take s.tail ++ (qsort (mid.filterMap id)).map some ++ s.buf.drop s.head }
  else .ub

end Seq

/-- One message to a sequence. -/
inductive SeqOp (α : Type) where
  | append (a : α)
  | prepend (a : α)
  | pop
  | shift
  | put (a : α) (n : Int)
  | fill (n : Int) (a : α)
  | position (n : Int)
  | positionNaN
  | first
  | last
  | penultimate
  | count
  deriving Repr, DecidableEq

namespace Seq

/-- Dispatch of one message: the method table of `world.c:854-887`. `positionNaN` is `position:` with a
non-number argument (`collections.c:249-252`). -/
def step [HasNil α] (s : Seq α) : SeqOp α → Out (Seq α × Reply α)
  | .append a => do let s ← s.push a; .ok (s, .self)
  | .prepend a => do let s ← s.unshift a; .ok (s, .self)
  | .pop => do let (s, a) ← s.pop; .ok (s, .val a)
  | .shift => do let (s, a) ← s.shift; .ok (s, .val a)
  | .put a n => s.put a n
  | .fill n a => do let s ← s.fill n a; .ok (s, .self)
  | .position n => do let a ← s.get n; .ok (s, .val a)
  | .positionNaN => .ok (s, .err)
  | .first => do let a ← s.first; .ok (s, .val a)
  | .last => do let a ← s.last; .ok (s, .val a)
  | .penultimate => do let a ← s.secondLast; .ok (s, .val a)
  | .count => .ok (s, .num s.count)

/-- Run a history of messages, collecting the replies. -/
def run [HasNil α] (s : Seq α) : List (SeqOp α) → Out (Seq α × List (Reply α))
  | [] => .ok (s, [])
  | op :: ops => do
    let (s, r) ← s.step op
    let (s, rs) ← s.run ops
    .ok (s, r :: rs)

end Seq

/-! ## Iteration -/

/-- Flow signal left behind by running a block: `CtrStdFlow` is `NULL`, `CtrStdBreak`, `CtrStdContinue`
or an error object (`base.c:667-690`, `util.c:148`). -/
inductive Flow where
  | none
  | brk
  | cont
  | err
  deriving Repr, DecidableEq

/-- Loop of `ctr_array_map`, `collections.c:133-156`. `σ` is the whole program state, `seqOf` the receiver
in it (the block may change it), `block st j el` runs the block with position `j` and element `el`.
`fuel` bounds the number of rounds (`none` = not finished within the bound): a block that keeps appending
makes the C loop run forever. -/
def Seq.eachLoop (seqOf : σ → Seq α) (block : σ → Nat → α → σ × Flow) :
    Nat → σ → Nat → Nat → Option (Out (σ × Flow))
  | 0, _, _, _ => Option.none
  | fuel + 1, st, i, j =>
    if i < (seqOf st).head then
      match (seqOf st).read i with
      | .ok el =>
        match block st (j + 1) el with
        | (st, .none) => Seq.eachLoop seqOf block fuel st (i + 1) (j + 1)
        | (st, .cont) => Seq.eachLoop seqOf block fuel st (i + 1) (j + 1)
        | (st, .brk) => some (.ok (st, .none))
        | (st, .err) => some (.ok (st, .err))
      | .ub => some .ub
      | .exit => some .exit
    else some (.ok (st, .none))

/-- `ctr_array_map` (`each:`), `collections.c:125-156`, with a block argument and no pending flow. -/
def Seq.each (seqOf : σ → Seq α) (block : σ → Nat → α → σ × Flow) (fuel : Nat) (st : σ) :
    Option (Out (σ × Flow)) :=
  Seq.eachLoop seqOf block fuel st (seqOf st).tail 0

end Verif.Model
