import Verif.Basic

/-!
# Memory manager (`memory.c`)

Model choices:
* A block address is either pod number `i` of a pool area or a block obtained from the operating system.
  Distinct system blocks do not overlap (contract of `calloc`); pods are addressed by index, their byte
  offset in the area is `i * size`.
* A block is its header word (`width`, written at the start of the block) and the bytes after it.
* `calloc`/`malloc` refuse requests of 2^63 bytes or more, and no machine has 2^63 bytes of blocks in use at
  the same time: in both cases the call fails and the program exits. Other refusals of the system are not
  modelled (they also end the program, `memory.c:63-66`).
* `ctr_gc_clean_free` is 0 (`memory.c:165`, nothing in the program sets it).
* The three pool areas have the same size; failure of their `malloc` ends the program (not modelled).
-/

namespace Verif.Model.Mem

/-- Size classes of the pool, `memory.c:306-308`. -/
inductive Cls where
  | s | m | l
  deriving DecidableEq

/-- `spod`, `mpod`, `lpod`, `memory.c:306-308`. -/
def Cls.size : Cls → Nat
  | .s => 32
  | .m => 64
  | .l => 128

/-- Address of a block: pod `i` of a class or block number `id` of the system. -/
inductive Addr where
  | pod (c : Cls) (i : Nat)
  | os (id : Nat)
  deriving DecidableEq

/-- A block of `data.length + 8` bytes: the header word and the rest. -/
structure Block where
  width : Nat
  data : List UInt8
  deriving DecidableEq

/-- State of the memory manager, `memory.c:3-4` and `memory.c:290-305`. `mem` is the memory that exists,
`free` the free lists (top first), `used` a ghost counter of the bytes in use, `fresh` numbers the blocks of
the system. -/
structure Heap where
  usePools : Bool
  area : Nat
  pods : Cls → Nat
  count : Cls → Nat
  free : Cls → List Addr
  mem : Addr → Option Block
  fresh : Nat
  used : Nat
  ledger : Nat
  limit : Nat

/-- Initial state, `memory.c:3-4`, `memory.c:290-305`, limit from `citrine.c:119`. -/
def Heap.init (limit : Nat) : Heap :=
  { usePools := false, area := 0, pods := fun _ => 0, count := fun _ => 0, free := fun _ => []
    mem := fun _ => none, fresh := 0, used := 0, ledger := 0, limit := limit }

/-- Functional update. -/
def upd [DecidableEq κ] (f : κ → β) (k : κ) (v : β) : κ → β := fun x => if x = k then v else f x

/-- `size_t` arithmetic. -/
def wrap (n : Nat) : Nat := n % 18446744073709551616

/-- Conversion `size_t → int → size_t` caused by the return type of `ctr_pool_bucket`, `memory.c:353`. -/
def throughInt (n : Nat) : Nat :=
  let k := n % 4294967296
  if k < 2147483648 then k else 18446744073709551616 - 4294967296 + k

/-- `ctr_pool_init`, `memory.c:316-338`. `junk` is what the uninitialised pool memory contains. -/
def poolInit (h : Heap) (pool : Nat) (junk : Cls → Nat → Block) : Out Heap :=
  if h.usePools then .ok h
  else if pool < 300 then .exit
  else
    let poolSize := pool / 3
    .ok { h with
      usePools := true
      area := poolSize
      pods := fun c => wrap (poolSize / c.size + (18446744073709551616 - 1))
      mem := fun a =>
        match a with
        | .pod c i => if (i + 1) * c.size ≤ poolSize then
            some ⟨(junk c i).width, ((junk c i).data ++ List.replicate c.size 0).take (c.size - 8)⟩ else none
        | .os id => h.mem (.os id) }

/-- `ctr_pool_bucket` without the conversion, `memory.c:353-364`. -/
def bucketRaw (h : Heap) (size : Nat) : Nat :=
  if size > 0 ∧ size ≤ 32 ∧ h.count .s < h.pods .s then 32
  else if size > 32 ∧ size ≤ 64 ∧ h.count .m < h.pods .m then 64
  else if size > 64 ∧ size ≤ 128 ∧ h.count .l < h.pods .l then 128
  else if size = 32 ∨ size = 64 ∨ size = 128 then size + 1
  else size

/-- `ctr_pool_bucket`, `memory.c:353-364`. -/
def bucket (h : Heap) (size : Nat) : Nat := throughInt (bucketRaw h size)

/-- `calloc(size, 1)`. -/
def osAlloc (h : Heap) (size : Nat) : Out (Heap × Addr) :=
  if size ≥ 9223372036854775808 then .exit
  else .ok ({ h with
    mem := upd h.mem (.os h.fresh) (some ⟨0, List.replicate (size - 8) 0⟩)
    fresh := h.fresh + 1 }, .os h.fresh)

/-- The two branches of `ctr_pool_alloc` for one class, `memory.c:374-385`; `none` if there is no pod. -/
def takePod (h : Heap) (c : Cls) : Option (Heap × Addr) :=
  match h.free c with
  | a :: rest => some ({ h with free := upd h.free c rest }, a)
  | [] =>
    if h.count c < h.pods c then some ({ h with count := upd h.count c (h.count c + 1) }, .pod c (h.count c))
    else none

/-- The class whose pods have exactly this size. -/
def clsOf (size : Nat) : Option Cls :=
  if size = 32 then some .s else if size = 64 then some .m else if size = 128 then some .l else none

/-- `ctr_pool_alloc`, `memory.c:370-390`. -/
def poolAlloc (h : Heap) (size : Nat) : Out (Heap × Addr) :=
  if h.used + size ≥ 9223372036854775808 then .exit
  else
    let r := if h.usePools then (clsOf size).bind (takePod h) else none
    match r with
    | some (h, a) => .ok ({ h with used := h.used + size }, a)
    | none => do
      let (h, a) ← osAlloc h size
      .ok ({ h with used := h.used + size }, a)

/-- `free(ptr)`: only for a block of the system. -/
def osFree (h : Heap) (a : Addr) : Out Heap :=
  match a, h.mem a with
  | .os id, some _ => .ok { h with mem := upd h.mem (.os id) none }
  | _, _ => .ub

/-- `ctr_pool_dealloc`, `memory.c:395-415`. -/
def poolDealloc (h : Heap) (a : Addr) : Out Heap :=
  match h.mem a with
  | none => .ub
  | some b =>
    let h := { h with used := h.used - (b.data.length + 8) }
    if !h.usePools then osFree h a
    else
      match clsOf b.width with
      | none => osFree h a
      | some c =>
        if (h.free c).length < h.pods c then
          if b.data.length + 8 < c.size then .ub
          else .ok { h with
            free := upd h.free c (a :: h.free c)
            mem := upd h.mem a (some ⟨0, List.replicate (c.size - 8) 0 ++ b.data.drop (c.size - 8)⟩) }
        else osFree h a

/-- Writing the header word of a block, `memory.c:68-69`. -/
def setWidth (h : Heap) (a : Addr) (size : Nat) : Out Heap :=
  match h.mem a with
  | none => .ub
  | some b => if size < 8 then .ub else .ok { h with mem := upd h.mem a (some { b with width := size }) }

/-- `ctr_heap_allocate`, `memory.c:49-73`. -/
def allocate (h : Heap) (size : Nat) : Out (Heap × Addr) :=
  let size := bucket h (wrap (size + 8))
  let h := { h with ledger := wrap (h.ledger + size) }
  if h.limit < h.ledger then .exit
  else do
    let (h, a) ← poolAlloc h size
    let h ← setWidth h a size
    .ok (h, a)

/-- `ctr_heap_free`, `memory.c:166-186`, for a pointer that is not NULL. -/
def free (h : Heap) (a : Addr) : Out Heap :=
  match h.mem a with
  | none => .ub
  | some b => do
    let h ← poolDealloc h a
    .ok { h with ledger := if b.width > h.ledger then 0 else h.ledger - b.width }

/-- `memcpy(nptr, oldptr, old_size)` of a block with header, `memory.c:229`. -/
def copyBlock (h : Heap) (dst src : Addr) (n : Nat) : Out Heap :=
  match h.mem dst, h.mem src with
  | some d, some s =>
    if n ≤ d.data.length + 8 ∧ n ≤ s.data.length + 8 ∧ 8 ≤ n then
      .ok { h with mem := upd h.mem dst (some ⟨s.width, s.data.take (n - 8) ++ d.data.drop (n - 8)⟩) }
    else .ub
  | _, _ => .ub

/-- `ctr_heap_reallocate`, `memory.c:196-239`. -/
def reallocate (h : Heap) (a : Addr) (size : Nat) : Out (Heap × Addr) :=
  let size := bucket h (wrap (size + 8))
  match h.mem a with
  | none => .ub
  | some b =>
    if size ≤ b.width then .ok (h, a)
    else do
      let h := { h with ledger := wrap (h.ledger + (18446744073709551616 - b.width) + size) }
      let (h, n) ← poolAlloc h size
      let h ← copyBlock h n a b.width
      let h ← poolDealloc h a
      let h ← setWidth h n size
      .ok (h, n)

/-! ## Clients -/

/-- What a client does with memory. Blocks are named by their position in the list of blocks the client
holds; `write` stores bytes inside the requested size; `pool` activates the pool (`citrine.c:159`,
`system.c:277`), `limit` sets the memory limit (`system.c:250`). -/
inductive Op where
  | alloc (n : Nat)
  | free (k : Nat)
  | realloc (k n : Nat)
  | write (k off : Nat) (bytes : List UInt8)
  | pool (n : Nat) (junk : Cls → Nat → Block)
  | limit (n : Nat)

/-- The memory manager together with the blocks the client holds: address and requested size. -/
structure St where
  heap : Heap
  live : List (Addr × Nat)

/-- Storing bytes in a block. -/
def store (h : Heap) (a : Addr) (off : Nat) (bytes : List UInt8) : Out Heap :=
  match h.mem a with
  | none => .ub
  | some b =>
    if off + bytes.length ≤ b.data.length then
      .ok { h with mem := upd h.mem a (some { b with
        data := b.data.take off ++ bytes ++ b.data.drop (off + bytes.length) }) }
    else .ub

/-- One client operation; an operation on a block the client does not hold does nothing. -/
def step (st : St) : Op → Out St
  | .alloc n => do
    let (h, a) ← allocate st.heap n
    .ok ⟨h, st.live ++ [(a, n)]⟩
  | .free k =>
    match st.live[k]? with
    | none => .ok st
    | some (a, _) => do
      let h ← free st.heap a
      .ok ⟨h, st.live.eraseIdx k⟩
  | .realloc k n =>
    match st.live[k]? with
    | none => .ok st
    | some (a, _) => do
      let (h, a') ← reallocate st.heap a n
      .ok ⟨h, st.live.set k (a', n)⟩
  | .write k off bytes =>
    match st.live[k]? with
    | none => .ok st
    | some (a, n) =>
      if off + bytes.length ≤ n then do
        let h ← store st.heap a off bytes
        .ok ⟨h, st.live⟩
      else .ok st
  | .pool n junk => do
    let h ← poolInit st.heap n junk
    .ok ⟨h, st.live⟩
  | .limit n => .ok ⟨{ st.heap with limit := n }, st.live⟩

/-- A history of client operations. -/
def run (st : St) : List Op → Out St
  | [] => .ok st
  | op :: ops => do
    let st ← step st op
    run st ops

/-- The program at its start. -/
def start (limit : Nat) : St := ⟨Heap.init limit, []⟩

end Verif.Model.Mem
