import Verif.Basic
import Verif.Spec.Track

/-!
# Memory for parsed programs (`memory.c`, `base.c: ctr_string_eval`)

Blocks are numbers; `live` holds those that are allocated. Using or freeing any other block is undefined behaviour. The array
`memBlocks` has room for `cap` entries.
-/

namespace Verif.Model.Track

open Verif.Spec.Track (Op)

/-- The heap and the variables `memBlocks`, `numberOfMemBlocks` (the length of `blocks`) and `maxNumberOfMemBlocks`. -/
structure St where
  next : Nat
  live : List Nat
  blocks : List Nat
  cap : Nat
  deriving DecidableEq

/-- At the start, `memory.c:14-22`. -/
def init : St := ⟨0, [], [], 0⟩

/-- `ctr_heap_allocate`: a new block. -/
def allocate (s : St) : Nat × St := (s.next, { s with next := s.next + 1, live := s.next :: s.live })

/-- `ctr_heap_free`, `memory.c:166-180`. -/
def free (s : St) (b : Nat) : Out St :=
  if b ∈ s.live then .ok { s with live := s.live.erase b } else .ub

/-- `ctr_heap_allocate_tracked`, `memory.c:102-118`. The array itself is not counted as a block. -/
def allocTracked (s : St) : Out (Nat × St) :=
  let r := allocate s
  let cap := if s.blocks.length ≥ s.cap then (if s.cap = 0 then 1 else s.cap + 10) else s.cap
  if s.blocks.length < cap then .ok (r.1, { r.2 with blocks := s.blocks ++ [r.1], cap := cap }) else .ub

/-- `ctr_heap_reallocate_tracked`, `memory.c:124-131`: the old block is replaced by a new one. -/
def reallocTracked (s : St) (i : Nat) : Out St :=
  match s.blocks[i]? with
  | none => .ub
  | some b =>
    (free s b).bind fun s =>
      let r := allocate s
      .ok { r.2 with blocks := s.blocks.set i r.1 }

/-- `ctr_heap_tracker_rewind`, `memory.c:87-95`: the last blocks are freed, one after the other. `n` is the number of blocks. -/
def rewindLoop (k : Nat) : Nat → St → Out St
  | 0, s => .ok s
  | n + 1, s =>
    if n + 1 > k then
      match s.blocks[n]? with
      | none => .ub
      | some b => (free s b).bind fun s => rewindLoop k n { s with blocks := s.blocks.take n }
    else .ok s

/-- `ctr_heap_tracker_rewind`, `memory.c:87-95`. -/
def rewind (s : St) (k : Nat) : Out St := rewindLoop k s.blocks.length s

/-- The loop of `ctr_heap_free_rest`, `memory.c:145-147`. -/
def freeLoop : List Nat → St → Out St
  | [], s => .ok s
  | b :: l, s => (free s b).bind fun s => freeLoop l s

/-- `ctr_heap_free_rest`, `memory.c:143-152`. -/
def freeRest (s : St) : Out St := (freeLoop s.blocks s).bind fun s => .ok { s with blocks := [], cap := 0 }

/-- One operation. -/
def step (s : St) : Op → Out St
  | .alloc => (allocTracked s).bind fun r => .ok r.2
  | .resize i => reallocTracked s i
  | .rewind k => rewind s k
  | .finish => freeRest s

/-- Several operations. -/
def run : St → List Op → Out St
  | s, [] => .ok s
  | s, op :: l => (step s op).bind fun s => run s l

/-- `n` blocks for a tree. -/
def allocMany : Nat → St → Out (List Nat × St)
  | 0, s => .ok ([], s)
  | n + 1, s => (allocTracked s).bind fun r => (allocMany n r.2).bind fun q => .ok (r.1 :: q.1, q.2)

/-- What the evaluation of a text answers: a number, text, sequence or map, which is a copy, or a piece of code, which refers
to the `k`-th block of the tree (`ctr_build_block`, `base.c:2434-2439`, `walker.c:242-244`). -/
inductive Value where
  | data
  | code (k : Nat)
  deriving DecidableEq

/-- What the program holds afterwards: nothing (`Nil`), data, or code in a block. -/
inductive Held where
  | nothing
  | data
  | code (b : Nat)
  deriving DecidableEq

/-- `ctr_string_eval`, `base.c:1664-1694`: parsing makes `n` blocks (the buffer of the lexer and the tree); `value` is what the
evaluation answers, or `none` if the text cannot be parsed. The answer: what the program holds, `ctr_source_mapping`, and the
memory. -/
def eval (s : St) (n : Nat) (value : Option Value) : Out (Held × Bool × St) :=
  let mark := s.blocks.length
  (allocMany n s).bind fun r =>
    match value with
    | none => .ok (.nothing, false, r.2)
    | some v =>
      (rewind r.2 mark).bind fun s' =>
        match v with
        | .data => .ok (.data, true, s')
        | .code k => match r.1[k]? with | none => .ub | some b => .ok (.code b, true, s')

/-- `ctr_block_run`, `base.c:2448-2470`, reads the block of the code. -/
def use (s : St) : Held → Out Unit
  | .code b => if b ∈ s.live then .ok () else .ub
  | _ => .ok ()

end Verif.Model.Track
