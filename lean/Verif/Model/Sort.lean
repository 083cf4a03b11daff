import Verif.Basic
import Verif.Model.Num
import Verif.Spec.Sort

/-!
# Sorting a sequence (`collections.c:600-647`)

`qsort` of the C library is any sorting procedure (`Verif.Spec.Sort.Plan`). Blocks are functions of the whole state.
-/

namespace Verif.Model.Sort
open Verif.Spec.Sort
open Verif.Model.Num (Dbl)

/-- What a block answers. -/
inductive Answer where
  | nil
  | bool (b : Bool)
  | num (x : Dbl)
  deriving DecidableEq

/-- `ctr_internal_cast2number`, `world.c:417-439`, for built-in kinds: `ctr_nil_to_number` (`base.c:126-128`) and
`ctr_bool_to_number` (`base.c:851-853`). Texts and other objects are not modelled. -/
def Answer.number : Answer → Dbl
  | .nil => .ofInt 0
  | .bool b => .ofInt (if b then 1 else 0)
  | .num x => x

/-- The state: the global variable `temp_sorter` (`collections.c:607`), the items of the sequence that is sorted, whether an error
is pending, and everything else. -/
structure St (σ : Type) where
  sorter : Nat
  items : List Nat
  err : Bool
  rest : σ

/-- The blocks of a program: `ctr_block_run` with two arguments (`collections.c:621`). -/
abbrev Blocks (σ : Type) := Nat → Nat → Nat → St σ → Out (St σ × Answer)

/-- `ctr_sort_cmp`, `collections.c:609-627`: the block in the global variable is run, its answer becomes a C `int`. The pins for
the garbage collector are not modelled. -/
def cmp {σ : Type} (blocks : Blocks σ) (a b : Nat) (s : St σ) : Out (St σ × Int) := do
  let (s, r) ← blocks s.sorter a b s
  let k ← r.number.toInt
  .ok (s, k)

/-- `qsort` carries out a procedure: negative, zero and positive results of the comparison mean less, equal and greater. The
comparison must not change the array (ISO C11 7.22.5p2), otherwise the behaviour is undefined. -/
def carryOut {σ : Type} (blocks : Blocks σ) (items : List Nat) : Plan → St σ → Out (St σ × List Nat)
  | .done p, s => .ok (s, p)
  | .ask i j lt eq gt, s =>
    match items[i]?, items[j]? with
    | some a, some b => do
      let (s, k) ← cmp blocks a b s
      if s.items ≠ items then .ub
      else if k < 0 then carryOut blocks items lt s
      else if k = 0 then carryOut blocks items eq s
      else carryOut blocks items gt s
    | _, _ => .ub

/-- `ctr_array_sort`, `collections.c:637-647`; `isBlock` tells whether the argument is a block, `qsort n` is the procedure of the
C library for `n` items. -/
def sort {σ : Type} (qsort : Nat → Plan) (blocks : Blocks σ) (isBlock : Bool) (f : Nat) (s : St σ) : Out (St σ) :=
  if isBlock = false then .ok { s with err := true }
  else do
    let s := { s with sorter := f }
    let (s', p) ← carryOut blocks s.items (qsort s.items.length) s
    .ok { s' with items := p.filterMap (s.items[·]?) }

end Verif.Model.Sort
