import Verif.Model.GC
import Verif.Model.Float

/-!
# The memory report and when memory is cleaned (`system.c`)

Model choices:
* The amount of allocated memory (`ctr_gc_alloc`, see `Verif.Model.Mem`) is a parameter here.
* The conversion of the figures to numbers of the program (`ctr_build_number_from_float`) is exact, because they
  are `int`s; it is not shown.
* The watch object for debugging (`system.c:68-71`) is `NULL` and is left out.
-/

namespace Verif.Model.Report

open Verif.Model.GC Verif.Model.Float

/-- `ctr_gc_object_counter`, `ctr_gc_dust_counter`, `ctr_gc_kept_counter`, `ctr_gc_sticky_counter`, `system.c:3-6`. -/
structure Counts where
  objects : Nat
  dust : Nat
  kept : Nat
  sticky : Nat
  deriving DecidableEq, Repr

/-- Loop of `ctr_gc_sweep` with its counters, `system.c:64-140` (65, 72, 132, 133); counting beyond the range of `int`
is undefined. The other counters never pass `objects`, so only that one is checked. -/
def sweepCount (all : Bool) : Nat → Heap → Option Nat → Option Nat → Counts → Out (Heap × Counts)
  | _, h, _, none, n => .ok (h, n)
  | 0, _, _, some _, _ => .ub
  | fuel + 1, h, prev, some c, n =>
    if 2147483647 < n.objects + 1 then .ub
    else
      match h.mem c with
      | none => .ub
      | some o =>
        if (o.mark = false ∧ o.sticky = false) ∨ all = true then do
          let h ← unlink h prev o.gnext
          sweepCount all fuel { h with mem := upd h.mem c none } prev o.gnext
            { n with objects := n.objects + 1, dust := n.dust + 1 }
        else
          sweepCount all fuel { h with mem := upd h.mem c (some { o with mark := false }) } (some c) o.gnext
            { n with objects := n.objects + 1, kept := n.kept + 1,
                     sticky := if o.sticky = true then n.sticky + 1 else n.sticky }

/-- `ctr_gc_internal_collect` with its counters, `system.c:147-163`; `ctr_gc_collect`, `system.c:187-190`. -/
def collectCount (h : Heap) (contexts : List Nat) : Out (Heap × Counts) := do
  let h ← markRoots h contexts
  sweepCount false (h.fresh + 1) h none h.first ⟨0, 0, 0, 0⟩

/-- `ctr_gc_memory`, `system.c:208-224`. -/
def report (alloc : Nat) (n : Counts) : List Nat := [alloc, n.objects, n.sticky, n.kept, n.dust]

/-- `ctr_gc_memlimit * 0.8`, `system.c:166`: the limit is converted to `double`, the literal is the `double` nearest to
8 / 10. -/
def threshold (limit : Nat) : F := mul (rnd false limit 1) (rnd false 8 10)

/-- Whether `ctr_gc_cycle` collects, `system.c:165-169` (called after every statement, `walker.c:332`); `mode` is a C
`int`, `&` works on its two's complement. -/
def cycle (mode : Int) (alloc limit : Nat) : Bool :=
  (decide (mode % 2 = 1) && Num.Dbl.gt (rnd false alloc 1).dbl (threshold limit).dbl) || decide (mode / 4 % 2 = 1)

open Verif.Spec.GC (Op)

/-- A step of a program together with the counters: only collections change them. -/
def step (s : St × Counts) : Op → Out (St × Counts)
  | .collect => do
    let (h, n) ← collectCount s.1.heap s.1.ctxs
    .ok ({ s.1 with heap := h }, n)
  | op => do
    let t ← GC.step s.1 op
    .ok (t, s.2)

/-- A program, from the first step on. -/
def run : St × Counts → List Op → Out (St × Counts)
  | s, [] => .ok s
  | s, op :: ops => do
    let s ← step s op
    run s ops

/-- Before the first collection the counters are zero (variables with static storage, `system.c:3-6`). -/
def start : St × Counts := (GC.start, ⟨0, 0, 0, 0⟩)

end Verif.Model.Report
