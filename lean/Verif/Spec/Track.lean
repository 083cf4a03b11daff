import Verif.Basic

/-!
# Memory for parsed programs: specification

A stack of blocks.
-/

namespace Verif.Spec.Track

/-- What happens to the memory for parsed programs: a new block, a new size for the `i`-th block, going back to the first `k`
blocks, and the end of the program. -/
inductive Op where
  | alloc
  | resize (i : Nat)
  | rewind (k : Nat)
  | finish
  deriving DecidableEq

/-- The blocks in use, the oldest first, and the number of blocks ever made. Each block has a number of its own. -/
def step : List Nat × Nat → Op → List Nat × Nat
  | (l, n), .alloc => (l ++ [n], n + 1)
  | (l, n), .resize i => (l.set i n, n + 1)
  | (l, n), .rewind k => (l.take k, n)
  | (_, n), .finish => ([], n)

/-- After several operations. -/
def run : List Nat × Nat → List Op → List Nat × Nat
  | s, [] => s
  | s, op :: l => run (step s op) l

end Verif.Spec.Track
