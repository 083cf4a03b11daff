/-!
Specification of a memory manager, independent of the model: the blocks a program holds, each with the
contents it may count on. `none` is a byte nothing is promised about.
-/

namespace Verif.Spec.Mem

/-- Known contents of a block. -/
abbrev Known := List (Option UInt8)

/-- A new block of `n` bytes; `fill` is what every new byte holds. -/
def alloc (fill : Option UInt8) (cs : List Known) (n : Nat) : List Known :=
  cs ++ [List.replicate n fill]

/-- Releasing block `k`. -/
def release (cs : List Known) (k : Nat) : List Known := cs.eraseIdx k

/-- A block resized to `n` bytes keeps the bytes that fit; nothing is promised about the bytes added. -/
def resized (c : Known) (n : Nat) : Known := c.take n ++ List.replicate (n - c.length) none

/-- Resizing block `k`. -/
def resize (cs : List Known) (k n : Nat) : List Known := cs.modify k (resized · n)

/-- Byte `i` of the block after `bytes` were stored at `off`. -/
def storedByte (c : Known) (off : Nat) (bytes : List UInt8) (i : Nat) : Option UInt8 :=
  if off ≤ i ∧ i < off + bytes.length then bytes[i - off]? else c[i]?.join

/-- Storing bytes in a block; a store that leaves the block is not made. -/
def stored (c : Known) (off : Nat) (bytes : List UInt8) : Known :=
  if off + bytes.length ≤ c.length then (List.range c.length).map (storedByte c off bytes) else c

/-- Storing bytes in block `k`. -/
def store (cs : List Known) (k off : Nat) (bytes : List UInt8) : List Known :=
  cs.modify k (stored · off bytes)

/-- The bytes `d` of a block hold what is known about it. -/
def Holds (c : Known) (d : List UInt8) : Prop :=
  c.length ≤ d.length ∧ ∀ (i : Nat) (x : UInt8), c[i]? = some (some x) → d[i]? = some x

/-- Half-open byte ranges `[a, a+n)` and `[b, b+m)` have no byte in common. -/
def Apart (a n b m : Nat) : Prop := ∀ x, ¬ (a ≤ x ∧ x < a + n ∧ b ≤ x ∧ x < b + m)

end Verif.Spec.Mem
