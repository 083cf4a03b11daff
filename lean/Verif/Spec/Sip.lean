/-!
# SipHash, as published

J.-P. Aumasson, D. J. Bernstein: SipHash: a fast short-input PRF (2012), section 2.  Words are natural numbers below
2^64, bytes natural numbers below 256.  Nothing here refers to the model.
-/

namespace Verif.Spec.Sip

/-- Addition modulo 2^64. -/
def add (x y : Nat) : Nat := (x + y) % 2 ^ 64

/-- Left rotation of a 64 bit word. -/
def rotl (x b : Nat) : Nat := (x * 2 ^ b) % 2 ^ 64 + x / 2 ^ (64 - b)

/-- The number that a list of bytes encodes, least significant byte first. -/
def le : List Nat → Nat
  | [] => 0
  | b :: bs => b + 256 * le bs

/-- The internal state. -/
structure State where
  v0 : Nat
  v1 : Nat
  v2 : Nat
  v3 : Nat

/-- SipRound (figure 2.1 and section 2.4 of the paper). -/
def sipRound (v : State) : State :=
  let v0 := add v.v0 v.v1
  let v2 := add v.v2 v.v3
  let v1 := rotl v.v1 13
  let v3 := rotl v.v3 16
  let v1 := v1 ^^^ v0
  let v3 := v3 ^^^ v2
  let v0 := rotl v0 32
  let v2 := add v2 v1
  let v0 := add v0 v3
  let v1 := rotl v1 17
  let v3 := rotl v3 21
  let v1 := v1 ^^^ v2
  let v3 := v3 ^^^ v0
  let v2 := rotl v2 32
  ⟨v0, v1, v2, v3⟩

/-- `n`-fold application of a function. -/
def iterate {α : Type} (f : α → α) : Nat → α → α
  | 0, v => v
  | n + 1, v => iterate f n (f v)

/-- `n` rounds. -/
def rounds (n : Nat) (v : State) : State := iterate sipRound n v

/-- A word is added to `v3`. -/
def xor3 (v : State) (m : Nat) : State := ⟨v.v0, v.v1, v.v2, v.v3 ^^^ m⟩

/-- A word is added to `v0`. -/
def xor0 (v : State) (m : Nat) : State := ⟨v.v0 ^^^ m, v.v1, v.v2, v.v3⟩

/-- A word is added to `v2`. -/
def xor2 (v : State) (m : Nat) : State := ⟨v.v0, v.v1, v.v2 ^^^ m, v.v3⟩

/-- All words of the state together. -/
def xorAll (v : State) : Nat := v.v0 ^^^ v.v1 ^^^ v.v2 ^^^ v.v3

/-- Compression of one message word with `c` rounds. -/
def compress (c : Nat) (v : State) (m : Nat) : State := xor0 (rounds c (xor3 v m)) m

/-- The state for a key of two words. -/
def start (k0 k1 : Nat) : State :=
  ⟨k0 ^^^ 0x736f6d6570736575, k1 ^^^ 0x646f72616e646f6d, k0 ^^^ 0x6c7967656e657261, k1 ^^^ 0x7465646279746573⟩

/-- The message followed by zero bytes up to one less than a multiple of 8, and its length modulo 256. -/
def padded (m : List Nat) : List Nat := m ++ List.replicate (7 - m.length % 8) 0 ++ [m.length % 256]

/-- Groups of eight bytes as words, `n` of them. -/
def words : Nat → List Nat → List Nat
  | 0, _ => []
  | n + 1, l => le (l.take 8) :: words n (l.drop 8)

/-- SipHash-c-d of a message under a key of 16 bytes. -/
def hash (c d : Nat) (key m : List Nat) : Nat :=
  xorAll (rounds d (xor2 ((words ((padded m).length / 8) (padded m)).foldl (compress c)
    (start (le (key.take 8)) (le ((key.drop 8).take 8)))) 0xff))

/-- Value of a decimal numeral in ASCII. -/
def numeral : List Nat → Nat := List.foldl (fun acc c => 10 * acc + (c - 48)) 0

end Verif.Spec.Sip
