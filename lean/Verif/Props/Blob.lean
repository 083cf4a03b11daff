import Verif.Lemmas.Blob

/-!
# Properties of blobs (C89)
-/

namespace Verif.Props.Blob
open Verif.Model.Blob Verif.Spec.Blob
open Verif.Model (Seq)
open Verif (Out)

/-- **C89, the part that holds.** A new blob holds zeros. Whatever sequences it is filled with, one after the other, each
part of it is answered as the numbers that were put there last, in a sequence as if they had been appended to a new one;
nothing is read or written outside the blob. Missing: numbers that are no `char` with a sign, sequences that were shifted,
sequences that are longer than the blob and parts outside it (see below). -/
theorem C89_blob_partial (size : Nat) (ls : List (List Int)) (hl : ∀ l ∈ ls, l.length ≤ size ∧ ∀ v ∈ l, Fits v)
    (p k : Nat) (hp : 1 ≤ p) (hk : p + k ≤ size + 1) (hint : InInt (p + k)) :
    ∃ m s, fills (new size) ls = .ok m ∧ seqFrom Seq.new (part (filledAll (List.replicate size 0) ls) p k) = .ok s ∧
      read m p k = .ok s := by
  obtain ⟨m, h1, h2, h3⟩ := fills_eq ls (new size) (by simpa [new] using hl)
  have hsz : m.length = size := by rw [h2]; simp [new]
  have hnew : (new size).map ofByte = List.replicate size 0 := by simp [new, ofByte]
  rw [hnew] at h3
  obtain ⟨s, g1, _⟩ := seqFrom_rep (part (filledAll (List.replicate size 0) ls) p k) Verif.Model.Seq.rep_new
  refine ⟨m, s, h1, g1, ?_⟩
  rw [Verif.Model.Blob.read, if_pos hint, Int.toNat_natCast, readLoop_eq m k p _ hp (by omega), h3, g1]

example : (∀ l ∈ [[1, -2, 3], [7]], l.length ≤ 5 ∧ ∀ v ∈ (l : List Int), Fits v) ∧
    part (filledAll (List.replicate 5 0) [[1, -2, 3], [7]]) 1 4 = [7, -2, 3, 0] := by
  constructor <;> decide

/-- A text that is put into a blob is answered by it, up to the first NUL byte. -/
theorem C89_text (t : Verif.Model.Text) (h : ∀ c ∈ t, c ≠ 0) : toText (utf8 t) = .ok t :=
  Verif.Model.Lines.cstring_eq t [] h

example : ∀ c ∈ ([195, 169, 33] : Verif.Model.Text), c ≠ 0 := by decide

/-- Bytes from 128 on: filling with them is undefined, and reading those of a text answers negative numbers. -/
theorem C89_violated_byte : fills (new 4) [[200]] = .ub ∧ read (utf8 [195, 169]) 1 2 = seqFrom Seq.new [-61, -87] := by
  constructor <;> decide +kernel

/-- A sequence from which an element was shifted off: that element is stored nevertheless, in front of the others. -/
theorem C89_violated_shift :
    ∃ s s', seqFrom Seq.new [1, 2, 3] = .ok s ∧ @Seq.shift Int ⟨0⟩ s = .ok (s', 1) ∧ fill (new 4) s' = .ok [1, 2, 3, 0] :=
  ⟨_, _, rfl, rfl, by decide +kernel⟩

/-- Nothing keeps a program from writing and reading outside the blob. -/
theorem C89_violated_outside : fills (new 2) [[1, 2, 3]] = .ub ∧ read (new 2) 2 2 = .ub ∧ read (new 2) 0 1 = .ub := by
  refine ⟨?_, ?_, ?_⟩ <;> decide +kernel

end Verif.Props.Blob
