import Verif.Lemmas.Lines

/-!
# Properties of line endings (C86)
-/

namespace Verif.Props.Lines
open Verif.Model.Lines Verif.Spec.Lines
open Verif (Out)

/-- **C86, the part that holds.** What `Image text` answers after `Image write:` has the same lines as the text that was
written, with a carriage return and a line feed between any two, and one blank for each tab. No byte is read or written
outside the memory. Missing: texts that end with a carriage return (see below). -/
theorem C86_write_partial (t : Bytes) (h0 : ∀ c ∈ t, c ≠ 0) (hend : ¬ EndsCr t) :
    writeText t = .ok (joined ((lines t).map (List.map blank))) := by
  rw [writeText_eq t h0, ← written_lines t 0 (by decide)]
  unfold EndsCr at hend
  simp [rest, hend]

/-- `a`, carriage return, `b`, line feed, tab, both, `c`. -/
def mixed : Bytes := [97, 13, 98, 10, 9, 13, 10, 99]

example : (∀ c ∈ mixed, c ≠ 0) ∧ ¬ EndsCr mixed ∧
    joined ((lines mixed).map (List.map blank)) = [97, 13, 10, 98, 13, 10, 32, 13, 10, 99] ∧
    joined ((lines mixed).map (List.map blank)) ≠ mixed := by
  refine ⟨by decide, by unfold EndsCr; decide, by decide, by decide⟩

/-- A text that ends with a carriage return keeps it, but without the line feed that the other lines get. -/
theorem C86_last_violated (t : Bytes) (h0 : ∀ c ∈ t, c ≠ 0) (hend : EndsCr t) :
    ∃ r, writeText t = .ok r ∧ r ++ [10] = joined ((lines t).map (List.map blank)) := by
  refine ⟨_, writeText_eq t h0, ?_⟩
  rw [← written_lines t 0 (by decide)]
  unfold EndsCr at hend
  simp [rest, hend]

example : (∀ c ∈ ([97, 13] : Bytes), c ≠ 0) ∧ EndsCr [97, 13] := ⟨by decide, by unfold EndsCr; decide⟩

/-- Writing what was read changes nothing, for every text. -/
theorem C86_again (t : Bytes) (h0 : ∀ c ∈ t, c ≠ 0) : ∃ r, writeText t = .ok r ∧ writeText r = .ok r := by
  refine ⟨_, writeText_eq t h0, ?_⟩
  rw [writeText_eq _ (written_ne t 0 h0), written_written t 0 0 (by decide) (by decide)]

example : ∀ c ∈ mixed, c ≠ 0 := by decide

/-- `Media clipboard` does the same, if there is a zero byte behind its memory. -/
theorem C86_clipboard_partial (slack : Nat) (hs : 0 < slack) (t : Bytes) (h0 : ∀ c ∈ t, c ≠ 0) :
    clipboard slack t = writeText t := by
  obtain ⟨s, rfl⟩ : ∃ s, slack = s + 1 := ⟨slack - 1, by omega⟩
  rw [writeText_eq t h0]
  obtain ⟨k, e⟩ := normalize_eq t (List.replicate s 0) h0
  unfold clipboard
  rw [List.replicate_succ, e]
  exact cstring_eq _ _ (written_ne t 0 h0)

example : 0 < 3 ∧ ∀ c ∈ mixed, c ≠ 0 := by decide

/-- Without such a byte, as with the memory of the C library, every clipboard makes it read outside its memory. -/
theorem C86_clipboard_violated (t : Bytes) (h0 : ∀ c ∈ t, c ≠ 0) : clipboard 0 t = .ub := by
  have : (0 : UInt8) ∉ t := fun h => h0 0 h rfl
  simp only [clipboard, List.replicate_zero, List.append_nil, normalize, cstring, if_neg this]
  rfl

example : ∀ c ∈ ([97] : Bytes), c ≠ 0 := by decide

end Verif.Props.Lines
