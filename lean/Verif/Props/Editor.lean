import Verif.Lemmas.EditorRun
import Verif.Lemmas.Lines

/-!
# Properties of text fields (C87)
-/

namespace Verif.Props.Editor
open Verif.Model.Editor Verif.Spec.Editor
open Verif (Out)

/-- **C87, the part that holds.** For every text, and whatever a user then types, moves, removes or selects and removes, in
any order, the field shows the text that a text with a cursor has then, the cursor stands where it should, and no byte is
read or written outside the memory. Taken for granted: `memcpy` copies ranges that overlap as `memmove` does. Missing (see
below): Delete before a line end or a character of several bytes, Up from the line below an empty first line, an empty
selection, `Image write:` while the user writes. -/
theorem C87_edit_partial (l : List Sym) (hl : ∀ s ∈ l, s.Ok) (acts : List Act) (ha : ActsOk acts ⟨[], l⟩) :
    ∃ e, run false (opened (bytes l)) (acts.flatMap events) = .ok e ∧ textOf e = .ok (afterAll acts ⟨[], l⟩).text ∧
      e.idx = (afterAll acts ⟨[], l⟩).cursor := by
  obtain ⟨e, h1, h2, _⟩ := acts_show (opened_shows hl) ⟨rfl, rfl⟩ ha
  refine ⟨e, h1, ?_, h2.idx⟩
  obtain ⟨z, hm⟩ := h2.holds.mem
  rw [textOf, hm]
  exact Verif.Model.Lines.cstring_eq _ _ (no_zero h2.ok)

/-- `a`, `é`, a line end, `b`. -/
def sample : List Sym := [.ch [97], .ch [195, 169], .nl, .ch [98]]

/-- To the second line, type, up, remove the character to the left, select to the end of the text and remove that, type. -/
def sampleActs : List Act :=
  [.move .down, .typed [.ch [99], .ch [226, 130, 172]], .move .up, .backspace, .wait, .ret, .tab, .move .left, .delete,
   .remove true [.right, .down, .left] false, .move .home, .typed [.ch [100]]]

/-- The program takes part: what the user has selected backwards is replaced by a text with a line end, what was selected
forwards is cut. -/
def joinedActs : List Act :=
  [.move .toEnd, .replace [.left, .left] [.ch [120], .nl], .append [.ch [226, 130, 172]], .cut [.right, .right], .ret]

example : ActsOk joinedActs ⟨[], sample⟩ ∧
    (afterAll joinedActs ⟨[], sample⟩).syms = [.ch [120], .nl, .ch [226, 130, 172], .nl] := by
  refine ⟨⟨trivial, ⟨⟨trivial, trivial, trivial⟩, by decide, by decide, by decide, by decide⟩, ⟨by decide, by decide, by decide⟩,
    ⟨⟨trivial, trivial, trivial⟩, by decide⟩, trivial, trivial⟩, by decide⟩

example : (∀ s ∈ sample, s.Ok) ∧ ActsOk sampleActs ⟨[], sample⟩ ∧
    (afterAll sampleActs ⟨[], sample⟩).syms = [.ch [97], .nl, .ch [100], .ch [32], .ch [32], .ch [32], .ch [98]] := by
  refine ⟨by decide, ⟨trivial, ⟨by decide, by decide, by decide, by decide⟩, ?_, trivial, trivial, trivial, trivial, trivial, ?_, ?_,
    trivial, ⟨by decide, by decide, by decide, by decide⟩, trivial⟩, by decide⟩
  · show UpOk _
    decide
  · exact .inr ⟨32, _, rfl⟩
  · exact ⟨⟨trivial, trivial, trivial, trivial⟩, by decide⟩

/-- A program that shows a text with `Image write:` while the cursor stands at the beginning and nothing is selected: the
user can go on as with a new field, whatever the field showed before. -/
theorem C87_write (e₀ : Ed) (hi : e₀.idx = 0) (hs : e₀.selB = e₀.selE) (hsh : e₀.start = false) (l : List Sym) (hl : ∀ s ∈ l, s.Ok)
    (h9 : ∀ c ∈ bytes l, c ≠ 9) (acts : List Act) (ha : ActsOk acts ⟨[], l⟩) :
    ∃ e, run false e₀ (.write (bytes l) :: acts.flatMap events) = .ok e ∧ textOf e = .ok (afterAll acts ⟨[], l⟩).text ∧
      e.idx = (afterAll acts ⟨[], l⟩).cursor := by
  obtain ⟨e1, g1, g2, g3, g4, g5⟩ := write_shows hl h9 hi
  obtain ⟨e, h1, h2, _⟩ := acts_show g2 ⟨by rw [g3, g4, hs], by rw [g5, hsh]⟩ ha
  refine ⟨e, ?_, ?_, h2.idx⟩
  · rw [run, step, g1]
    exact h1
  · obtain ⟨z, hm⟩ := h2.holds.mem
    rw [textOf, hm]
    exact Verif.Model.Lines.cstring_eq _ _ (no_zero h2.ok)

example : (opened [97]).idx = 0 ∧ (opened [97]).selB = (opened [97]).selE ∧ (opened [97]).start = false ∧
    (∀ s ∈ sample, s.Ok) ∧ (∀ c ∈ bytes sample, c ≠ 9) ∧ ActsOk [.move .toEnd, .ret] ⟨[], sample⟩ :=
  ⟨rfl, rfl, rfl, by decide, by decide, trivial, trivial, trivial⟩

/-- As long as the user writes at the end of the text and removes the last character, even an `memcpy` that may do anything
with ranges that overlap does no harm. -/
theorem C87_end (acts : List Act) (hat : ∀ a ∈ acts, AtEnd a) (ha : ActsOk acts ⟨[], []⟩) (strict : Bool) :
    ∃ e, run strict (opened []) (acts.flatMap events) = .ok e ∧ textOf e = .ok (afterAll acts ⟨[], []⟩).text ∧
      e.idx = (afterAll acts ⟨[], []⟩).cursor := by
  have h0 : Shows (opened []) ⟨[], []⟩ := opened_shows (l := []) (by simp)
  rw [acts_end h0 ⟨rfl, rfl⟩ rfl hat ha strict]
  exact C87_edit_partial [] (by simp) acts ha

example : (∀ a ∈ [Act.typed [.ch [99]], .ret, .tab, .backspace], AtEnd a) ∧
    ActsOk [Act.typed [.ch [99]], .ret, .tab, .backspace] ⟨[], []⟩ := by
  refine ⟨?_, ⟨by decide, by decide, by decide, by decide⟩, trivial, trivial, trivial, trivial⟩
  intro a h
  simp only [List.mem_cons, List.not_mem_nil, or_false] at h
  rcases h with rfl | rfl | rfl | rfl <;> trivial

/-- As soon as text stands to the right of the cursor, typing copies between ranges that overlap, which the C standard
forbids for `memcpy`: `x` typed before `ab`. -/
theorem C87_violated_overlap : run true (opened [97, 98]) [.typed [120]] = .ub := by decide +kernel

/-- Up, from the second line, when the first line is empty: memory before the text is read. -/
theorem C87_violated_up : ¬ UpOk ((Doc.mk [] [.nl, .ch [97]]).down) ∧ run false (opened [13, 10, 97]) [.key .down, .key .up] = .ub := by
  constructor <;> decide +kernel

/-- Delete before `é`, then `b`: one byte that was removed comes back. The field shows `baa` instead of `ba`. -/
theorem C87_violated_delete : (run false (opened []) [.typed [195, 169], .typed [97], .key .home, .delete, .typed [98]]).bind textOf = .ok [98, 97, 97] ∧
    (afterAll [.typed [.ch [195, 169]], .typed [.ch [97]], .move .home, .delete, .typed [.ch [98]]] ⟨[], []⟩).text = [98, 97] :=
  ⟨by decide +kernel, by decide +kernel⟩

/-- `ab`, Left, Shift up and down, Backspace: `b` vanishes, not `a`, for Shift takes up an old end of the selection. -/
theorem C87_violated_shift :
    (run false (opened []) [.typed [97], .typed [98], .key .left, .shiftDown, .shiftUp, .backspace]).bind textOf = .ok [97] ∧
      (afterAll [.typed [.ch [97]], .typed [.ch [98]], .move .left, .backspace] ⟨[], []⟩).text = [98] :=
  ⟨by decide +kernel, by decide +kernel⟩

/-- `ab`, `b` selected, then Home without Shift, Backspace: `b` vanishes although the cursor stands at the beginning. -/
theorem C87_violated_home :
    (run false (opened []) [.typed [97], .typed [98], .shiftDown, .key .left, .shiftUp, .key .home, .backspace]).bind textOf = .ok [97] ∧
      (afterAll [.typed [.ch [97]], .typed [.ch [98]], .move .left, .move .home, .backspace] ⟨[], []⟩).text = [97, 98] :=
  ⟨by decide +kernel, by decide +kernel⟩

/-- Text that is typed does not replace what is selected. -/
theorem C87_violated_replace :
    (run false (opened []) [.typed [97], .typed [98], .shiftDown, .key .home, .shiftUp, .typed [99]]).bind textOf = .ok [99, 97, 98] := by decide +kernel

/-- The program writes a shorter text into the field (`Image write:`); what is typed before the next frame is stored beyond
it. -/
theorem C87_violated_write : run false (opened []) [.typed [97, 98, 99], .write [], .typed [120]] = .ub := by decide +kernel

/-- The program writes a shorter text while the old one was selected, and then removes the selection (`Image cut`). -/
theorem C87_violated_cut :
    run false (opened []) [.typed [97, 98, 99], .shiftDown, .key .home, .shiftUp, .write [97], .cut] = .ub := by decide +kernel

/-- `Image append:` takes a line feed as it is, without a carriage return; Left then makes the cursor negative. A text that
is the one byte of a control character acts as the key. -/
theorem C87_violated_append : run false (opened []) [.append [10], .key .left] = .ub ∧
    (run false (opened []) [.typed [97, 98], .append [8]]).bind textOf = .ok [97] :=
  ⟨by decide +kernel, by decide +kernel⟩

end Verif.Props.Editor
