import Verif.Props.Json
import Verif.Props.Float

/-!
# C78: numbers in JSON
-/

namespace Verif.Props.JsonNumbers
open Verif (Out)
open Verif.Model Verif.Model.Json
open Verif.Spec.Json
open Verif.Spec.Float (one Writes plain)
open Verif.Spec.Num (Separators)
open Verif.Model.Num (numberFromText)

/-- `atof` and `snprintf(.., 99, "%.10f", ..)` of `Verif.Model.Float`. -/
def doubles : Floats Float.F := ⟨fun t => (Float.atof t).getD .nan, Float.print⟩

/-- A number of the language (with the separators `tho` and `dec`) of at most ten decimal places, below 524288 or whole and at most 2^53,
in which the separators that are shown are no commas or colons, nor brackets, blanks or bytes beyond ASCII. -/
def Amount (tho dec : UInt8) (x : Float.F) : Prop :=
  ∃ t sg n, Writes tho dec t sg n ∧ (n < 524288 * one ∨ ∃ w, w ≤ 2 ^ 53 ∧ n = w * one) ∧
    (n < 1000 * one ∨ Allowed tho) ∧ (n % one = 0 ∨ Allowed dec) ∧ Float.read ⟨[tho], [dec]⟩ t = some x

/-- **C78** with the numbers of a program, without premises about the C library: the JSON text of a list is read as the list with the
entries of all lists in the opposite order. Missing: the values that `C78_partial` leaves out, and larger numbers. -/
theorem C78_numbers_partial (other : V Float.F → Out Text) {tho dec : UInt8} (hsep : Separators tho dec)
    (es : List (Text × V Float.F)) (hes : Plain (Amount tho dec) (.map es)) :
    ∃ t, jsonify doubles ⟨[tho], [dec]⟩ es = .ok t ∧
      (t.length < 2 ^ 31 → parse doubles ⟨[tho], [dec]⟩ other t = .ok (turned (.map es), false)) := by
  refine Verif.Props.Json.read_back doubles other (P := Amount tho dec) ?_ es hes
  rintro x ⟨t, sg, n, hw, hn, ht, hd, hx⟩
  obtain ⟨y, h1, h2, h3⟩ := Verif.Props.Float.C91_partial hsep hw hn
  obtain rfl : x = y := Option.some.inj (hx.symm.trans h1)
  refine ⟨sg ++ plain tho dec n, h2, ?_, ?_⟩
  · rw [plain, ← List.append_assoc]
    refine Verif.Lemmas.Json.fine_shown (dec := dec) hw.2.1 (Float.sdigits_digits _) ?_ ?_
    · rcases ht with ht | ht
      · exact .inl (Float.sdigits_length 2 _ (by unfold one at *; omega))
      · exact .inr ht
    · obtain ⟨g, j, e, hf⟩ := Float.fraction_split dec (Spec.Float.places 10 (n % one))
      rw [hf]
      rcases hd with hd | hd
      · left
        rw [hd, Float.places_zero] at e
        by_cases hg : g = []
        · rw [if_pos hg]
        · exfalso
          have hz := hf
          rw [hd, Float.places_zero, Float.fraction_zeros, if_neg hg] at hz
          cases hz
      · by_cases hg : g = []
        · exact .inl (if_pos hg)
        · exact .inr ⟨hd, g, if_neg hg, fun c hc => Float.places_mem 10 _ c (by rw [e]; exact List.mem_append_left _ hc)⟩
  · show (Float.atof _).getD _ = _
    have h3' : Float.atof (numberFromText ⟨[tho], [dec]⟩ (sg ++ plain tho dec n)) = some x := h3
    rw [h3']
    rfl

/-- In English: `-12.5` and `0.1`. -/
example : ∃ x y, Separators 44 46 ∧ Plain (Amount 44 46) (.map [([97], .num x none), ([98], .seq [.num y none, .nil])]) := by
  have hs : Separators 44 46 := by unfold Spec.Num.Separators; decide
  have w1 : Writes 44 46 [45, 49, 50, 46, 53] [45] 125000000000 :=
    ⟨by decide, .inr rfl, [49, 50], ⟨by decide, by decide⟩, .inr ⟨[53], ⟨by decide, by decide⟩, by decide, by decide, by decide⟩⟩
  have w2 : Writes 44 46 [48, 46, 49] [] 1000000000 :=
    ⟨by decide, .inl rfl, [48], ⟨by decide, by decide⟩, .inr ⟨[49], ⟨by decide, by decide⟩, by decide, by decide, by decide⟩⟩
  have ha : Allowed 46 := ⟨by decide, by decide, by decide⟩
  obtain ⟨x, hx, _⟩ := Verif.Props.Float.C91_partial hs w1 (.inl (by decide))
  obtain ⟨y, hy, _⟩ := Verif.Props.Float.C91_partial hs w2 (.inl (by decide))
  refine ⟨x, y, hs, (by decide : ([[97], [98]] : List (List UInt8)).Nodup), ⟨by decide, by decide, trivial⟩, ⟨rfl, _, _, _, w1, .inl (by decide), .inl (by decide), .inr ha, hx⟩,
    ⟨by decide, by decide, trivial⟩, ⟨⟨rfl, _, _, _, w2, .inl (by decide), .inl (by decide), .inr ha, hy⟩, trivial, trivial⟩, trivial⟩

end Verif.Props.JsonNumbers
