import Verif.Lemmas.Num

/-!
# Properties of numbers: C31, C40, C41, C48
-/

namespace Verif.Props.Num
open Verif.Model Verif.Model.Num Verif.Spec.Num

/-! ### C31 -/

/-- C31, part: a plain number (sign, digits, fraction) is formatted by grouping its digits and replacing the decimal
point, and reading the result back gives the number; for every pair of usable separators of one byte, and as
long as the result fits into the target (100 bytes in `base.c:1542`).  Missing: longer numbers. -/
theorem C31_partial {tho dec : UInt8} (hsep : Separators tho dec) {sg ds fr : Text} (hs : Sign sg) (hd : Digits ds)
    (hf : Fraction fr) (hlen : (sg ++ ds ++ fr).length + (ds.length - 1) / 3 ≤ 100) :
    ∃ u : Text, international ⟨[tho], [dec]⟩ 100 (sg ++ ds ++ fr) = .ok u ∧
      u = sg ++ group tho ds ++ localFraction dec fr ∧
      national ⟨[tho], [dec]⟩ (u.length + 1) u = sg ++ ds ++ fr := by
  refine ⟨_, ?_, rfl, national_format hsep hs hd hf _ (by omega)⟩
  rw [international_plain tho dec 100 hs hd hf, if_pos (by omega)]

/-- `-1234567.5` in English and in Dutch. -/
example : Separators 44 46 ∧ Separators 46 44 ∧ Separators 32 44 ∧ Sign [45] ∧
    Digits [49, 50, 51, 52, 53, 54, 55] ∧ Fraction [46, 53] ∧
    group 44 [49, 50, 51, 52, 53, 54, 55] = [49, 44, 50, 51, 52, 44, 53, 54, 55] ∧
    international ⟨[46], [44]⟩ 100 [45, 49, 50, 51, 52, 53, 54, 55, 46, 53]
      = .ok [45, 49, 46, 50, 51, 52, 46, 53, 54, 55, 44, 53] := by
  refine ⟨by unfold Separators; decide, by unfold Separators; decide, by unfold Separators; decide, Or.inr rfl,
    ⟨by decide, by decide⟩, Or.inr ⟨[53], ⟨by decide, by decide⟩, rfl⟩, ?_, by decide⟩
  unfold group
  simp [group]

/-- C31, part: a number is shown in the form of the language and what is read back from the shown text is what
`%.10f` printed without the zeros at the end of the fraction.  Missing: numbers that need more than 40 bytes. -/
theorem C31_number_partial {tho dec : UInt8} (hsep : Separators tho dec) {sg ds f : Text} (hs : Sign sg)
    (hd : Digits ds) (hf : Digits f)
    (hlen : (sg ++ ds ++ 46 :: f).length + (ds.length - 1) / 3 ≤ 40) :
    ∃ u z : Text, numberToString ⟨[tho], [dec]⟩ (sg ++ ds ++ 46 :: f) none = .ok u ∧ (∀ c ∈ z, c = 48) ∧
      ((f = z ∧ u = sg ++ group tho ds ∧ numberFromText ⟨[tho], [dec]⟩ u = sg ++ ds) ∨
       (∃ g, f = g ++ z ∧ Digits g ∧ g.getLast? ≠ some 48 ∧ u = sg ++ group tho ds ++ dec :: g ∧
          numberFromText ⟨[tho], [dec]⟩ u = sg ++ ds ++ 46 :: g)) := by
  obtain ⟨fr, z, hfr, hz, hst, hcase⟩ := strip_spec sg ds f hd hf
  have hle : fr.length ≤ (46 :: f).length := by
    rcases hcase with ⟨e, _⟩ | ⟨e, _⟩
    · rw [e]; simp
    · rw [e, List.length_append]; omega
  have hl2 : (sg ++ ds ++ fr).length + (ds.length - 1) / 3 ≤ 40 := by
    simp only [List.length_append] at hlen ⊢
    omega
  have hshow : numberToString ⟨[tho], [dec]⟩ (sg ++ ds ++ 46 :: f) none
      = .ok (sg ++ group tho ds ++ localFraction dec fr) := by
    unfold numberToString
    simp only [hst, Out.ok_bind]
    rw [international_plain tho dec 100 hs hd hfr, if_pos (by omega), Out.ok_bind, format_length, if_pos (by omega)]
  have hread : numberFromText ⟨[tho], [dec]⟩ (sg ++ group tho ds ++ localFraction dec fr) = sg ++ ds ++ fr := by
    unfold numberFromText
    dsimp only
    rw [List.take_of_length_le (by rw [format_length]; omega)]
    have htw : (sg ++ group tho ds ++ localFraction dec fr).takeWhile (· ≠ 0)
        = sg ++ group tho ds ++ localFraction dec fr := by
      have := List.takeWhile_append_of_pos (p := fun c : UInt8 => decide (c ≠ 0)) (l₂ := []) (fun c hc => by
        simpa using format_nonzero hsep hs hd hfr c hc)
      simpa using this
    rw [htw, national_format hsep hs hd hfr _ (by omega)]
  refine ⟨_, z, hshow, hz, ?_⟩
  rcases hcase with ⟨e, e2⟩ | ⟨e, hl⟩
  · left
    rw [e] at hread ⊢
    rw [hread]
    exact ⟨e2, by simp [localFraction], by simp⟩
  · right
    rcases hfr with e0 | ⟨g, hg, e0⟩
    · rw [e0, List.nil_append] at e
      have := hz 46 (by rw [← e]; simp)
      exact absurd this (by decide)
    · rw [e0] at e hread ⊢
      rw [hread]
      refine ⟨g, by simpa using e, hg, ?_, by simp [localFraction], rfl⟩
      rw [e0] at hl
      intro hgl
      apply hl
      rw [List.getLast?_cons, hgl]
      rfl

example : Sign [45] ∧ Digits [49, 50, 51, 52] ∧ Digits [53, 48, 48, 48, 48, 48, 48, 48, 48, 48] ∧
    numberToString ⟨[46], [44]⟩ [45, 49, 50, 51, 52, 46, 53, 48, 48, 48, 48, 48, 48, 48, 48, 48] none
      = .ok [45, 49, 46, 50, 51, 52, 44, 53] ∧
    numberFromText ⟨[46], [44]⟩ [45, 49, 46, 50, 51, 52, 44, 53] = [45, 49, 50, 51, 52, 46, 53] :=
  ⟨Or.inr rfl, ⟨by decide, by decide⟩, ⟨by decide, by decide⟩, by decide, by decide⟩

/-- The digits of 2^250. -/
def big : Text := (Nat.toDigits 10 (2 ^ 250)).map (fun c => UInt8.ofNat c.toNat)

/-- The digits of 2^100. -/
def medium : Text := (Nat.toDigits 10 (2 ^ 100)).map (fun c => UInt8.ofNat c.toNat)

/-- C31 is false as stated.  Showing 2^250 writes outside the buffer.  2^100 is shown, but only the first 40
bytes are read back, so the number read is ten times smaller. -/
theorem C31_violated :
    numberToString ⟨[44], [46]⟩ (big ++ 46 :: List.replicate 10 48) none = .ub ∧
      ∃ u : Text, numberToString ⟨[44], [46]⟩ (medium ++ 46 :: List.replicate 10 48) none = .ok u ∧
        numberFromText ⟨[44], [46]⟩ u = medium.take 30 ∧ medium.length = 31 := by
  refine ⟨Out.of_isUb (by decide +kernel), ?_⟩
  obtain ⟨u, h1, h2⟩ := Out.of_sat
    (o := numberToString ⟨[44], [46]⟩ (medium ++ 46 :: List.replicate 10 48) none)
    (p := fun u => decide (numberFromText ⟨[44], [46]⟩ u = medium.take 30)) (by decide +kernel)
  exact ⟨u, h1, of_decide_eq_true h2, by decide +kernel⟩

/-- Beyond 99 bytes the memory is always violated: a plain number is shown exactly when the formatted text leaves
room for the final zero byte. -/
theorem C31_overflow {tho dec : UInt8} {sg ds f : Text} (hs : Sign sg) (hd : Digits ds) (hf : Digits f)
    (hz : ∀ c ∈ f, c = 48) :
    (∃ u, numberToString ⟨[tho], [dec]⟩ (sg ++ ds ++ 46 :: f) none = .ok u) ↔
      (sg ++ ds).length + (ds.length - 1) / 3 ≤ 99 := by
  obtain ⟨fr, z, hfr, _, hst, hcase⟩ := strip_spec sg ds f hd hf
  have hnil : fr = [] := by
    rcases hcase with ⟨e, _⟩ | ⟨e, hl⟩
    · exact e
    · exfalso
      rcases hfr with e0 | ⟨g, hg, e0⟩
      · rw [e0] at e
        rw [e0] at hst
        have : (46 : UInt8) ∈ z := by rw [← List.nil_append z, ← e]; simp
        rename_i hzz
        exact absurd (hzz 46 this) (by decide)
      · rw [e0] at e hl
        have hmem : ∀ c ∈ g, c = 48 := fun c hc => hz c (by
          have e' : f = g ++ z := by simpa using e
          rw [e']; exact List.mem_append_left _ hc)
        obtain ⟨g0, c, hgc⟩ : ∃ (g0 : Text) (c : UInt8), g = g0 ++ [c] := by
          rcases List.eq_nil_or_concat g with e1 | ⟨g0, c, e1⟩
          · exact absurd e1 hg.1
          · exact ⟨g0, c, by rw [e1, List.concat_eq_append]⟩
        apply hl
        rw [hgc, ← List.cons_append, List.getLast?_append]
        have := hmem c (by rw [hgc]; simp)
        rw [this]
        simp
  rw [hnil] at hst
  unfold numberToString
  simp only [hst, Out.ok_bind]
  rw [international_plain tho dec 100 hs hd (Or.inl rfl)]
  have hl0 : (sg ++ ds ++ []).length = (sg ++ ds).length := by simp
  by_cases h : (sg ++ ds).length + (ds.length - 1) / 3 ≤ 99
  · rw [if_pos (by omega), Out.ok_bind, format_length, if_pos (by omega)]
    exact ⟨fun _ => h, fun _ => ⟨_, rfl⟩⟩
  · refine ⟨fun hx => ?_, fun hx => absurd hx h⟩
    obtain ⟨u, hu⟩ := hx
    by_cases h2 : (sg ++ ds ++ []).length + (ds.length - 1) / 3 ≤ min 100 128
    · rw [if_pos h2, Out.ok_bind, format_length, if_neg (by omega)] at hu
      cases hu
    · rw [if_neg h2] at hu
      cases hu

example : Digits (List.replicate 76 49) ∧ Digits (List.replicate 10 48) ∧
    ¬ (([] : Text) ++ List.replicate 76 49).length + ((List.replicate 76 (49 : UInt8)).length - 1) / 3 ≤ 99 ∧
    (([] : Text) ++ List.replicate 75 49).length + ((List.replicate 75 (49 : UInt8)).length - 1) / 3 ≤ 99 :=
  ⟨⟨by decide, by decide⟩, ⟨by decide, by decide⟩, by decide, by decide⟩

/-! ### C40 -/

/-- C40, part: for finite bounds whose nearest whole numbers fit in an `int` and are at most 2147483647 apart,
`between:and:` answers a whole number between them, for all draws of the random number generator.
Missing: bounds further apart or outside the range of `int`. -/
theorem C40_partial {m n : Int} {k l : Nat} {a b : Int} (ha : Nearest m k a) (hb : Nearest n l b)
    (hia : InInt a) (hib : InInt b) (hspan : (a - b).natAbs ≤ 2147483647) (draws : List Int)
    (hdraws : ∀ r ∈ draws, 0 ≤ r) :
    ∃ v : Int, between (.fin m k) (.fin n l) draws = .ok (.ofInt v) ∧ min a b ≤ v ∧ v ≤ max a b := by
  have h := between_nearest ha hb draws
  rw [h]
  by_cases hgt : a > b
  · rw [if_pos hgt]
    obtain ⟨v, h1, h2, h3⟩ := roll_range (lo := b) (hi := a) (by omega) hib hia (by omega) draws hdraws
    exact ⟨v, h1, by omega, by omega⟩
  · rw [if_neg hgt]
    obtain ⟨v, h1, h2, h3⟩ := roll_range (lo := a) (hi := b) (by omega) hia hib (by omega) draws hdraws
    exact ⟨v, h1, by omega, by omega⟩

/-- Bounds 2.5 and -1. -/
example : Nearest 5 1 3 ∧ Nearest (-1) 0 (-1) ∧ InInt 3 ∧ InInt (-1) ∧ ((3 : Int) - (-1)).natAbs ≤ 2147483647 ∧
    between (.fin 5 1) (.fin (-1) 0) [12] = .ok (.ofInt 1) :=
  ⟨by unfold Nearest; decide, by unfold Nearest; decide, by decide, by decide, by decide, by decide⟩

/-- C40: every whole number between the bounds is answered for some draw. -/
theorem C40_reach {m n : Int} {k l : Nat} {a b : Int} (ha : Nearest m k a) (hb : Nearest n l b)
    (hia : InInt a) (hib : InInt b) (hspan : (a - b).natAbs ≤ 2147483647) (v : Int) (h1 : min a b ≤ v)
    (h2 : v ≤ max a b) :
    ∃ r : Int, 0 ≤ r ∧ r ≤ randMax ∧ between (.fin m k) (.fin n l) [r] = .ok (.ofInt v) := by
  refine ⟨v - min a b, by omega, by unfold randMax; omega, ?_⟩
  rw [between_nearest ha hb]
  by_cases hgt : a > b
  · rw [if_pos hgt]
    have e : min a b = b := by omega
    rw [e]
    exact roll_reach (by omega) hib hia (by omega) v (by omega) (by omega)
  · rw [if_neg hgt]
    have e : min a b = a := by omega
    rw [e]
    exact roll_reach (by omega) hia hib (by omega) v (by omega) (by omega)

example : Nearest 0 0 0 ∧ Nearest 10 0 10 ∧ min (0 : Int) 10 ≤ 7 ∧ (7 : Int) ≤ max 0 10 :=
  ⟨by unfold Nearest; decide, by unfold Nearest; decide, by decide, by decide⟩

/-- C40 is false as stated: with bounds outside the range of `int`, or too far apart, the conversion or the
subtraction is undefined, whatever is drawn. -/
theorem C40_violated (draws : List Int) :
    between (.fin 0 0) (.fin 4294967296 0) draws = .ub ∧
      between (.fin (-2000000000) 0) (.fin 2000000000 0) draws = .ub := by
  constructor
  · rfl
  · rfl

/-! ### C41 -/

/-- C41: by zero, all three messages leave the receiver as it is, answer it and raise an error; otherwise no error
is raised, `÷` and `modulo:` answer a new number and leave the receiver, `divide by:` stores the quotient. -/
theorem C41 (quot : Dbl → Dbl → Dbl) (s : NumState) (b : Dbl) :
    ((∃ k, b = .fin 0 k) →
      divide quot s b = (.self, ⟨s.value, true⟩) ∧ div quot s b = (.self, ⟨s.value, true⟩) ∧
        modulo quot s b = (.self, ⟨s.value, true⟩)) ∧
    ((∀ k, b ≠ .fin 0 k) →
      divide quot s b = (.number (quot s.value b), s) ∧ div quot s b = (.self, ⟨quot s.value b, s.error⟩) ∧
        modulo quot s b = (.number (quot s.value b), s)) := by
  constructor
  · rintro ⟨k, e⟩
    subst e
    exact ⟨rfl, rfl, rfl⟩
  · intro h
    have hn : ¬ b.isZero = true := by
      cases b with
      | nan => decide
      | inf n => cases n <;> decide
      | fin m k =>
        intro hz
        have : m = 0 := by simpa [Dbl.isZero] using hz
        exact h k (by rw [this])
    refine ⟨?_, ?_, ?_⟩
    · rw [divide, if_neg hn]
    · rw [div, if_neg hn]
    · rw [modulo, if_neg hn]

/-- Zero is one of these, NaN, the infinities and 1/8 are not. -/
example : (∃ k, Dbl.fin 0 3 = .fin 0 k) ∧ (∀ k, Dbl.nan ≠ .fin 0 k) ∧ (∀ k, Dbl.inf true ≠ .fin 0 k) ∧
    (∀ k, Dbl.fin 1 3 ≠ .fin 0 k) :=
  ⟨⟨3, rfl⟩, by simp, by simp, by simp⟩

/-! ### C48 -/

/-- C48, part: of a whole number in the range of `int`, `odd?` and `even?` answer the parity.  Missing: larger
numbers. -/
theorem C48_partial (n : Int) (h : InInt n) :
    ∃ o e : Bool, odd (.ofInt n) = .ok o ∧ even (.ofInt n) = .ok e ∧ (o = true ↔ ∃ j, n = 2 * j + 1) ∧
      (e = true ↔ ∃ j, n = 2 * j) ∧ (o = true ↔ e = false) := by
  refine ⟨n.tmod 2 != 0, !(n.tmod 2 != 0), ?_, ?_, ?_, ?_, ?_⟩
  · rw [odd, toInt_ofInt h, Out.ok_bind]
  · rw [even, toInt_ofInt h, Out.ok_bind]
  · simp only [bne_iff_ne, ne_eq, ← Int.dvd_iff_tmod_eq_zero]
    constructor
    · intro hh
      exact ⟨n / 2, by omega⟩
    · intro ⟨j, hj⟩
      omega
  · simp only [Bool.not_eq_true', bne_eq_false_iff_eq, ← Int.dvd_iff_tmod_eq_zero]
    exact ⟨fun ⟨j, hj⟩ => ⟨j, hj⟩, fun ⟨j, hj⟩ => ⟨j, hj⟩⟩
  · simp

example : InInt (-3) ∧ odd (.ofInt (-3)) = .ok true ∧ even (.ofInt (-3)) = .ok false := by decide

/-- C48 is false as stated: the number is converted to `int`, which is undefined for 2147483648. -/
theorem C48_violated : odd (.ofInt 2147483648) = .ub ∧ even (.ofInt 2147483648) = .ub := by
  constructor
  · rfl
  · rfl

end Verif.Props.Num
