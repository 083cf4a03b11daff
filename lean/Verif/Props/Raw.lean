import Verif.Model.Raw
import Verif.Spec.Raw
import Verif.Props.Float

/-!
# Numbers as texts that are the same in all languages (C108)
-/

namespace Verif.Props.Raw
open Verif Verif.Model Verif.Model.Float Verif.Model.Raw
open Verif.Spec.Float (one places fraction plain Writes value)
open Verif.Spec.Num (Separators Digits Sign group)
open Verif.Spec.Raw

/-- Texts without commas are read as in English. -/
theorem national_same : ∀ (fuel : Nat) (t : Text), (∀ c ∈ t, c ≠ 44) → t.length < fuel →
    Num.national ⟨[44], [46]⟩ fuel t = t
  | 0, _, _, h => absurd h (by omega)
  | _ + 1, [], _, _ => rfl
  | fuel + 1, c :: t, hc, hl => by
    have ih := national_same fuel t (fun d hd => hc d (List.mem_cons_of_mem _ hd)) (by
      rw [List.length_cons] at hl; omega)
    have h44 : c ≠ 44 := hc c List.mem_cons_self
    unfold Num.national
    rw [if_neg (by simpa [List.isPrefixOf] using Ne.symm h44)]
    split
    · rename_i h
      have h46 : 46 = c := by simpa [List.isPrefixOf] using h
      subst h46
      show 46 :: Num.national _ fuel t = _
      rw [ih]
    · rw [ih]

theorem readRaw_eq {t : Text} (h : ∀ c ∈ t, c ≠ 44) : readRaw t = Float.read ⟨[44], [46]⟩ t := by
  unfold readRaw Float.read Num.numberFromText
  dsimp only
  rw [national_same _ _ (fun c hc => h c (List.mem_of_mem_take ((List.takeWhile_prefix _).mem hc))) (Nat.lt_succ_self _)]

theorem english : Separators 44 46 := by unfold Separators; decide

theorem bare_mem (n : Nat) : ∀ c ∈ bare n, c ≠ 44 := by
  intro c hc
  unfold bare at hc
  rcases List.mem_append.1 hc with hc | hc
  · exact Num.digit_ne ((sdigits_digits _).2 c hc) (by decide)
  · obtain ⟨g, j, e, hf⟩ := fraction_split 46 (places 10 (n % one))
    rw [hf] at hc
    split at hc
    · exact absurd hc List.not_mem_nil
    · rcases List.mem_cons.1 hc with rfl | hc
      · decide
      · exact Num.digit_ne (places_mem 10 _ c (by rw [e]; exact List.mem_append_left _ hc)) (by decide)

theorem filter_bare {sg : Text} (n : Nat) :
    (sg ++ plain 44 46 n).filter (· ≠ 44) = (sg ++ bare n).filter (· ≠ 44) := by
  unfold plain bare
  rw [List.filter_append, List.filter_append, List.filter_append, List.filter_append,
    group_filter_digits (by decide) (sdigits_digits _), filter_digits (by decide) (sdigits_digits _).2]

theorem bare_length (n : Nat) : (bare n).length ≤ (plain 44 46 n).length := by
  unfold plain bare
  rw [List.length_append, List.length_append, Num.group_length 44 _ (sdigits (n / one)) (Nat.le_refl _)]
  show (sdigits (n / one)).length + _ ≤ _
  omega

theorem bare_writes {sg : Text} (hsg : Sign sg) {n : Nat} (hn : n < 10 ^ 29) : Writes 44 46 (sg ++ bare n) sg n := by
  obtain ⟨h1, h2, ds, h3, h4⟩ := plain_writes english hsg hn
  rw [filter_bare] at h4
  refine ⟨?_, h2, ds, h3, h4⟩
  have := bare_length n
  rw [List.length_append] at h1 ⊢
  omega

/-- A number is written as the nearest amount. -/
theorem raw_near {n : Bool} {m k N : Nat} (h : halfEven (m * 10 ^ 10) (2 ^ k) = N) (hN : N < 10 ^ 31) :
    raw (.fin n m k) = .ok (signText n ++ bare N) := by
  have hq : N / one < 10 ^ (20 + 1) := by unfold one; omega
  have hd : digits 400 (N / one) = sdigits (N / one) :=
    digits_eq 399 _ (Nat.lt_of_lt_of_le hq (Nat.pow_le_pow_right (by decide) (by decide)))
  have hl := sdigits_length 20 _ hq
  have hsl : (signText n).length ≤ 1 := by cases n <;> simp [signText]
  have hmem := places_mem 10 (N % one)
  have hp : print (.fin n m k) = signText n ++ sdigits (N / one) ++ 46 :: places 10 (N % one) := by
    show ((if n then [45] else []) ++ digits 400 (halfEven (m * 10 ^ 10) (2 ^ k) / 10 ^ 10) ++
      46 :: padded 10 (halfEven (m * 10 ^ 10) (2 ^ k) % 10 ^ 10)).take 98 = _
    rw [h, show (10 ^ 10 : Nat) = one from rfl, hd, padded_eq]
    apply List.take_of_length_le
    have : (if n then [45] else ([] : Text)).length ≤ 1 := hsl
    simp only [List.length_append, List.length_cons, places_length]
    omega
  unfold raw
  rw [hp, strip_fraction _ hmem, bare, List.append_assoc]

/-- **C108**: the text that `raw` makes of a number of a program is read as the same number. -/
def C108_full : Prop := ∀ (tho dec : UInt8) (c : Calc) (n : Bool) (m k : Nat), Separators tho dec →
  c.run ⟨[tho], [dec]⟩ = some (.fin n m k) → ∃ t, raw (.fin n m k) = .ok t ∧ readRaw t = some (.fin n m k)

/-- **C108**, part: a number that is written in a program of any language with an amount below 524288, or with a whole number up to 2^53,
has a raw text that depends on the amount only (not on the language and not on how it was written), and this text is read as exactly the
same number. Missing: larger numbers. -/
theorem C108_partial {tho dec : UInt8} (hsep : Separators tho dec) {t sg : Text} {n : Nat} (h : Writes tho dec t sg n)
    (hn : n < 524288 * one ∨ ∃ w, w ≤ 2 ^ 53 ∧ n = w * one) :
    ∃ x, Float.read ⟨[tho], [dec]⟩ t = some x ∧ raw x = .ok (sg ++ bare n) ∧ readRaw (sg ++ bare n) = some x := by
  have hsg : Sign sg := h.2.1
  have hst : signText (decide (sg = [45])) = sg := by
    rcases hsg with rfl | rfl <;> rfl
  have hbig : n < 10 ^ 29 := by
    have : one = 10000000000 := rfl
    rcases hn with hn | ⟨w, hw, rfl⟩
    · omega
    · rw [this]; omega
  obtain ⟨m, k, hr, hh⟩ : ∃ m k, Float.read ⟨[tho], [dec]⟩ t = some (.fin (decide (sg = [45])) m k) ∧
      halfEven (m * 10 ^ 10) (2 ^ k) = n := by
    rcases hn with hn | ⟨w, hw, rfl⟩
    · exact read_small hsep h hn
    · obtain ⟨x, hr, m, k, rfl, hm⟩ := read_whole hsep h hw
      refine ⟨m, k, hr, ?_⟩
      rw [hm, Nat.mul_right_comm]
      exact halfEven_exact _ (two_pow_pos k)
  refine ⟨_, hr, ?_, ?_⟩
  · rw [raw_near hh (by omega), hst]
  · rw [readRaw_eq, read_amount english (bare_writes hsg hbig), ← hr, read_amount hsep h]
    intro c hc
    rcases List.mem_append.1 hc with hc | hc
    · rcases hsg with rfl | rfl
      · exact absurd hc List.not_mem_nil
      · rw [List.mem_singleton.1 hc]; decide
    · exact bare_mem n c hc

/-- `-1.234,50` of Dutch; its raw text is `-1234.5`. -/
example : Separators 46 44 ∧ Writes 46 44 [45, 49, 46, 50, 51, 52, 44, 53, 48] [45] 12345000000000 ∧
    12345000000000 < 524288 * one ∧ [45] ++ bare 12345000000000 = [45, 49, 50, 51, 52, 46, 53] :=
  ⟨by unfold Separators; decide, ⟨by decide, .inr rfl, [49, 50, 51, 52], ⟨by decide, by decide⟩,
    .inr ⟨[53, 48], ⟨by decide, by decide⟩, by decide, by decide, by decide⟩⟩, by decide, by decide +kernel⟩

/-- **C108**: two programs in different languages that write the same amount exchange it by its raw text. -/
theorem C108_across {tho dec tho' dec' : UInt8} (hs : Separators tho dec) (hs' : Separators tho' dec') {t t' sg : Text} {n : Nat}
    (h : Writes tho dec t sg n) (h' : Writes tho' dec' t' sg n) (hn : n < 524288 * one ∨ ∃ w, w ≤ 2 ^ 53 ∧ n = w * one) :
    ∃ x r, Float.read ⟨[tho], [dec]⟩ t = some x ∧ raw x = .ok r ∧ readRaw r = Float.read ⟨[tho'], [dec']⟩ t' := by
  obtain ⟨x, h1, h2, h3⟩ := C108_partial hs h hn
  obtain ⟨y, g1, g2, g3⟩ := C108_partial hs' h' hn
  exact ⟨x, _, h1, h2, by rw [g1, ← g3]⟩

/-- `1,5` of Dutch and `1.50` of English. -/
example : Separators 46 44 ∧ Separators 44 46 ∧ Writes 46 44 [49, 44, 53] [] 15000000000 ∧ Writes 44 46 [49, 46, 53, 48] [] 15000000000 ∧
    15000000000 < 524288 * one :=
  ⟨by unfold Separators; decide, by unfold Separators; decide, ⟨by decide, .inl rfl, [49], ⟨by decide, by decide⟩,
    .inr ⟨[53], ⟨by decide, by decide⟩, by decide, by decide, by decide⟩⟩, ⟨by decide, .inl rfl, [49], ⟨by decide, by decide⟩,
    .inr ⟨[53, 48], ⟨by decide, by decide⟩, by decide, by decide, by decide⟩⟩, by decide⟩

/-- Whether the raw text of an answer is read as another number. -/
def lost (sp : Num.Seps) (c : Calc) : Bool :=
  match c.run sp with
  | some (.fin n m k) =>
    match raw (.fin n m k) with
    | .ok t => readRaw t != some (.fin n m k)
    | _ => false
  | _ => false

theorem not_full {c : Calc} (h : lost ⟨[44], [46]⟩ c = true) : ¬ C108_full := by
  intro hf
  unfold lost at h
  split at h
  · rename_i n m k e
    obtain ⟨t, h1, h2⟩ := hf 44 46 c n m k english e
    rw [h1] at h
    dsimp only at h
    rw [h2] at h
    simp at h
  · exact absurd h (by decide)

/-- **C108** is violated: a number of 41 digits (10^39 × 100) is read from 40 of its digits; and of a third only ten
places are written. -/
theorem C108_violated : ¬ C108_full ∧
    lost ⟨[44], [46]⟩ (.mul (.lit (49 :: List.replicate 39 48)) (.lit [49, 48, 48])) = true ∧
    lost ⟨[44], [46]⟩ (.div (.lit [49]) (.lit [51])) = true := by
  have h1 : lost ⟨[44], [46]⟩ (.mul (.lit (49 :: List.replicate 39 48)) (.lit [49, 48, 48])) = true := by decide +kernel
  exact ⟨not_full h1, h1, by decide +kernel⟩

/-- The message `number` does not read raw texts where the point separates thousands: in Dutch `1.5` is read as 15. -/
theorem C108_number_violated : ∃ x y, Float.read ⟨[46], [44]⟩ [49, 44, 53] = some x ∧ raw x = .ok [49, 46, 53] ∧
    Float.read ⟨[46], [44]⟩ [49, 46, 53] = some y ∧ Float.read ⟨[46], [44]⟩ [49, 53] = some y ∧ x ≠ y :=
  ⟨rnd false 15 10, rnd false 15 1, by decide +kernel, by decide +kernel, by decide +kernel, by decide +kernel, by decide +kernel⟩

end Verif.Props.Raw
