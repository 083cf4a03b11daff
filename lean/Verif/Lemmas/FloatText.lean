import Verif.Lemmas.Float
import Verif.Spec.Float
import Verif.Lemmas.Num
import Verif.Lemmas.ReadBackText

/-!
# Texts of numbers
-/

namespace Verif.Model.Float
open Verif.Model.Num Verif.Spec.Num
open Verif.Spec.Float (one places fraction plain amount whole Writes value)

abbrev sdigits := Verif.Spec.ReadBack.digits

theorem sdigits_digits (n : Nat) : Digits (sdigits n) := Verif.Model.ReadBack.digits_spec n

theorem digits_eq : ∀ (fuel n : Nat), n < 10 ^ (fuel + 1) → digits (fuel + 1) n = sdigits n
  | 0, n, h => by
    rw [digits, sdigits, Verif.Spec.ReadBack.digits, if_pos (by omega), if_pos (by omega)]
  | fuel + 1, n, h => by
    rw [digits, sdigits, Verif.Spec.ReadBack.digits]
    split
    · rfl
    · rw [digits_eq fuel (n / 10)]
      rw [Nat.pow_succ] at h
      omega

theorem sdigits_length : ∀ (l n : Nat), n < 10 ^ (l + 1) → (sdigits n).length ≤ l + 1
  | 0, n, h => by
    rw [sdigits, Verif.Spec.ReadBack.digits, if_pos (by omega)]; simp
  | l + 1, n, h => by
    rw [sdigits, Verif.Spec.ReadBack.digits]
    split
    · simp
    · have := sdigits_length l (n / 10) (by rw [Nat.pow_succ] at h; omega)
      rw [List.length_append]
      simp only [List.length_cons, List.length_nil]
      unfold sdigits at this
      omega

theorem padded_eq : ∀ (w n : Nat), padded w n = places w n
  | 0, _ => rfl
  | w + 1, n => by rw [padded, places, padded_eq w]

theorem places_length : ∀ (w n : Nat), (places w n).length = w
  | 0, _ => rfl
  | w + 1, n => by rw [places, List.length_append, places_length w]; rfl

theorem places_mem : ∀ (w n : Nat), ∀ c ∈ places w n, 48 ≤ c.toNat ∧ c.toNat ≤ 57
  | 0, _, c, h => by simp [places] at h
  | w + 1, n, c, h => by
    rw [places, List.mem_append] at h
    rcases h with h | h
    · exact places_mem w _ c h
    · rw [List.mem_singleton] at h
      subst h
      rw [UInt8.toNat_ofNat', Nat.mod_eq_of_lt (by omega)]
      omega

theorem places_zero : ∀ w : Nat, places w 0 = List.replicate w 48
  | 0 => rfl
  | w + 1 => by
    rw [places, show 0 / 10 = 0 from rfl, places_zero w, List.replicate_succ']
    rfl

theorem fraction_zeros (dec : UInt8) (w : Nat) : fraction dec (List.replicate w 48) = [] := by
  unfold fraction
  rw [List.reverse_replicate, show (List.replicate w (48 : UInt8)).dropWhile (· = 48) = [] from by
    have := List.dropWhile_append_of_pos (p := fun c : UInt8 => decide (c = 48)) (l₁ := List.replicate w 48) (l₂ := []) (by
      intro c h; simp [(List.mem_replicate.1 h).2])
    simpa using this]
  rfl

/-- The zeros at the end are taken away, and the decimal point if nothing is left. -/
theorem strip_fraction (x : Text) {f : Text} (hf : ∀ c ∈ f, 48 ≤ c.toNat ∧ c.toNat ≤ 57) :
    stripZeros (x ++ 46 :: f) = .ok (x ++ fraction 46 f) := by
  unfold stripZeros fraction
  have e : (x ++ 46 :: f).reverse = f.reverse ++ 46 :: x.reverse := by simp
  have key : ∀ g : Text, (g ++ (46 :: x.reverse)).dropWhile (· = 48)
      = g.dropWhile (· = 48) ++ (46 :: x.reverse) := by
    intro g
    induction g with
    | nil => rfl
    | cons a g ih =>
      by_cases h : a = 48
      · simp only [List.cons_append, List.dropWhile_cons, h, decide_true, if_true]
        exact ih
      · simp [h]
  rw [e, key]
  cases hd : f.reverse.dropWhile (· = 48) with
  | nil => simp
  | cons c r =>
    have hc : c ≠ 46 := by
      have hm : c ∈ f.reverse := (List.dropWhile_suffix (fun c : UInt8 => decide (c = 48))).mem (by rw [hd]; simp)
      exact digit_ne (hf c (List.mem_reverse.1 hm)) (by decide)
    cases hr : (c :: r).reverse with
    | nil => simp at hr
    | cons a s =>
      simp only [List.cons_append]
      rw [if_neg hc, ← List.cons_append, List.reverse_append, hr]
      simp

theorem fraction_spec (dec : UInt8) {f : Text} (hf : ∀ c ∈ f, 48 ≤ c.toNat ∧ c.toNat ≤ 57) :
    Fraction (fraction 46 f) ∧ localFraction dec (fraction 46 f) = fraction dec f ∧ (fraction 46 f).length ≤ f.length + 1 := by
  unfold fraction
  have hl : (f.reverse.dropWhile (· = 48)).reverse.length ≤ f.length := by
    rw [List.length_reverse]
    have := (List.dropWhile_suffix (l := f.reverse) (fun c : UInt8 => decide (c = 48))).length_le
    rwa [List.length_reverse] at this
  have hm : ∀ c ∈ (f.reverse.dropWhile (· = 48)).reverse, 48 ≤ c.toNat ∧ c.toNat ≤ 57 := by
    intro c hc
    rw [List.mem_reverse] at hc
    exact hf c (List.mem_reverse.1 ((List.dropWhile_suffix _).mem hc))
  generalize (f.reverse.dropWhile (· = 48)).reverse = g at *
  cases g with
  | nil => exact ⟨.inl rfl, rfl, by simp⟩
  | cons a g => exact ⟨.inr ⟨a :: g, ⟨by simp, hm⟩, rfl⟩, rfl, by simp at hl ⊢; omega⟩

/-- The sign of a number as text. -/
def signText (n : Bool) : Text := if n then [45] else []

theorem signText_sign (n : Bool) : Sign (signText n) := by cases n <;> simp [signText, Sign]

/-- A number is shown as the nearest amount. -/
theorem toText_near (tho dec : UInt8) {n : Bool} {m k N : Nat} (h : halfEven (m * 10 ^ 10) (2 ^ k) = N) (hN : N < 10 ^ 31) :
    toText ⟨[tho], [dec]⟩ (.fin n m k) = .ok (signText n ++ plain tho dec N) := by
  have hq : N / one < 10 ^ (20 + 1) := by unfold one; omega
  have hd : digits 400 (N / one) = sdigits (N / one) :=
    digits_eq 399 _ (Nat.lt_of_lt_of_le hq (Nat.pow_le_pow_right (by decide) (by decide)))
  have hl := sdigits_length 20 _ hq
  have hsl : (signText n).length ≤ 1 := by cases n <;> simp [signText]
  have hmem := places_mem 10 (N % one)
  obtain ⟨f1, f2, f3⟩ := fraction_spec dec hmem
  rw [places_length] at f3
  have hp : print (.fin n m k) = signText n ++ sdigits (N / one) ++ 46 :: places 10 (N % one) := by
    show ((if n then [45] else []) ++ digits 400 (halfEven (m * 10 ^ 10) (2 ^ k) / 10 ^ 10) ++
      46 :: padded 10 (halfEven (m * 10 ^ 10) (2 ^ k) % 10 ^ 10)).take 98 = _
    rw [h, show (10 ^ 10 : Nat) = one from rfl, hd, padded_eq]
    apply List.take_of_length_le
    have : (if n then [45] else ([] : Text)).length ≤ 1 := hsl
    simp only [List.length_append, List.length_cons, places_length]
    omega
  unfold toText numberToString
  rw [hp, strip_fraction _ hmem]
  simp only [Out.ok_bind]
  rw [international_plain tho dec 100 (signText_sign n) (sdigits_digits _) f1, if_pos (by
    simp only [List.length_append]; omega), Out.ok_bind, format_length, if_pos (by
    simp only [List.length_append]; omega), f2, plain, List.append_assoc]

/-- A whole number is shown by its digits; zero perhaps with a sign. -/
theorem toText_holds (tho dec : UInt8) {x : F} {z : Int} (h : Holds x z) (hz : z.natAbs < 10 ^ 21) :
    toText ⟨[tho], [dec]⟩ x = .ok (whole tho z) ∨ (z = 0 ∧ toText ⟨[tho], [dec]⟩ x = .ok [45, 48]) := by
  obtain ⟨n, m, k, rfl, hm, hs⟩ := h.get
  have hh : halfEven (m * 10 ^ 10) (2 ^ k) = z.natAbs * one := by
    rw [hm, Nat.mul_right_comm]
    exact halfEven_exact _ (two_pow_pos k)
  have ht := toText_near tho dec (n := n) hh (by unfold one; omega)
  have hpl : plain tho dec (z.natAbs * one) = group tho (sdigits z.natAbs) := by
    unfold plain
    rw [Nat.mul_div_cancel _ (by decide), Nat.mul_mod_left, places_zero, fraction_zeros, List.append_nil]
  rw [hpl] at ht
  rw [ht]
  unfold whole
  rcases Decidable.em (z = 0) with rfl | hz0
  · have hg : group tho (sdigits (0 : Int).natAbs) = [48] := by
      rw [sdigits, Verif.Spec.ReadBack.digits, if_pos (by decide)]
      unfold group
      rfl
    rw [hg]
    cases n
    · exact .inl rfl
    · exact .inr ⟨rfl, rfl⟩
  · left
    rw [hs hz0]
    unfold signText
    rcases Decidable.em (z < 0) with a | a <;> simp [a]

theorem natOf_value (t : Text) : natOf t = value t := rfl

theorem takeWhile_digits {ds : Text} (h : ∀ c ∈ ds, 48 ≤ c.toNat ∧ c.toNat ≤ 57) (fr : Text)
    (hfr : fr = [] ∨ ∃ f, fr = 46 :: f) : (ds ++ fr).takeWhile isDigit = ds ∧ (ds ++ fr).dropWhile isDigit = fr := by
  have hp : ∀ c ∈ ds, isDigit c = true := fun c hc => isDigit_of (h c hc)
  rw [List.takeWhile_append_of_pos hp, List.dropWhile_append_of_pos hp]
  rcases hfr with rfl | ⟨f, rfl⟩
  · simp
  · rw [List.takeWhile_cons, List.dropWhile_cons, if_neg (by decide), if_neg (by decide)]
    simp

theorem atof_plain {sg ds : Text} (hsg : Sign sg) (hds : Digits ds) (fr : Text) :
    atof (sg ++ ds ++ fr) = atofPlain (decide (sg = [45])) (ds ++ fr) := by
  rcases hsg with rfl | rfl
  · obtain ⟨hne, hd⟩ := hds
    cases ds with
    | nil => exact absurd rfl hne
    | cons c ds =>
      show (if c = 45 then _ else _) = _
      rw [if_neg (digit_ne (hd c (by simp)) (by decide))]
      rfl
  · rfl

/-- The text with the separators replaced, as `atof` gets it. -/
theorem numberFromText_writes {tho dec : UInt8} (hsep : Separators tho dec) {t sg ds fr : Text} (hl : t.length ≤ 40)
    (hs : Sign sg) (hd : Digits ds) (hf : Fraction fr) (ht : t.filter (· ≠ tho) = sg ++ ds ++ localFraction dec fr) :
    numberFromText ⟨[tho], [dec]⟩ t = sg ++ ds ++ fr := by
  obtain ⟨f1, f2, f3, f4, f5, f6, f7⟩ := id hsep
  have hnz : ∀ c ∈ t, c ≠ 0 := by
    intro c hc
    rcases Decidable.em (c = tho) with rfl | h
    · exact f6
    · have hm : c ∈ t.filter (· ≠ tho) := List.mem_filter.2 ⟨hc, by simpa using h⟩
      rw [ht, List.mem_append, List.mem_append] at hm
      rcases hm with (hm | hm) | hm
      · rcases hs with rfl | rfl
        · simp at hm
        · simp at hm; rw [hm]; decide
      · exact digit_ne (hd.2 c hm) (by decide)
      · rcases hf with rfl | ⟨f, hf, rfl⟩
        · simp [localFraction] at hm
        · simp only [localFraction, List.mem_cons] at hm
          rcases hm with rfl | hm
          · exact f7
          · exact digit_ne (hf.2 c hm) (by decide)
  have htw : t.takeWhile (· ≠ 0) = t := by
    have := List.takeWhile_append_of_pos (p := fun c : UInt8 => decide (c ≠ 0)) (l₂ := []) (fun c hc => by
      simpa using hnz c hc)
    simpa using this
  unfold numberFromText
  dsimp only
  rw [List.take_of_length_le hl, htw, national_eq _ _ _ _ (by omega), ht]
  have hdig : ∀ l : Text, (∀ c ∈ l, 48 ≤ c.toNat ∧ c.toNat ≤ 57) → l.map (fun c => if c = dec then 46 else c) = l := by
    intro l hl
    have : l.map (fun c => if c = dec then 46 else c) = l.map id :=
      List.map_congr_left fun c hc => if_neg (digit_ne (hl c hc) f3)
    rw [this, List.map_id]
  rw [List.map_append, List.map_append, hdig ds hd.2]
  congr 1
  · congr 1
    rcases hs with rfl | rfl
    · rfl
    · simp only [List.map_cons, List.map_nil, if_neg (Ne.symm f5)]
  · rcases hf with rfl | ⟨f, hf, rfl⟩
    · rfl
    · simp only [localFraction, List.map_cons, if_pos]
      rw [hdig f hf.2]

/-- What is read is the number nearest to the amount that is written. -/
theorem read_writes {tho dec : UInt8} (hsep : Separators tho dec) {t sg : Text} {n : Nat} (h : Writes tho dec t sg n) :
    ∃ A D, 0 < D ∧ A * one = n * D ∧ read ⟨[tho], [dec]⟩ t = some (rnd (decide (sg = [45])) A D) := by
  obtain ⟨hlen, hsg, ds, hds, hcase⟩ := h
  unfold read
  rcases hcase with ⟨hf, rfl⟩ | ⟨f, hf, hfl, he, rfl⟩
  · refine ⟨value ds, 1, by decide, by rw [Nat.mul_one], ?_⟩
    rw [numberFromText_writes hsep (fr := []) hlen hsg hds (.inl rfl) (by rw [hf]; simp [localFraction]), atof_plain hsg hds]
    obtain ⟨h1, h2⟩ := takeWhile_digits hds.2 [] (.inl rfl)
    simp only [atofPlain, h1, h2]
    rw [if_neg hds.1]
    rfl
  · refine ⟨value (ds ++ f), 10 ^ f.length, Nat.pow_pos (by decide), ?_, ?_⟩
    · rw [Nat.mul_assoc, ← Nat.pow_add, show 10 - f.length + f.length = 10 by omega]
      rfl
    rw [numberFromText_writes hsep (fr := 46 :: f) hlen hsg hds (.inr ⟨f, hf, rfl⟩) (by rw [he]; simp [localFraction]),
      atof_plain hsg hds]
    obtain ⟨h1, h2⟩ := takeWhile_digits hds.2 (46 :: f) (.inr ⟨f, rfl⟩)
    simp only [atofPlain, h1, h2]
    rw [if_pos ⟨trivial, by rw [List.all_eq_true]; exact fun c hc => isDigit_of (hf.2 c hc), by simp [hds.1]⟩]
    rfl

/-- A whole number that is written is read exactly. -/
theorem read_whole {tho dec : UInt8} (hsep : Separators tho dec) {t sg : Text} {n : Nat} (h : Writes tho dec t sg (n * one))
    (hn : n ≤ 2 ^ 53) :
    ∃ x, read ⟨[tho], [dec]⟩ t = some x ∧ ∃ m k, x = .fin (decide (sg = [45])) m k ∧ m = n * 2 ^ k := by
  obtain ⟨A, D, hD, hA, hr⟩ := read_writes hsep h
  refine ⟨_, hr, ?_⟩
  have : A = n * D := by
    rw [Nat.mul_right_comm] at hA
    exact Nat.eq_of_mul_eq_mul_right (by decide) hA
  subst this
  exact rnd_whole _ n hD hn

/-- A small amount that is written is read so closely that it is shown again. -/
theorem read_small {tho dec : UInt8} (hsep : Separators tho dec) {t sg : Text} {n : Nat} (h : Writes tho dec t sg n)
    (hn : n < 524288 * one) :
    ∃ m k, read ⟨[tho], [dec]⟩ t = some (.fin (decide (sg = [45])) m k) ∧ halfEven (m * 10 ^ 10) (2 ^ k) = n := by
  obtain ⟨A, D, hD, hA, hr⟩ := read_writes hsep h
  rcases Nat.eq_zero_or_pos A with rfl | hp
  · refine ⟨0, 0, by rw [hr, rnd_zero], ?_⟩
    have : n = 0 := by
      rcases Nat.eq_zero_or_pos n with h | h
      · exact h
      · have := Nat.mul_pos h hD
        omega
    rw [this]
    exact halfEven_zero (by decide)
  · have hlt : A < D * 2 ^ 19 := by
      have h1 : A * one < D * 2 ^ 19 * one := by
        rw [hA]
        calc n * D < 524288 * one * D := Nat.mul_lt_mul_of_pos_right hn hD
          _ = D * 2 ^ 19 * one := by rw [Nat.mul_comm _ D, Nat.mul_assoc, show (524288 : Nat) = 2 ^ 19 from rfl]
      exact Nat.lt_of_mul_lt_mul_right h1
    obtain ⟨m, k, e, hk, b1, b2⟩ := rnd_error (decide (sg = [45])) hp hD (by decide) hlt
    refine ⟨m, k, by rw [hr, e], ?_⟩
    have hpk : 2 ^ 34 ≤ 2 ^ k := Nat.pow_le_pow_right (by decide) (by omega)
    have hone : (10 ^ 10 : Nat) = one := rfl
    have c1 : 2 * (n * 2 ^ k) ≤ 2 * (m * one) + one := by
      refine Nat.le_of_mul_le_mul_right ?_ hD
      have := Nat.mul_le_mul_right one b1
      calc 2 * (n * 2 ^ k) * D = 2 * (n * D * 2 ^ k) := by ac_rfl
        _ = 2 * (A * 2 ^ k) * one := by rw [← hA]; ac_rfl
        _ ≤ (2 * (m * D) + D) * one := this
        _ = (2 * (m * one) + one) * D := by rw [Nat.add_mul, Nat.add_mul]; ac_rfl
    have c2 : 2 * (m * one) ≤ 2 * (n * 2 ^ k) + one := by
      refine Nat.le_of_mul_le_mul_right ?_ hD
      have := Nat.mul_le_mul_right one b2
      calc 2 * (m * one) * D = 2 * (m * D) * one := by ac_rfl
        _ ≤ (2 * (A * 2 ^ k) + D) * one := this
        _ = 2 * (A * one * 2 ^ k) + one * D := by rw [Nat.add_mul]; ac_rfl
        _ = (2 * (n * 2 ^ k) + one) * D := by rw [hA, Nat.add_mul]; ac_rfl
    rw [hone]
    have ho : one < 2 ^ 34 := by decide
    exact halfEven_near (two_pow_pos k) (by omega) (by omega)

/-! ### Reading back -/

theorem halfEven_scale (a d : Nat) {c : Nat} (hc : 0 < c) : halfEven (a * c) (d * c) = halfEven a d := by
  unfold halfEven
  rw [Nat.mul_div_mul_right _ _ hc, Nat.mul_mod_mul_right]
  have h1 : 2 * (a % d * c) < d * c ↔ 2 * (a % d) < d := by
    rw [← Nat.mul_assoc, Nat.mul_lt_mul_right hc]
  have h2 : d * c < 2 * (a % d * c) ↔ d < 2 * (a % d) := by
    rw [← Nat.mul_assoc, Nat.mul_lt_mul_right hc]
  simp only [h1, h2]

theorem bits_scale {a d c : Nat} (ha : 0 < a) (hd : 0 < d) (hc : 0 < c) : bits (a * c) (d * c) = bits a d := by
  unfold bits
  rw [Nat.mul_div_mul_right _ _ hc]
  have h1 : d * c ≤ a * c ↔ d ≤ a := Nat.mul_le_mul_right_iff hc
  have h2 : (d * c - 1) / (a * c) = (d - 1) / a := by
    have e1 : a * ((d - 1) / a) + (d - 1) % a = d - 1 := Nat.div_add_mod _ _
    have e2 := Nat.mod_lt (d - 1) ha
    apply Nat.div_eq_of_lt_le
    · have : (a * ((d - 1) / a)) * c ≤ (d - 1) * c := Nat.mul_le_mul_right c (by omega)
      rw [Nat.sub_mul, Nat.one_mul] at this
      have e3 : (d - 1) / a * (a * c) = a * ((d - 1) / a) * c := by ac_rfl
      omega
    · have : d * c ≤ (a * ((d - 1) / a) + a) * c := Nat.mul_le_mul_right c (by omega)
      have e3 : ((d - 1) / a + 1) * (a * c) = (a * ((d - 1) / a) + a) * c := by
        rw [Nat.add_mul, Nat.add_mul, Nat.one_mul]; ac_rfl
      have := Nat.mul_pos hd hc
      omega
  simp only [h1, h2]

/-- Rounding depends on the fraction, not on how it is written. -/
theorem rnd_scale (neg : Bool) (a : Nat) {d c : Nat} (hd : 0 < d) (hc : 0 < c) : rnd neg (a * c) (d * c) = rnd neg a d := by
  rcases Nat.eq_zero_or_pos a with rfl | ha
  · rw [Nat.zero_mul, rnd_zero, rnd_zero]
  · unfold rnd
    have h0 : a * c ≠ 0 := Nat.mul_ne_zero (by omega) (by omega)
    have h1 : a * c < d * c * 2 ^ 53 ↔ a < d * 2 ^ 53 := by
      rw [Nat.mul_right_comm, Nat.mul_lt_mul_right hc]
    have e1 : a * c * 2 ^ bits a d = a * 2 ^ bits a d * c := Nat.mul_right_comm ..
    have e2 : ∀ e, halfEven (a * c) (d * c * 2 ^ e) = halfEven a (d * 2 ^ e) := fun e => by
      rw [Nat.mul_right_comm d c, halfEven_scale _ _ hc]
    simp only [h1, bits_scale ha hd hc, e1, halfEven_scale _ _ hc, Nat.mul_div_mul_right _ _ hc, e2]
    rw [if_neg h0, if_neg (show ¬ a = 0 by omega)]

/-- What is read depends only on the amount that is written. -/
theorem read_amount {tho dec : UInt8} (hsep : Separators tho dec) {t sg : Text} {n : Nat} (h : Writes tho dec t sg n) :
    read ⟨[tho], [dec]⟩ t = some (rnd (decide (sg = [45])) n one) := by
  obtain ⟨A, D, hD, hA, hr⟩ := read_writes hsep h
  have ho : 0 < one := by decide
  rw [hr, ← rnd_scale _ A hD ho, hA, Nat.mul_comm D one, rnd_scale _ n ho hD]

theorem value_append (a b : Text) : value (a ++ b) = b.foldl (fun a c => a * 10 + (c.toNat - 48)) (value a) := by
  unfold value
  rw [List.foldl_append]

theorem value_snoc (a : Text) (c : UInt8) : value (a ++ [c]) = value a * 10 + (c.toNat - 48) := by
  rw [value_append]; rfl

theorem value_sdigits (n : Nat) : value (sdigits n) = n := Verif.Model.ReadBack.natOf_digits n

theorem value_places : ∀ (w n : Nat) (a : Text), n < 10 ^ w → value (a ++ places w n) = value a * 10 ^ w + n
  | 0, n, a, h => by
    simp at h; subst h; simp [places]
  | w + 1, n, a, h => by
    rw [places, ← List.append_assoc, value_snoc, value_places w (n / 10) a (by rw [Nat.pow_succ] at h; omega),
      UInt8.toNat_ofNat', Nat.mod_eq_of_lt (by omega), Nat.pow_succ, Nat.add_mul]
    have : value a * 10 ^ w * 10 = value a * (10 ^ w * 10) := Nat.mul_assoc ..
    omega

theorem value_zeros : ∀ (w : Nat) (a : Text), value (a ++ List.replicate w 48) = value a * 10 ^ w
  | 0, a => by simp
  | w + 1, a => by
    rw [List.replicate_succ', ← List.append_assoc, value_snoc, value_zeros w a, Nat.pow_succ, ← Nat.mul_assoc]
    rfl

theorem group_filter_digits {tho : UInt8} (h : tho.toNat < 48 ∨ 57 < tho.toNat) {l : Text} (hl : Digits l) :
    (group tho l).filter (· ≠ tho) = l :=
  group_filter tho _ l (Nat.le_refl _) fun c hc => digit_ne (hl.2 c hc) h

theorem filter_digits {tho : UInt8} (h : tho.toNat < 48 ∨ 57 < tho.toNat) {l : Text}
    (hl : ∀ c ∈ l, 48 ≤ c.toNat ∧ c.toNat ≤ 57) : l.filter (· ≠ tho) = l := by
  rw [List.filter_eq_self]
  intro c hc
  simpa using digit_ne (hl c hc) h

/-- The fraction that is shown, and the zeros that are not. -/
theorem fraction_split (dec : UInt8) (f : Text) :
    ∃ (g : Text) (j : Nat), f = g ++ List.replicate j 48 ∧ fraction dec f = if g = [] then [] else dec :: g := by
  have h1 := List.takeWhile_append_dropWhile (p := fun c : UInt8 => decide (c = 48)) (l := f.reverse)
  have h2 : (f.reverse.takeWhile (· = 48)) = List.replicate (f.reverse.takeWhile (· = 48)).length 48 := by
    rw [List.eq_replicate_iff]
    refine ⟨rfl, fun c hc => ?_⟩
    have := List.all_takeWhile (p := fun c : UInt8 => decide (c = 48)) (l := f.reverse)
    rw [List.all_eq_true] at this
    simpa using this c hc
  refine ⟨(f.reverse.dropWhile (· = 48)).reverse, (f.reverse.takeWhile (· = 48)).length, ?_, ?_⟩
  · have h3 := congrArg List.reverse h1
    rw [List.reverse_append, List.reverse_reverse, h2, List.reverse_replicate] at h3
    exact h3.symm
  · unfold fraction
    cases (f.reverse.dropWhile (· = 48)).reverse <;> rfl

/-- The text that is shown for an amount writes this amount. -/
theorem plain_writes {tho dec : UInt8} (hsep : Separators tho dec) {sg : Text} (hsg : Sign sg) {n : Nat} (hn : n < 10 ^ 29) :
    Writes tho dec (sg ++ plain tho dec n) sg n := by
  obtain ⟨f1, f2, f3, f4, f5, f6, f7⟩ := id hsep
  have hmem := places_mem 10 (n % one)
  have hq : n / one < 10 ^ (18 + 1) := by unfold one; omega
  have hl := sdigits_length 18 _ hq
  have hgl := group_length tho _ (sdigits (n / one)) (Nat.le_refl _)
  have hsl : sg.length ≤ 1 := by rcases hsg with rfl | rfl <;> simp
  have hsf : sg.filter (· ≠ tho) = sg := by
    rcases hsg with rfl | rfl
    · rfl
    · simpa using Ne.symm f4
  have hdf : (group tho (sdigits (n / one))).filter (· ≠ tho) = sdigits (n / one) := group_filter_digits f2 (sdigits_digits _)
  obtain ⟨g, j, hj, hfr⟩ := fraction_split dec (places 10 (n % one))
  have hgm : ∀ c ∈ g, 48 ≤ c.toNat ∧ c.toNat ≤ 57 := fun c hc => hmem c (by rw [hj]; exact List.mem_append_left _ hc)
  have hlen : g.length + j = 10 := by
    have := congrArg List.length hj
    rw [places_length, List.length_append, List.length_replicate] at this
    exact this.symm
  have hval : value (sdigits (n / one) ++ g) * 10 ^ j = n := by
    rw [← value_zeros, List.append_assoc, ← hj, value_places 10 (n % one) _ (Nat.mod_lt n (show 0 < one by decide)), value_sdigits,
      show (10 ^ 10 : Nat) = one from rfl, Nat.mul_comm]
    exact Nat.div_add_mod n one
  unfold plain
  rw [hfr]
  refine ⟨?_, hsg, sdigits (n / one), sdigits_digits _, ?_⟩
  · simp only [List.length_append, hgl]
    have : (if g = [] then ([] : Text) else dec :: g).length ≤ 11 := by
      split
      · simp
      · simp only [List.length_cons]; omega
    omega
  · by_cases hg : g = []
    · left
      rw [if_pos hg, List.append_nil, List.filter_append, hsf, hdf]
      refine ⟨rfl, ?_⟩
      rw [hg, List.append_nil] at hval
      rw [hg, List.length_nil] at hlen
      have hj10 : j = 10 := by omega
      subst hj10
      exact hval.symm
    · right
      refine ⟨g, ⟨hg, hgm⟩, by omega, ?_, ?_⟩
      · rw [if_neg hg, List.filter_append, List.filter_append, hsf, hdf, List.filter_cons_of_pos (by simpa using Ne.symm f1),
          filter_digits f2 hgm, List.append_assoc]
      · rw [show 10 - g.length = j by omega]
        exact hval.symm

end Verif.Model.Float
