import Verif.Model.Num
import Verif.Spec.Num

/-!
# Lemmas about numbers
-/

namespace Verif.Model.Num
open Verif.Spec.Num

/-- What the loop of `international` adds to the target, without the limits of the target. -/
def pure (tho dec : UInt8) (s : Nat) : Text → Nat → Nat → Text
  | [], _, _ => []
  | c :: rest, i, k =>
    if c = 46 then dec :: pure tho dec s rest (i + 1) k
    else (if i < s ∧ k > 0 ∧ (s - i) % 3 = 0 then [tho] else [])
      ++ c :: pure tho dec s rest (i + 1) (if isDigit c then k + 1 else k)

theorem put_one (size : Nat) (acc : Text) (b : UInt8) :
    put size acc [b] = if acc.length + 1 ≤ min size 128 then .ok (acc ++ [b]) else .ub := by
  unfold put
  simp only [List.length_cons, List.length_nil]
  by_cases h : acc.length + 1 ≤ min size 128
  · rw [if_pos h, if_pos (by omega)]
  · rw [if_neg h, if_neg (by omega)]

/-- The exact effect of the loop for separators of one byte. -/
theorem interLoop_eq (tho dec : UInt8) (size s : Nat) : ∀ (t : Text) (i k : Nat) (acc : Text),
    interLoop ⟨[tho], [dec]⟩ size s t i k acc =
      if pure tho dec s t i k = [] ∨ acc.length + (pure tho dec s t i k).length ≤ min size 128
      then .ok (acc ++ pure tho dec s t i k) else .ub
  | [], i, k, acc => by simp [interLoop, pure]
  | c :: rest, i, k, acc => by
    unfold interLoop pure
    by_cases hc : c = 46
    · rw [if_pos hc, if_pos hc, put_one]
      by_cases h : acc.length + 1 ≤ min size 128
      · rw [if_pos h, Out.ok_bind, interLoop_eq]
        simp only [List.length_append, List.length_cons, List.length_nil, List.append_assoc, List.cons_append,
          List.nil_append, reduceCtorEq, false_or]
        by_cases hp : pure tho dec s rest (i + 1) k = []
        · rw [if_pos (Or.inl hp), if_pos (by rw [hp]; simp only [List.length_nil]; omega)]
        · by_cases hq : acc.length + 1 + (pure tho dec s rest (i + 1) k).length ≤ min size 128
          · rw [if_pos (Or.inr hq), if_pos (by omega)]
          · rw [if_neg (by simp only [hp, hq, or_self, not_false_eq_true]), if_neg (by omega)]
      · rw [if_neg h, Out.ub_bind, if_neg]
        simp only [List.length_cons, reduceCtorEq, false_or]
        omega
    · rw [if_neg hc, if_neg hc]
      generalize (if isDigit c then k + 1 else k) = k'
      by_cases hs : i < s ∧ k > 0 ∧ (s - i) % 3 = 0
      · rw [if_pos hs, if_pos hs, put_one]
        by_cases h : acc.length + 1 ≤ min size 128
        · rw [if_pos h, Out.ok_bind, put_one]
          simp only [List.length_append, List.length_cons, List.length_nil, List.append_assoc, List.cons_append,
            List.nil_append, reduceCtorEq, false_or]
          by_cases h2 : acc.length + (0 + 1) + 1 ≤ min size 128
          · rw [if_pos h2, Out.ok_bind, interLoop_eq]
            simp only [List.length_append, List.length_cons, List.length_nil, List.append_assoc, List.cons_append,
              List.nil_append]
            by_cases hp : pure tho dec s rest (i + 1) k' = []
            · rw [if_pos (Or.inl hp), if_pos (by rw [hp]; simp only [List.length_nil]; omega)]
            · by_cases hq : acc.length + (pure tho dec s rest (i + 1) k').length + 2 ≤ min size 128
              · rw [if_pos (Or.inr (by omega)), if_pos (by omega)]
              · rw [if_neg (by simp only [hp, false_or]; omega), if_neg (by omega)]
          · rw [if_neg h2, Out.ub_bind, if_neg (by omega)]
        · rw [if_neg h, Out.ub_bind, if_neg]
          simp only [List.length_append, List.length_cons, List.length_nil, List.append_eq_nil_iff, reduceCtorEq,
            and_false, false_or]
          omega
      · rw [if_neg hs, if_neg hs, Out.ok_bind, put_one]
        simp only [List.nil_append, List.length_cons, reduceCtorEq, false_or]
        by_cases h : acc.length + 1 ≤ min size 128
        · rw [if_pos h, Out.ok_bind, interLoop_eq]
          simp only [List.length_append, List.length_cons, List.length_nil, List.append_assoc, List.cons_append,
            List.nil_append]
          by_cases hp : pure tho dec s rest (i + 1) k' = []
          · rw [if_pos (Or.inl hp), if_pos (by rw [hp]; simp only [List.length_nil]; omega)]
          · by_cases hq : acc.length + (pure tho dec s rest (i + 1) k').length + 1 ≤ min size 128
            · rw [if_pos (Or.inr (by omega)), if_pos (by omega)]
            · rw [if_neg (by simp only [hp, false_or]; omega), if_neg (by omega)]
        · rw [if_neg h, Out.ub_bind, if_neg (by omega)]

/-- Digits with separators wherever the number of digits from there on is a multiple of three. -/
def ins (tho : UInt8) : Bool → Text → Text
  | _, [] => []
  | first, c :: r => (if first = false ∧ (r.length + 1) % 3 = 0 then [tho] else []) ++ c :: ins tho false r

theorem digit_ne {c d : UInt8} (h : 48 ≤ c.toNat ∧ c.toNat ≤ 57) (hd : d.toNat < 48 ∨ 57 < d.toNat) : c ≠ d := by
  intro e
  rw [e] at h
  omega

theorem isDigit_of {c : UInt8} (h : 48 ≤ c.toNat ∧ c.toNat ≤ 57) : isDigit c = true := by
  unfold isDigit
  rw [decide_eq_true h.1, decide_eq_true h.2]
  rfl

/-- The digits before the decimal point. -/
theorem pure_digits (tho dec : UInt8) (s : Nat) : ∀ (ds fr : Text) (i k : Nat),
    (∀ c ∈ ds, 48 ≤ c.toNat ∧ c.toNat ≤ 57) → i + ds.length = s →
    pure tho dec s (ds ++ fr) i k = ins tho (decide (k = 0)) ds ++ pure tho dec s fr s (k + ds.length)
  | [], fr, i, k, _, h => by
    simp only [List.length_nil, Nat.add_zero] at h
    subst h
    rfl
  | c :: ds, fr, i, k, hd, h => by
    have hc := hd c (by simp)
    simp only [List.length_cons] at h
    rw [List.cons_append, pure, if_neg (digit_ne hc (by decide)), if_pos (isDigit_of hc),
      pure_digits tho dec s ds fr (i + 1) (k + 1) (fun x hx => hd x (by simp [hx])) (by omega), ins]
    have e : s - i = ds.length + 1 := by omega
    have e2 : decide (k + 1 = 0) = false := by simp
    rw [e, e2, List.append_assoc, List.cons_append]
    have e3 : k + 1 + ds.length = k + (ds.length + 1) := by omega
    rw [List.length_cons, e3]
    congr 1
    by_cases hk : k = 0
    · subst hk
      simp
    · have : decide (k = 0) = false := by simp [hk]
      rw [this]
      by_cases h3 : (ds.length + 1) % 3 = 0
      · rw [if_pos ⟨by omega, by omega, h3⟩, if_pos ⟨rfl, h3⟩]
      · rw [if_neg (by simp [h3]), if_neg (by simp [h3])]

/-- The digits behind the decimal point. -/
theorem pure_fraction (tho dec : UInt8) (s : Nat) : ∀ (f : Text) (i k : Nat),
    (∀ c ∈ f, 48 ≤ c.toNat ∧ c.toNat ≤ 57) → s ≤ i → pure tho dec s f i k = f
  | [], _, _, _, _ => rfl
  | c :: f, i, k, hd, h => by
    have hc := hd c (by simp)
    rw [pure, if_neg (digit_ne hc (by decide)), if_neg (by omega),
      pure_fraction tho dec s f (i + 1) _ (fun x hx => hd x (by simp [hx])) (by omega)]
    rfl

theorem ins_append (tho : UInt8) : ∀ (a b : Text) (first : Bool), a ≠ [] → b.length % 3 = 0 →
    ins tho first (a ++ b) = ins tho first a ++ ins tho false b
  | [c], b, first, _, h => by
    have : (b.length + 1) % 3 = ([] : Text).length + 1 := by simp only [List.length_nil]; omega
    simp only [List.cons_append, List.nil_append, ins, this, List.length_nil, List.append_assoc]
  | c :: d :: a, b, first, _, h => by
    have ih := ins_append tho (d :: a) b false (by simp) h
    have e : ∀ r : Text, ins tho first (c :: r)
        = (if first = false ∧ (r.length + 1) % 3 = 0 then [tho] else []) ++ c :: ins tho false r := fun _ => rfl
    rw [List.cons_append, e, e, ih]
    have : ((d :: a ++ b).length + 1) % 3 = ((d :: a).length + 1) % 3 := by
      simp only [List.length_append, List.length_cons]; omega
    rw [this]
    simp only [List.append_assoc, List.cons_append]
  | [], _, _, h, _ => absurd rfl h

theorem ins_short (tho : UInt8) : ∀ (a : Text), a.length ≤ 3 → ins tho true a = a
  | [], _ => rfl
  | [a], _ => rfl
  | [a, b], _ => rfl
  | [a, b, c], _ => rfl
  | _ :: _ :: _ :: _ :: _, h => by simp at h

theorem ins_three (tho : UInt8) : ∀ (b : Text), b.length = 3 → ins tho false b = tho :: b
  | [a, b, c], _ => by simp [ins]
  | [], h => by simp at h
  | [_], h => by simp at h
  | [_, _], h => by simp at h
  | _ :: _ :: _ :: _ :: _, h => by simp at h

/-- The loop groups digits as specified. -/
theorem ins_group (tho : UInt8) : ∀ (n : Nat) (l : Text), l.length ≤ n → ins tho true l = group tho l
  | 0, l, h => by
    rw [group, if_pos (by omega), ins_short tho l (by omega)]
  | n + 1, l, h => by
    rw [group]
    by_cases h3 : l.length ≤ 3
    · rw [if_pos h3, ins_short tho l h3]
    · rw [if_neg h3, ← ins_group tho n (l.take (l.length - 3)) (by rw [List.length_take]; omega)]
      have e := List.take_append_drop (l.length - 3) l
      have hne : l.take (l.length - 3) ≠ [] := by
        intro hc
        have := congrArg List.length hc
        rw [List.length_take, List.length_nil] at this
        omega
      have hl : (l.drop (l.length - 3)).length = 3 := by rw [List.length_drop]; omega
      conv => lhs; rw [← e]
      rw [ins_append tho _ _ true hne (by omega), ins_three tho _ hl]

theorem group_length (tho : UInt8) : ∀ (n : Nat) (l : Text), l.length ≤ n →
    (group tho l).length = l.length + (l.length - 1) / 3
  | 0, l, h => by
    rw [group, if_pos (by omega)]; omega
  | n + 1, l, h => by
    rw [group]
    by_cases h3 : l.length ≤ 3
    · rw [if_pos h3]; omega
    · rw [if_neg h3, List.length_append, List.length_cons,
        group_length tho n _ (by rw [List.length_take]; omega), List.length_take, List.length_drop]
      omega

/-- Every byte of grouped digits is a digit or the separator. -/
theorem group_mem (tho : UInt8) : ∀ (n : Nat) (l : Text), l.length ≤ n → ∀ c ∈ group tho l, c ∈ l ∨ c = tho
  | 0, l, h, c, hc => by
    rw [group, if_pos (by omega)] at hc
    exact Or.inl hc
  | n + 1, l, h, c, hc => by
    rw [group] at hc
    by_cases h3 : l.length ≤ 3
    · rw [if_pos h3] at hc; exact Or.inl hc
    · rw [if_neg h3, List.mem_append, List.mem_cons] at hc
      rcases hc with hc | hc | hc
      · rcases group_mem tho n _ (by rw [List.length_take]; omega) c hc with h | h
        · exact Or.inl (List.mem_of_mem_take h)
        · exact Or.inr h
      · exact Or.inr hc
      · exact Or.inl (List.mem_of_mem_drop hc)

/-- Removing the separator from grouped digits gives the digits back. -/
theorem group_filter (tho : UInt8) : ∀ (n : Nat) (l : Text), l.length ≤ n → (∀ c ∈ l, c ≠ tho) →
    (group tho l).filter (· ≠ tho) = l
  | 0, l, h, hd => by
    rw [group, if_pos (by omega), List.filter_eq_self]
    intro c hc
    simpa using hd c hc
  | n + 1, l, h, hd => by
    rw [group]
    by_cases h3 : l.length ≤ 3
    · rw [if_pos h3, List.filter_eq_self]
      intro c hc
      simpa using hd c hc
    · rw [if_neg h3, List.filter_append,
        group_filter tho n _ (by rw [List.length_take]; omega) (fun c hc => hd c (List.mem_of_mem_take hc)),
        List.filter_cons_of_neg (by simp), List.filter_eq_self.2]
      · exact List.take_append_drop _ _
      · intro c hc
        simpa using hd c (List.mem_of_mem_drop hc)

/-- `national` for separators of one byte: separators dropped, decimal separators replaced. -/
theorem national_eq (tho dec : UInt8) : ∀ (t : Text) (fuel : Nat), t.length < fuel →
    national ⟨[tho], [dec]⟩ fuel t
      = (t.filter (· ≠ tho)).map (fun c => if c = dec then 46 else c)
  | [], 0, h => by simp at h
  | _ :: _, 0, h => by simp at h
  | [], _ + 1, _ => rfl
  | c :: rest, fuel + 1, h => by
    simp only [List.length_cons] at h
    have ih := national_eq tho dec rest fuel (by omega)
    unfold national
    simp only [List.isPrefixOf, List.length_cons, List.length_nil, Nat.zero_add, List.drop_succ_cons, List.drop_zero,
      Bool.and_true, beq_iff_eq]
    by_cases ht : tho = c
    · rw [if_pos ht, ih, List.filter_cons_of_neg (by simp [ht])]
    · rw [if_neg ht, List.filter_cons_of_pos (by simpa using fun e => ht e.symm), List.map_cons]
      by_cases hd : dec = c
      · rw [if_pos hd, if_pos hd.symm, ih]
      · rw [if_neg hd, if_neg (fun e => hd e.symm), ih]

/-- The formatted text, and its length. -/
theorem pure_plain (tho dec : UInt8) {sg ds fr : Text} (hs : Sign sg) (hd : Digits ds) (hf : Fraction fr) :
    pure tho dec ((sg ++ ds ++ fr).takeWhile (· ≠ 46)).length (sg ++ ds ++ fr) 0 0
      = sg ++ group tho ds ++ localFraction dec fr := by
  have htw : ((sg ++ ds ++ fr).takeWhile (· ≠ 46)).length = sg.length + ds.length := by
    have hall : ∀ c ∈ sg ++ ds, (fun c : UInt8 => decide (c ≠ 46)) c = true := by
      intro c hc
      rcases List.mem_append.1 hc with h | h
      · rcases hs with e | e
        · rw [e] at h; cases h
        · rw [e] at h; rw [List.mem_singleton.1 h]; decide
      · have := digit_ne (d := 46) (hd.2 c h) (by decide)
        simpa using this
    rw [List.takeWhile_append_of_pos hall, List.length_append, List.length_append]
    have : fr.takeWhile (fun c => decide (c ≠ 46)) = [] := by
      rcases hf with e | ⟨f, _, e⟩
      · rw [e]; rfl
      · rw [e]; rfl
    rw [this]
    simp
  rw [htw, List.append_assoc]
  have hfrac : ∀ k, pure tho dec (sg.length + ds.length) fr (sg.length + ds.length) k = localFraction dec fr := by
    intro k
    rcases hf with e | ⟨f, hf, e⟩
    · rw [e]; rfl
    · rw [e, pure, if_pos rfl, pure_fraction tho dec _ f _ _ hf.2 (by omega)]
      rfl
  rcases hs with e | e
  · rw [e] at hfrac ⊢
    simp only [List.nil_append, List.length_nil, Nat.zero_add] at hfrac ⊢
    rw [pure_digits tho dec ds.length ds fr 0 0 hd.2 (by omega), hfrac]
    have : decide (0 = 0) = true := rfl
    rw [this, ins_group tho _ ds (Nat.le_refl _)]
  · rw [e] at hfrac ⊢
    simp only [List.cons_append, List.nil_append, List.length_cons, List.length_nil] at hfrac ⊢
    rw [pure, if_neg (by decide), if_neg (by omega)]
    have : isDigit 45 = false := by decide
    rw [this]
    simp only [Bool.false_eq_true, if_false, List.nil_append]
    rw [pure_digits tho dec _ ds fr (0 + 1) 0 hd.2 rfl, hfrac]
    have : decide (0 = 0) = true := rfl
    rw [this, ins_group tho _ ds (Nat.le_refl _)]

theorem localFraction_length (dec : UInt8) : ∀ fr : Text, (localFraction dec fr).length = fr.length
  | [] => rfl
  | _ :: _ => rfl

theorem format_length (tho dec : UInt8) (sg ds fr : Text) :
    (sg ++ group tho ds ++ localFraction dec fr).length = (sg ++ ds ++ fr).length + (ds.length - 1) / 3 := by
  simp only [List.length_append, group_length tho _ ds (Nat.le_refl _), localFraction_length]
  omega

/-- The exact outcome of `international` on a plain number. -/
theorem international_plain (tho dec : UInt8) (size : Nat) {sg ds fr : Text} (hs : Sign sg) (hd : Digits ds)
    (hf : Fraction fr) :
    international ⟨[tho], [dec]⟩ size (sg ++ ds ++ fr) =
      if (sg ++ ds ++ fr).length + (ds.length - 1) / 3 ≤ min size 128
      then .ok (sg ++ group tho ds ++ localFraction dec fr) else .ub := by
  unfold international
  rw [interLoop_eq, pure_plain tho dec hs hd hf, format_length]
  have : sg ++ group tho ds ++ localFraction dec fr ≠ [] := by
    intro h
    have h2 := congrArg List.length h
    rw [format_length, List.length_nil] at h2
    have : 0 < ds.length := List.length_pos_iff.2 hd.1
    simp only [List.length_append] at h2
    omega
  simp only [this, false_or, List.length_nil, Nat.zero_add, List.nil_append]

theorem localFraction_back {tho dec : UInt8} (hsep : Separators tho dec) {fr : Text} (hf : Fraction fr) :
    ((localFraction dec fr).filter (· ≠ tho)).map (fun c => if c = dec then 46 else c) = fr := by
  obtain ⟨hne, ht, hdec, _, _, _, _⟩ := hsep
  rcases hf with e | ⟨f, hf, e⟩
  · rw [e]; rfl
  · rw [e]
    show ((dec :: f).filter (· ≠ tho)).map (fun c => if c = dec then 46 else c) = 46 :: f
    rw [List.filter_cons_of_pos (by simpa using fun h => hne h.symm), List.filter_eq_self.2, List.map_cons, if_pos rfl]
    · congr 1
      conv => rhs; rw [← List.map_id f]
      apply List.map_congr_left
      intro c hc
      rw [if_neg (digit_ne (hf.2 c hc) hdec)]
      rfl
    · intro c hc
      simpa using digit_ne (hf.2 c hc) ht

theorem sign_back {tho dec : UInt8} (hsep : Separators tho dec) {sg : Text} (hs : Sign sg) :
    (sg.filter (· ≠ tho)).map (fun c => if c = dec then 46 else c) = sg := by
  obtain ⟨_, _, _, ht, hdec, _, _⟩ := hsep
  rcases hs with e | e
  · rw [e]; rfl
  · rw [e, List.filter_cons_of_pos (by simpa using fun h => ht h.symm), List.map_cons,
      if_neg (fun h => hdec h.symm)]
    rfl

/-- Reading back what was formatted. -/
theorem national_format {tho dec : UInt8} (hsep : Separators tho dec) {sg ds fr : Text} (hs : Sign sg)
    (hd : Digits ds) (hf : Fraction fr) (fuel : Nat)
    (hfuel : (sg ++ group tho ds ++ localFraction dec fr).length < fuel) :
    national ⟨[tho], [dec]⟩ fuel (sg ++ group tho ds ++ localFraction dec fr) = sg ++ ds ++ fr := by
  rw [national_eq tho dec _ fuel hfuel, List.filter_append, List.filter_append, List.map_append, List.map_append,
    sign_back hsep hs, localFraction_back hsep hf,
    group_filter tho _ ds (Nat.le_refl _) (fun c hc => digit_ne (hd.2 c hc) hsep.2.1)]
  congr 2
  conv => rhs; rw [← List.map_id ds]
  apply List.map_congr_left
  intro c hc
  rw [if_neg (digit_ne (hd.2 c hc) hsep.2.2.1)]
  rfl

/-- A formatted number contains no zero byte. -/
theorem format_nonzero {tho dec : UInt8} (hsep : Separators tho dec) {sg ds fr : Text} (hs : Sign sg)
    (hd : Digits ds) (hf : Fraction fr) : ∀ c ∈ sg ++ group tho ds ++ localFraction dec fr, c ≠ 0 := by
  intro c hc
  rw [List.mem_append, List.mem_append] at hc
  rcases hc with (hc | hc) | hc
  · rcases hs with e | e
    · rw [e] at hc; cases hc
    · rw [e] at hc; rw [List.mem_singleton.1 hc]; decide
  · rcases group_mem tho _ ds (Nat.le_refl _) c hc with h | h
    · exact digit_ne (hd.2 c h) (by decide)
    · rw [h]; exact hsep.2.2.2.2.2.1
  · rcases hf with e | ⟨f, hf, e⟩
    · rw [e] at hc; cases hc
    · rw [e] at hc
      rcases List.mem_cons.1 hc with h | h
      · rw [h]; exact hsep.2.2.2.2.2.2
      · exact digit_ne (hf.2 c h) (by decide)

theorem takeWhile_zeros : ∀ (l : Text), ∀ c ∈ l.takeWhile (· = 48), c = 48
  | [], c, h => by cases h
  | a :: l, c, h => by
    rw [List.takeWhile_cons] at h
    by_cases ha : a = 48
    · rw [if_pos (by simpa using ha)] at h
      rcases List.mem_cons.1 h with e | e
      · rw [e, ha]
      · exact takeWhile_zeros l c e
    · rw [if_neg (by simpa using ha)] at h
      cases h

/-- Trailing zeros: the fraction loses its zeros, or disappears. -/
theorem strip_spec (sg ds f : Text) (hd : Digits ds) (hf : Digits f) :
    ∃ fr z : Text, Fraction fr ∧ (∀ c ∈ z, c = 48) ∧ stripZeros (sg ++ ds ++ 46 :: f) = .ok (sg ++ ds ++ fr) ∧
      ((fr = [] ∧ f = z) ∨ (46 :: f = fr ++ z ∧ fr.getLast? ≠ some 48)) := by
  have key : ∀ g : Text, (g ++ (46 :: (sg ++ ds).reverse)).dropWhile (· = 48)
      = g.dropWhile (· = 48) ++ (46 :: (sg ++ ds).reverse) := by
    intro g
    induction g with
    | nil => rfl
    | cons a g ih =>
      simp only [List.cons_append, List.dropWhile_cons]
      by_cases ha : a = 48
      · simp only [ha, decide_true, if_true]; exact ih
      · simp only [ha, decide_false, if_false, List.cons_append]
        rfl
  have hrev : (sg ++ ds ++ 46 :: f).reverse = f.reverse ++ (46 :: (sg ++ ds).reverse) := by simp
  have hz : f.reverse = f.reverse.takeWhile (· = 48) ++ f.reverse.dropWhile (· = 48) :=
    (List.takeWhile_append_dropWhile).symm
  have hz' : f = (f.reverse.dropWhile (· = 48)).reverse ++ (f.reverse.takeWhile (· = 48)).reverse := by
    have := congrArg List.reverse hz
    rwa [List.reverse_reverse, List.reverse_append] at this
  have hzero : ∀ c ∈ (f.reverse.takeWhile (· = 48)).reverse, c = 48 := by
    intro c hc
    exact takeWhile_zeros _ c (List.mem_reverse.1 hc)
  unfold stripZeros
  rw [hrev, key]
  cases hdw : f.reverse.dropWhile (· = 48) with
  | nil =>
    refine ⟨[], (f.reverse.takeWhile (· = 48)).reverse, Or.inl rfl, hzero, ?_, Or.inl ⟨rfl, ?_⟩⟩
    · simp
    · rw [hdw] at hz'; exact hz'
  | cons c r =>
    have hcf : c ∈ f := by
      rw [hz', hdw]; simp
    have hc46 : c ≠ 46 := digit_ne (hf.2 c hcf) (by decide)
    have hc48 : c ≠ 48 := by
      have := List.head?_dropWhile_not (· = (48 : UInt8)) f.reverse
      rw [hdw] at this
      simpa using this
    refine ⟨46 :: (c :: r).reverse, (f.reverse.takeWhile (· = 48)).reverse, ?_, hzero, ?_, Or.inr ⟨?_, ?_⟩⟩
    · refine Or.inr ⟨(c :: r).reverse, ⟨by simp, ?_⟩, rfl⟩
      intro x hx
      apply hf.2
      rw [hz', hdw]
      exact List.mem_append_left _ hx
    · simp only [List.cons_append, if_neg hc46]
      simp
    · rw [hdw] at hz'
      rw [List.cons_append, ← hz']
    · rw [List.reverse_cons, ← List.cons_append, List.getLast?_append]
      simp [hc48]

/-! ### Rounding and random numbers -/

/-- `round` answers the nearest whole number. -/
theorem round_nearest (m : Int) (k : Nat) :
    ∃ n : Int, Dbl.round (.fin m k) = .ofInt n ∧ Nearest m k n := by
  refine ⟨_, rfl, ?_⟩
  have hP : (0 : Nat) < 2 ^ k := Nat.two_pow_pos k
  have h1 : (2 * m.natAbs + 2 ^ k) / 2 ^ (k + 1) * 2 ^ (k + 1) ≤ 2 * m.natAbs + 2 ^ k := Nat.div_mul_le_self _ _
  have h2 : 2 * m.natAbs + 2 ^ k < ((2 * m.natAbs + 2 ^ k) / 2 ^ (k + 1) + 1) * 2 ^ (k + 1) := by
    have := Nat.lt_succ_self ((2 * m.natAbs + 2 ^ k) / 2 ^ (k + 1))
    rwa [Nat.div_lt_iff_lt_mul (Nat.two_pow_pos _)] at this
  have h0 : m = 0 → (2 * m.natAbs + 2 ^ k) / 2 ^ (k + 1) = 0 := by
    intro e
    rw [e]
    apply Nat.div_eq_of_lt
    rw [Nat.pow_succ]
    simp only [Int.natAbs_zero]
    omega
  generalize (2 * m.natAbs + 2 ^ k) / 2 ^ (k + 1) = q at h1 h2 h0
  rw [Nat.pow_succ, ← Nat.mul_assoc] at h1 h2
  rw [Nat.add_mul q 1, Nat.one_mul] at h2
  unfold Nearest
  have hPi : ((2 : Int) ^ k) = ((2 ^ k : Nat) : Int) := by simp
  rw [hPi]
  generalize (2 : Nat) ^ k = P at *
  rcases Int.lt_trichotomy m 0 with hm | hm | hm
  · have e : m.sign = -1 := Int.sign_eq_neg_one_iff_neg.2 hm
    rw [e]
    have e2 : (-1 : Int) * (q : Int) * (P : Int) = -((q * P : Nat) : Int) := by
      rw [Int.mul_assoc, Int.neg_mul, Int.one_mul]; simp
    rw [e2]
    clear e2
    generalize q * P = X at *
    omega
  · have e : m.sign = 0 := by rw [hm]; rfl
    rw [e, hm]
    simp only [Int.zero_mul, Int.sub_self, Int.natAbs_zero]
    omega
  · have e : m.sign = 1 := Int.sign_eq_one_iff_pos.2 hm
    rw [e]
    have e2 : (1 : Int) * (q : Int) * (P : Int) = ((q * P : Nat) : Int) := by
      rw [Int.one_mul]; simp
    rw [e2]
    clear e2
    generalize q * P = X at *
    omega

/-- There is only one nearest whole number. -/
theorem nearest_unique {m : Int} {k : Nat} {a b : Int} (ha : Nearest m k a) (hb : Nearest m k b) : a = b := by
  unfold Nearest at ha hb
  have hP : (0 : Nat) < 2 ^ k := Nat.two_pow_pos k
  have hPi : ((2 : Int) ^ k) = ((2 ^ k : Nat) : Int) := by simp
  rw [hPi] at ha hb
  generalize (2 : Nat) ^ k = P at *
  rcases Int.lt_trichotomy a b with h | h | h
  · exfalso
    have h1 : (a + 1) * (P : Int) ≤ b * P := Int.mul_le_mul_of_nonneg_right (by omega) (by omega)
    rw [Int.add_mul, Int.one_mul] at h1
    have h2 : 0 ≤ a → 0 ≤ a * (P : Int) := fun h => Int.mul_nonneg h (by omega)
    have h3 : a ≤ -1 → a * (P : Int) ≤ -1 * P := fun h => Int.mul_le_mul_of_nonneg_right h (by omega)
    generalize a * (P : Int) = A at *
    generalize b * (P : Int) = B at *
    omega
  · exact h
  · exfalso
    have h1 : (b + 1) * (P : Int) ≤ a * P := Int.mul_le_mul_of_nonneg_right (by omega) (by omega)
    rw [Int.add_mul, Int.one_mul] at h1
    have h2 : 0 ≤ b → 0 ≤ b * (P : Int) := fun h => Int.mul_nonneg h (by omega)
    have h3 : b ≤ -1 → b * (P : Int) ≤ -1 * P := fun h => Int.mul_le_mul_of_nonneg_right h (by omega)
    generalize a * (P : Int) = A at *
    generalize b * (P : Int) = B at *
    omega

theorem round_eq {m : Int} {k : Nat} {a : Int} (h : Nearest m k a) : Dbl.round (.fin m k) = .ofInt a := by
  obtain ⟨n, h1, h2⟩ := round_nearest m k
  rw [h1, nearest_unique h2 h]

theorem gt_ofInt (a b : Int) : (Dbl.ofInt a).gt (Dbl.ofInt b) = decide (a > b) := by
  simp [Dbl.ofInt, Dbl.gt]

theorem eq_ofInt (a b : Int) : (Dbl.ofInt a).eq (Dbl.ofInt b) = decide (a = b) := by
  simp only [Dbl.ofInt, Dbl.eq, Int.pow_zero, Int.mul_one]
  by_cases h : a = b
  · simp [h]
  · simp [h]

theorem toInt_ofInt {a : Int} (h : InInt a) : (Dbl.ofInt a).toInt = .ok a := by
  show (if InInt (a.tdiv (2 ^ 0)) then Out.ok (a.tdiv (2 ^ 0)) else Out.ub) = _
  have : a.tdiv (2 ^ 0) = a := by
    show a.tdiv 1 = a
    exact Int.tdiv_one a
  rw [this, if_pos h]

theorem between_nearest {m n : Int} {k l : Nat} {a b : Int} (ha : Nearest m k a) (hb : Nearest n l b)
    (draws : List Int) :
    between (.fin m k) (.fin n l) draws
      = if a > b then betweenRoll (.ofInt b) (.ofInt a) draws else betweenRoll (.ofInt a) (.ofInt b) draws := by
  unfold between
  rw [round_eq ha, round_eq hb]
  dsimp only
  rw [gt_ofInt]
  by_cases h : a > b
  · rw [if_pos h, if_pos (by simpa using h)]
  · rw [if_neg h, if_neg (by simpa using h)]

theorem roll_eq {lo hi : Int} (hlt : lo < hi) (hl : InInt lo) (hh : InInt hi) (hs : hi - lo ≤ 2147483647)
    (draws : List Int) :
    betweenRoll (.ofInt lo) (.ofInt hi) draws
      = .ok (.ofInt ((draws.take 1).sum.tmod (hi - lo + 1) + lo)) := by
  unfold betweenRoll
  rw [eq_ofInt, if_neg (by simp; omega), toInt_ofInt hl, toInt_ofInt hh, Out.ok_bind, Out.ok_bind]
  have e : ((hi - lo).natAbs : Int) = hi - lo := by omega
  have er : (hi - lo + randMax - 1) / randMax = 1 := by unfold randMax; omega
  rw [if_pos (by unfold InInt; omega)]
  simp only [e, er]
  rfl

theorem sum_nonneg : ∀ (l : List Int), (∀ r ∈ l, 0 ≤ r) → 0 ≤ l.sum
  | [], _ => by simp
  | a :: l, h => by
    have h1 := h a (by simp)
    have h2 := sum_nonneg l (fun r hr => h r (by simp [hr]))
    rw [List.sum_cons]
    omega

theorem roll_range {lo hi : Int} (hle : lo ≤ hi) (hl : InInt lo) (hh : InInt hi) (hs : hi - lo ≤ 2147483647)
    (draws : List Int) (hd : ∀ r ∈ draws, 0 ≤ r) :
    ∃ v : Int, betweenRoll (.ofInt lo) (.ofInt hi) draws = .ok (.ofInt v) ∧ lo ≤ v ∧ v ≤ hi := by
  by_cases he : lo = hi
  · refine ⟨lo, ?_, by omega, by omega⟩
    unfold betweenRoll
    rw [eq_ofInt, if_pos (by simpa using he)]
  · refine ⟨_, roll_eq (by omega) hl hh hs draws, ?_, ?_⟩
    · have h0 := sum_nonneg (draws.take 1) (fun r hr => hd r (List.mem_of_mem_take hr))
      have := Int.tmod_nonneg (hi - lo + 1) h0
      omega
    · have := Int.tmod_lt_of_pos (draws.take 1).sum (show 0 < hi - lo + 1 by omega)
      omega

theorem roll_reach {lo hi : Int} (hle : lo ≤ hi) (hl : InInt lo) (hh : InInt hi) (hs : hi - lo ≤ 2147483647)
    (v : Int) (h1 : lo ≤ v) (h2 : v ≤ hi) :
    betweenRoll (.ofInt lo) (.ofInt hi) [v - lo] = .ok (.ofInt v) := by
  by_cases he : lo = hi
  · unfold betweenRoll
    rw [eq_ofInt, if_pos (by simpa using he)]
    have : lo = v := by omega
    rw [this]
  · rw [roll_eq (by omega) hl hh hs]
    have : ([v - lo].take 1).sum = v - lo := by simp
    rw [this, Int.tmod_eq_of_lt (by omega) (by omega)]
    congr 2
    omega

end Verif.Model.Num
