import Verif.Lemmas.TextSearch
import Verif.Lemmas.TextOrder
import Verif.Lemmas.Round
import Verif.Props.Seq

/-!
# Properties of texts: C20 – C29, C46

`Spec.encode cs` is the UTF-8 form of the characters `cs`; a theorem that starts from `cs : List Char` speaks
about every valid text, a theorem that starts from `t : Text` about every byte sequence.
Hypotheses of the form `(Spec.encode cs).length < 2^64` say that the text fits in memory.
-/

namespace Verif.Props.Text
open Verif.Model Verif.Spec
open Verif.Props.Seq (Shows rep_shows)

/-! ### C20 -/

/-- C20: `bytes` is the number of bytes of the encodings of the characters; it is at least `length`, and equal to it
exactly when every character is ASCII. -/
theorem C20_bytes (cs : List Char) :
    Txt.bytes (encode cs) = (cs.map fun c => (encodeChar c).length).sum ∧ cs.length ≤ Txt.bytes (encode cs) ∧
      (Txt.bytes (encode cs) = cs.length ↔ ∀ c ∈ cs, c.toNat < 128) := by
  have hone : ∀ c : Char, 1 ≤ (encodeChar c).length ∧ ((encodeChar c).length = 1 ↔ c.toNat < 128) := by
    intro c
    unfold encodeChar encodeNat
    split
    · simp; omega
    · split
      · simp; omega
      · split <;> · simp; omega
  induction cs with
  | nil => simp [encode, Txt.bytes]
  | cons c cs ih =>
    obtain ⟨h1, h2, h3⟩ := ih
    have hc := hone c
    have e : Txt.bytes (encode (c :: cs)) = (encodeChar c).length + Txt.bytes (encode cs) := by
      simp [Txt.bytes, encode, List.flatMap_cons]
    rw [e]
    refine ⟨by rw [h1]; simp, by simp only [List.length_cons]; omega, ?_⟩
    simp only [List.length_cons, List.mem_cons, forall_eq_or_imp]
    rw [← h3, ← hc.2]
    omega

example : Txt.bytes (encode ['a', 'é', '€', '😀']) = 10 ∧ ∃ c ∈ ['a', 'é'], ¬ c.toNat < 128 := by
  refine ⟨by decide, 'é', by decide, by decide⟩

/-- C20: `length` is the number of characters. -/
theorem C20_length (cs : List Char) (hm : (encode cs).length < 18446744073709551616) :
    Txt.charCount (encode cs) = .ok cs.length := by
  have := Txt.getutf8len_encode cs [] hm
  simpa [Txt.charCount] using this

/-- C20: `characters` shows exactly the characters, in order, and joining them gives back the text. -/
theorem C20_characters (cs : List Char) (str : Option Text → Text) (hstr : ∀ t, str (some t) = t) :
    ∃ arr, Txt.characters (encode cs) = .ok arr ∧ Shows arr (cs.map (fun c => some (encodeChar c))) ∧
      Txt.join arr str [] = .ok (encode cs) := by
  obtain ⟨arr, e, r⟩ := Txt.characters_rep cs
  refine ⟨arr, e, rep_shows r, ?_⟩
  rw [Txt.join_rep r]
  congr 1
  have hcat : ∀ l : List Text, intercalate [] l = l.flatten := by
    intro l
    induction l with
    | nil => rfl
    | cons x l ih =>
      cases l with
      | nil => simp [intercalate]
      | cons y l => simp only [intercalate, ih, List.append_nil, List.flatten_cons]
  rw [hcat]
  simp [encode, List.flatMap, hstr, Function.comp_def]

example : (encode ['a', 'é', '☘', '😀']).length = 10 ∧ Txt.charCount (encode ['a', 'é', '☘', '😀']) = .ok 4 := by
  decide +kernel

example : encode ['a', 'é', '☘', '😀'] = "aé☘😀".toUTF8.toList := by decide +kernel

/-! ### C21 -/

/-- C21 is false as stated: for texts with multi-byte characters the clamping is done in bytes, and the
walk over the characters leaves the text (`'é' from: 2 length: 1`, `'éé' offset: 3`). -/
theorem C21_violated :
    (∃ cs a n, Txt.fromLength (encode cs) a n = .ub) ∧ (∃ cs n, 0 ≤ n ∧ Txt.skip (encode cs) n = .ub) :=
  ⟨⟨['é'], 2, 1, by decide +kernel⟩, ⟨['é', 'é'], 3, by decide, by decide +kernel⟩⟩

/-- C21, part: whenever the requested characters exist, `from:length:` selects exactly those, for every
start and (positive or negative) length. Missing: ranges that reach past the last character of a text with
multi-byte characters; there the program reads outside the text, see `C21_violated` and `C21_exact`. -/
theorem C21_substring_partial (cs : List Char) (a n : Int)
    (hin : (if n < 0 then a - 1 + n else a - 1).toNat + n.natAbs ≤ cs.length) :
    Txt.fromLength (encode cs) a n = .ok (encode (substring cs a n)) := by
  by_cases h0 : n = 0
  · subst h0; simp [Txt.fromLength, substring, Txt.encode_nil]
  · by_cases hne : cs = []
    · subst hne; simp at hin; omega
    · obtain ⟨st, ct, hst, hct, e⟩ := Txt.fromLength_encode cs a n h0 hne
      have hle := Txt.length_le_encode cs
      have h1 : st = (if n < 0 then a - 1 + n else a - 1).toNat := by omega
      have h2 : ct = n.natAbs := by omega
      rw [e, if_pos (by omega), h1, h2]; rfl

/-- C21, part: for texts without multi-byte characters, `from:length:` cuts off at both ends as specified,
for every start and length whatsoever. -/
theorem C21_ascii (cs : List Char) (hasc : ∀ c ∈ cs, c.toNat < 128) (a n : Int) :
    Txt.fromLength (encode cs) a n = .ok (encode (substring cs a n)) := by
  have hlen : (encode cs).length = cs.length := by
    induction cs with
    | nil => rfl
    | cons c cs ih =>
      have h1 := hasc c (by simp)
      have h2 : (encodeChar c).length = 1 := by simp [encodeChar, encodeNat, h1]
      rw [Txt.encode_cons, List.length_append, h2, ih (fun c hc => hasc c (by simp [hc]))]
      simp; omega
  by_cases h0 : n = 0
  · subst h0; simp [Txt.fromLength, substring, Txt.encode_nil]
  · by_cases hne : cs = []
    · subst hne
      simp [Txt.fromLength, substring, Txt.encode_nil]
    · obtain ⟨st, ct, hst, hct, e⟩ := Txt.fromLength_encode cs a n h0 hne
      rw [e, if_pos (by omega)]
      congr 2
      unfold substring
      simp only
      generalize (if n < 0 then a - 1 + n else a - 1).toNat = s0 at *
      by_cases hs : s0 ≤ cs.length
      · have h1 : st = s0 := by omega
        subst h1
        rw [hct, hlen, ← List.length_drop, ← List.take_eq_take_min]
      · rw [List.drop_eq_nil_of_le (by omega), List.drop_eq_nil_of_le (by omega)]; simp

/-- C21, exact extent: with start and length clamped by the number of bytes, `from:length:` reads outside the
text exactly when fewer characters remain, and selects the characters otherwise. -/
theorem C21_exact (cs : List Char) (a n : Int) (h0 : n ≠ 0) (hne : cs ≠ []) (st ct : Nat)
    (hst : st = min (if n < 0 then a - 1 + n else a - 1).toNat (encode cs).length)
    (hct : ct = min n.natAbs ((encode cs).length - st)) :
    (st + ct ≤ cs.length → Txt.fromLength (encode cs) a n = .ok (encode ((cs.drop st).take ct))) ∧
    (cs.length < st + ct → Txt.fromLength (encode cs) a n = .ub) := by
  obtain ⟨st', ct', hst', hct', e⟩ := Txt.fromLength_encode cs a n h0 hne
  have h1 : st' = st := by rw [hst, hst']
  subst h1
  have h2 : ct' = ct := by rw [hct, hct']
  subst h2
  exact ⟨fun h => by rw [e, if_pos h], fun h => by rw [e, if_neg (by omega)]⟩

/-- C21, part: `offset: n` drops the first `n` characters if there are that many. Missing: more characters
than the text has (defined only for texts without multi-byte characters, see `C21_violated`). -/
theorem C21_offset_partial (cs : List Char) (n : Nat) (hn : n ≤ cs.length)
    (hm : (encode cs).length < 18446744073709551616) :
    Txt.skip (encode cs) n = .ok (encode (cs.drop n)) := by
  unfold Txt.skip
  simp only
  by_cases h1 : ((encode cs).length : Int) < (n : Int) + 1
  · rw [if_pos h1]
    have := Txt.length_le_encode cs
    rw [List.drop_eq_nil_of_le (by omega)]; rfl
  · rw [if_neg h1]
    have h2 := Txt.getutf8len_encode cs [] hm
    rw [List.append_nil] at h2
    rw [h2]; simp only [Out.ok_bind]
    rw [C21_substring_partial cs _ _ (by split <;> omega)]
    unfold substring
    simp only
    rw [show ((n : Int) + 1 - 1) = (n : Int) by omega]
    rw [if_neg (by omega), show ((n : Int)).toNat = n by omega,
      List.take_of_length_le (by simp; omega)]

/-- C21, part: `character: i` is the `i`-th character, None if there is none, for every number that is
neither negative nor beyond the range of a size. Missing: negative numbers (converting one to an unsigned
size is undefined in C). -/
theorem C21_character_partial (cs : List Char) (i : Int) (h0 : 0 ≤ i) (hi : i < 18446744073709551616)
    (hm : (encode cs).length < 18446744073709551615) :
    Txt.charAt (encode cs) i = .ok ((position cs i).map encodeChar) := by
  have hle := Txt.length_le_encode cs
  unfold Txt.charAt position
  rw [if_neg (by omega)]
  have h2 := Txt.getutf8len_encode cs [] (by omega)
  rw [List.append_nil] at h2
  rw [h2]; simp only [Out.ok_bind]
  by_cases hz : i = 0
  · subst hz
    rw [if_pos (by simp; omega), if_neg (by omega)]; rfl
  · have ha : ((i - 1) % 18446744073709551616).toNat = (i - 1).toNat := by omega
    rw [ha, if_pos (by omega : (1 : Int) ≤ i)]
    by_cases hge : (i - 1).toNat ≥ cs.length
    · rw [if_pos hge, List.getElem?_eq_none hge]; rfl
    · rw [if_neg hge, Txt.getBytes_drop _ _ (by omega)]
      simp only [Out.ok_bind]
      rw [Txt.getBytes_from _ _ _ (by omega)]
      simp only [Out.ok_bind]
      rw [Txt.slice_encode]
      have hlt : (i - 1).toNat < cs.length := by omega
      rw [List.getElem?_eq_getElem hlt]
      have hd : (cs.drop (i - 1).toNat).take 1 = [cs[(i - 1).toNat]] := by
        rw [List.drop_eq_getElem_cons hlt, List.take_succ_cons, List.take_zero]
      rw [hd]; simp [encode]

example : (if (2 : Int) < 0 then (2 : Int) - 1 + 2 else 2 - 1).toNat + (2 : Int).natAbs ≤ ['a', 'é', '☘', 'b'].length ∧
    Txt.fromLength (encode ['a', 'é', '☘', 'b']) 2 2 = .ok (encode ['é', '☘']) := by decide +kernel

example : Txt.fromLength (encode ['a', 'é', '☘', 'b']) 4 (-2) = .ok (encode ['é', '☘']) := by decide +kernel

example : (∀ c ∈ ['q', 'w', 'e'], c.toNat < 128) ∧
    Txt.fromLength (encode ['q', 'w', 'e']) 3 100 = .ok (encode ['e']) := by decide +kernel

example : Txt.skip (encode ['a', 'é', '☘', 'b']) 2 = .ok (encode ['☘', 'b']) ∧
    Txt.charAt (encode ['a', 'é', '☘', 'b']) 3 = .ok (some (encode ['☘'])) ∧
    Txt.charAt (encode ['a', 'é']) 3 = .ok none := by decide +kernel

/-! ### C22, C23 -/

/-- C22: for every text and every delimiter, splitting gives a sequence of texts, and joining that sequence
with the delimiter restores the text. -/
theorem C22_split_join (t d : Text) (str : Option Text → Text) (hstr : ∀ t, str (some t) = t) :
    ∃ arr parts, Txt.split t d = .ok arr ∧ Shows arr (parts.map some) ∧ parts ≠ [] ∧
      intercalate d parts = t ∧ Txt.join arr str d = .ok t := by
  obtain ⟨arr, parts, e, r, hne, hi⟩ := Txt.split_join t d
  refine ⟨arr, parts, e, rep_shows r, hne, hi, ?_⟩
  rw [Txt.join_rep r, ← hi]
  simp [Function.comp_def, hstr]

/-- `join:` puts the glue between the texts of the elements, for every sequence. -/
theorem C22_join (arr : Verif.Model.Seq (Option Text)) (hs : Verif.Props.Seq.Reachable arr) (l : List (Option Text))
    (hl : Shows arr l) (str : Option Text → Text) (d : Text) :
    Txt.join arr str d = .ok (intercalate d (l.map str)) := by
  obtain ⟨pre, r⟩ := Verif.Props.Seq.rep_of_shows hs hl
  exact Txt.join_rep r str d

example : ∃ arr, Txt.split [1, 44, 2, 44] [44] = .ok arr ∧ Shows arr [some [1], some [2], some []] ∧
    Txt.join arr (fun t => t.getD []) [44] = .ok [1, 44, 2, 44] := by
  refine ⟨_, rfl, rep_shows (pre := []) ⟨rfl, rfl, rfl, [none, none, none, none, none, none], rfl, by simp⟩, rfl⟩

example : ∃ arr : Verif.Model.Seq (Option Text), Verif.Props.Seq.Reachable arr ∧ Shows arr [some [2], none] ∧
    Txt.join arr (fun t => t.getD [78]) [44] = .ok [2, 44, 78] := by
  refine ⟨_, ⟨[.append (some [1]), .append (some [2]), .shift, .append none], _, ?_, rfl⟩,
    rep_shows (pre := [some [1]]) ⟨rfl, rfl, rfl, [none, none, none, none, none, none], rfl, by simp⟩, rfl⟩
  simp [Verif.Props.Seq.InRange]

/-- C23 is false as stated: `'aab' split: 'ab'` gives one part, the whole text. -/
theorem C23_violated : ∃ t d arr p, d ≠ [] ∧ Txt.split t d = .ok arr ∧ Shows arr [some p] ∧ Occurs p d := by
  obtain ⟨arr, e, r⟩ := Txt.split_misses 97 98 1 [] (by decide) (by decide)
  exact ⟨_, _, arr, _, by simp, e, rep_shows r, [97], [], rfl⟩

/-- C23, part: for delimiters that repeat a single byte (in particular all delimiters of one byte), no part
contains the delimiter. Missing: all other delimiters, for which the claim is false (`C23_exact`). -/
theorem C23_split_partial (t : Text) (b : UInt8) (n : Nat) (hn : 0 < n) :
    ∃ (arr : Verif.Model.Seq (Option Text)) (parts : List Text), Txt.split t (List.replicate n b) = .ok arr ∧ Shows arr (parts.map some) ∧
      ∀ p ∈ parts, ¬ Occurs p (List.replicate n b) := by
  have hnil : ¬ Occurs ([] : Text) (List.replicate n b) := by
    rintro ⟨x, y, e⟩
    have := congrArg List.length e
    simp at this; omega
  obtain ⟨arr, parts, e, r, h⟩ := Txt.splitLoop_runs t.length b n hn t [] 0 Seq.rep_new (by simp) hn
    ⟨[], by simp, by simp⟩ hnil
  exact ⟨arr, parts, e, rep_shows (by simpa using r), h⟩

/-- C23, exact extent: `split:` cuts at every delimiter, for every text, if and only if the delimiter repeats
a single byte. -/
theorem C23_exact (d : Text) (hd : d ≠ []) :
    (∀ (t : Text) (arr : Verif.Model.Seq (Option Text)) (parts : List Text), Txt.split t d = .ok arr → Shows arr (parts.map some) → ∀ p ∈ parts, ¬ Occurs p d) ↔
      ∃ b n, d = List.replicate n b := by
  constructor
  · intro h
    match d, hd with
    | b :: d', _ =>
      apply Classical.byContradiction
      intro hno
      -- the leading run of `b`
      have hrun : ∀ l : Text, (∃ n, l = List.replicate n b) ∨
          ∃ m c tl, c ≠ b ∧ l = List.replicate m b ++ c :: tl := by
        intro l
        induction l with
        | nil => left; exact ⟨0, rfl⟩
        | cons x l ih =>
          by_cases hx : x = b
          · subst hx
            rcases ih with ⟨n, rfl⟩ | ⟨m, c, tl, hc, rfl⟩
            · left; exact ⟨n + 1, rfl⟩
            · right; exact ⟨m + 1, c, tl, hc, rfl⟩
          · right; exact ⟨0, x, l, hx, rfl⟩
      rcases hrun d' with ⟨n, rfl⟩ | ⟨m, c, tl, hc, rfl⟩
      · exact hno ⟨b, n + 1, rfl⟩
      · have e0 : b :: (List.replicate m b ++ c :: tl) = List.replicate (m + 1) b ++ c :: tl := rfl
        rw [e0] at h
        obtain ⟨arr, e, r⟩ := Txt.split_misses b c (m + 1) tl (by omega) hc
        exact h _ arr [b :: (List.replicate (m + 1) b ++ c :: tl)] e (rep_shows r)
          (b :: (List.replicate (m + 1) b ++ c :: tl)) List.mem_cons_self
          ⟨[b], [], by simp⟩
  · rintro ⟨b, n, rfl⟩ t arr parts e hs p hp
    have hn : 0 < n := by cases n <;> simp at hd ⊢
    obtain ⟨arr', parts', e', hs', h⟩ := C23_split_partial t b n hn
    rw [e] at e'
    simp only [Out.ok.injEq] at e'
    subst e'
    have := Verif.Props.Seq.shows_unique hs hs'
    have hinj : parts = parts' := by
      have := congrArg (List.map (fun o : Option Text => o.getD [])) this
      simpa [Function.comp_def] using this
    exact h p (hinj ▸ hp)

example : ([44] : Text) ≠ [] ∧ ([44] : Text) = List.replicate 1 44 := by decide

/-! ### C24 -/

/-- C24: for every text, pattern and replacement, `replace:with:` is defined, stays inside its blocks, and
gives the left-to-right replacement of all non-overlapping occurrences. -/
theorem C24_replace (t p r : Text) : Txt.replace t p r = .ok (replaceAll t p r) := Txt.replace_eq t p r

/-- C24: on valid texts the replacement acts on characters; in particular the result is a valid text. -/
theorem C24_replace_characters (cs ps rs : List Char) :
    Txt.replace (encode cs) (encode ps) (encode rs) = .ok (encode (replaceAll cs ps rs)) := by
  rw [C24_replace]
  unfold replaceAll
  by_cases hp : ps = []
  · subst hp; simp [Txt.encode_nil]
  · rw [if_neg hp, if_neg (by simpa [Txt.encode_eq_nil] using hp),
      Txt.replaceFrom_encode ps rs hp cs.length cs (Nat.le_refl _)]

/-- C24: texts without an occurrence are unchanged. -/
theorem C24_no_occurrence (t p r : Text) (h : ¬ Occurs t p) : Txt.replace t p r = .ok t := by
  rw [C24_replace]
  unfold replaceAll
  split
  · rfl
  · rw [Txt.replaceFrom_none]
    intro j hj
    exact h (Txt.occurs_iff.mpr ⟨j, hj⟩)

/-- C24, what the specification means: cutting a text at an occurrence of the pattern that is the first one,
the part before is kept, the occurrence is replaced, and the scan goes on behind it. -/
theorem C24_first_occurrence (a b p r : Text) (hp : p ≠ [])
    (hfirst : ∀ j, j < a.length → ¬ OccursAt (a ++ p ++ b) p j) (t' : Text)
    (hb : Txt.replace b p r = .ok t') :
    Txt.replace (a ++ p ++ b) p r = .ok (a ++ r ++ t') := by
  rw [C24_replace] at hb ⊢
  simp only [replaceAll, if_neg hp, Out.ok.injEq] at hb ⊢
  rw [Txt.replaceFrom_some p r (a ++ p ++ b) hp a.length ⟨a, b, rfl, rfl⟩ hfirst, ← hb]
  congr 2
  · simp
  · rw [← List.length_append]; simp

example : Txt.replace [49, 46, 46, 46, 50, 46, 46] [46, 46] [44, 44, 44] = .ok [49, 44, 44, 44, 46, 50, 44, 44, 44] := by
  decide +kernel
example : ¬ Occurs ([1, 2] : Text) [3] := by
  rintro ⟨a, b, e⟩
  have : (3 : UInt8) ∈ ([1, 2] : Text) := by rw [e]; simp
  revert this; decide
example : ∀ j, j < ([1] : Text).length → ¬ OccursAt ([1] ++ [2] ++ [2] : Text) [2] j := by
  intro j hj
  have : j = 0 := by simpa using hj
  subst this
  rw [Txt.occursAt_iff]; decide

/-! ### C25 -/

/-- C25: `find:` answers the position of the first character where the pattern occurs, None if it does not
occur. -/
theorem C25_find (cs ps : List Char) (hps : ps ≠ []) (hm : (encode cs).length < 18446744073709551616) :
    (∃ k, Txt.indexOf (encode cs) (encode ps) = .ok (some (k + 1)) ∧
        OccursAt cs ps k ∧ ∀ j, j < k → ¬ OccursAt cs ps j) ∨
      (Txt.indexOf (encode cs) (encode ps) = .ok none ∧ ¬ Occurs cs ps) :=
  Txt.indexOf_encode cs ps hps hm

/-- C25: `contains:` is true exactly when the pattern occurs, for all bytes. -/
theorem C25_contains (t p : Text) (hp : p ≠ []) :
    ∃ b, Txt.contains t p = .ok b ∧ (b = true ↔ Occurs t p) := Txt.contains_eq t p hp

/-- C25: the empty text is never found. -/
theorem C25_empty_pattern (t : Text) : Txt.indexOf t [] = .ok none ∧ Txt.lastIndexOf t [] = .ok none ∧
    Txt.contains t [] = .ok false := by
  simp [Txt.indexOf, Txt.lastIndexOf, Txt.contains, Txt.memmem]

theorem toFloat32_small (n : Nat) (h : n ≤ 16777216) : Txt.toFloat32 n = n := by
  by_cases h1 : n < 16777216
  · simp [Txt.toFloat32, h1]
  · have : n = 16777216 := by omega
    subst this; decide +kernel

/-- C25, part: `last:` answers the position of the last character where the pattern occurs, for texts of at
most 2^24 characters. Missing: longer texts, see `C25_violated`. -/
theorem C25_last_partial (cs ps : List Char) (hps : ps ≠ []) (hlen : cs.length ≤ 16777216)
    (hm : (encode cs).length < 18446744073709551616) :
    (∃ k, Txt.lastIndexOf (encode cs) (encode ps) = .ok (some (k + 1)) ∧
        OccursAt cs ps k ∧ ∀ j, k < j → ¬ OccursAt cs ps j) ∨
      (Txt.lastIndexOf (encode cs) (encode ps) = .ok none ∧ ¬ Occurs cs ps) := by
  rcases Txt.lastIndexOf_encode cs ps hps hm with ⟨k, e, h1, h2⟩ | h
  · left
    have hle := Txt.occursAt_le h1
    have hp := List.length_pos_iff.mpr hps
    refine ⟨k, ?_, h1, h2⟩
    rw [e, toFloat32_small k (by omega), toFloat32_small (k + 1) (by omega)]
  · exact Or.inr h

/-- C25, what `last:` answers for texts of every length: the position of the last occurrence, rounded to single
precision before and after the 1 is added. -/
theorem C25_rounding (cs ps : List Char) (hps : ps ≠ []) (hm : (encode cs).length < 18446744073709551616) :
    (∃ k f g, Txt.lastIndexOf (encode cs) (encode ps) = .ok (some g) ∧ OccursAt cs ps k ∧
        (∀ j, k < j → ¬ OccursAt cs ps j) ∧ Rounded k f ∧ Rounded (f + 1) g) ∨
      (Txt.lastIndexOf (encode cs) (encode ps) = .ok none ∧ ¬ Occurs cs ps) := by
  rcases Txt.lastIndexOf_encode cs ps hps hm with ⟨k, e, h1, h2⟩ | h
  · exact Or.inl ⟨k, _, _, e, h1, h2, Txt.toFloat32_rounded k, Txt.toFloat32_rounded _⟩
  · exact Or.inr h

/-- Rounding is an answer: two numbers cannot both be it. The largest odd number below is rounded to the even one. -/
example : (['é'] : List Char) ≠ [] ∧ (encode ['a', 'é', 'b', 'é']).length < 18446744073709551616 ∧
    Txt.lastIndexOf (encode ['a', 'é', 'b', 'é']) (encode ['é']) = .ok (some 4) ∧
    Rounded 16777219 16777220 ∧ ¬ Rounded 16777219 16777219 := by
  refine ⟨by decide, by decide, by decide +kernel, Txt.toFloat32_rounded 16777219, ?_⟩
  rintro ⟨⟨m, e, hm, h⟩, -⟩
  cases e with
  | zero => omega
  | succ e =>
    rw [Nat.pow_succ] at h
    have : 16777219 % 2 = 0 := by rw [h, ← Nat.mul_assoc]; exact Nat.mul_mod_left _ 2
    omega

/-- C25 is false as stated: the answer of `last:` goes through single precision. In a text of 2^24 times 'a'
followed by 'b', 'b' is reported one position too early. -/
theorem C25_violated : ∃ cs ps : List Char, ∃ k, OccursAt cs ps k ∧ (∀ j, j ≠ k → ¬ OccursAt cs ps j) ∧
    Txt.lastIndexOf (encode cs) (encode ps) = .ok (some k) := by
  have hlen : (encode (List.replicate 16777216 'a' ++ ['b'])).length = 16777217 := by
    have : ∀ n, (encode (List.replicate n 'a')).length = n := by
      intro n
      induction n with
      | zero => rfl
      | succ n ih =>
        rw [List.replicate_succ, Txt.encode_cons, List.length_append, ih]
        show (encodeChar 'a').length + n = n + 1
        rw [show (encodeChar 'a').length = 1 from rfl]; omega
    rw [Txt.encode_append, List.length_append, this]; rfl
  have honly : ∀ j, OccursAt (List.replicate 16777216 'a' ++ ['b']) ['b'] j → j = 16777216 := by
    rintro j ⟨a, b, e, rfl⟩
    have hl := congrArg List.length e
    rw [List.length_append, List.length_append, List.length_append, List.length_replicate] at hl
    simp only [List.length_singleton] at hl
    rcases Nat.lt_or_ge a.length 16777216 with h | h
    · have h1 : (List.replicate 16777216 'a' ++ ['b'])[a.length]? = some 'b' := by rw [e]; simp
      rw [List.getElem?_append_left (by rw [List.length_replicate]; exact h), List.getElem?_replicate, if_pos h] at h1
      exact absurd (Option.some.inj h1) (by decide)
    · omega
  refine ⟨List.replicate 16777216 'a' ++ ['b'], ['b'], 16777216,
    ⟨_, [], (List.append_nil _).symm, List.length_replicate⟩, fun j hj h => hj (honly j h), ?_⟩
  rcases Txt.lastIndexOf_encode (List.replicate 16777216 'a' ++ ['b']) ['b'] (by simp) (by rw [hlen]; decide) with
    ⟨k, e, h1, -⟩ | ⟨-, h⟩
  · rw [e, honly k h1]
    exact congrArg (fun n => Out.ok (some n)) (by decide +kernel)
  · exact absurd ⟨_, [], (List.append_nil _).symm⟩ h

example : (encode ['☘', 'a', 'b', 'a']).length < 18446744073709551616 ∧
    Txt.indexOf (encode ['☘', 'a', 'b', 'a']) (encode ['a']) = .ok (some 2) ∧
    Txt.lastIndexOf (encode ['☘', 'a', 'b', 'a']) (encode ['a']) = .ok (some 4) ∧
    Txt.contains (encode ['☘', 'a', 'b', 'a']) (encode ['c']) = .ok false := by decide +kernel

/-! ### C26 -/

/-- C26 is false as stated: two texts that agree up to a NUL byte are reported equal. -/
theorem C26_violated : ∃ s t : Text, s ≠ t ∧ Txt.eq s t = .ok true ∧ Txt.neq s t = .ok false :=
  ⟨[97, 0, 98], [97, 0, 99], by decide, by decide, by decide⟩

/-- C26, part: for texts without NUL bytes, `=` is byte equality. Missing: texts with NUL bytes
(`C26_violated`). -/
theorem C26_equality_partial (s t : Text) (hs : (0 : UInt8) ∉ s) :
    Txt.eq s t = .ok (decide (s = t)) ∧ Txt.neq s t = .ok (decide (s ≠ t)) := by
  unfold Txt.eq Txt.neq
  by_cases hl : t.length = s.length
  · simp only [hl, ne_eq, not_true_eq_false, if_false]
    obtain ⟨r, e, h1, -, -⟩ := Txt.strncmp_nulFree s t hs
    rw [hl, Nat.min_self] at e
    obtain ⟨r', e1, e2⟩ := Txt.strncmp_ok s t s.length (by omega) (by omega)
    rw [e] at e1
    simp only [Out.ok.injEq] at e1
    subst e1
    rw [e2]
    have hiff : r.swap = .eq ↔ s = t := by
      constructor
      · intro h
        have : r = .eq := by cases r <;> simp_all
        rcases h1.mp this with h | h
        · exact h.eq_of_length hl.symm
        · exact (h.eq_of_length hl).symm
      · rintro rfl
        have := h1.mpr (Or.inl (List.prefix_refl _))
        rw [this]; rfl
    by_cases hst : s = t
    · simp [hst, hiff.mpr hst]
    · have : r.swap ≠ .eq := fun h => hst (hiff.mp h)
      cases hr : r.swap <;> simp_all
  · have : s ≠ t := fun h => hl (by rw [h])
    simp [hl, this]

/-- C26: for all texts, NUL bytes included, equality tests are defined, equal texts are equal, `≠` is the
complement of `=`, and the order of the operands does not matter. -/
theorem C26_always (s t : Text) : ∃ b, Txt.eq s t = .ok b ∧ Txt.neq s t = .ok (!b) ∧ Txt.eq t s = .ok b ∧
    (s = t → b = true) := by
  unfold Txt.eq Txt.neq
  by_cases hl : t.length = s.length
  · obtain ⟨r, e1, e2⟩ := Txt.strncmp_ok t s s.length (by omega) (by omega)
    have hrefl : ∀ (l : Text) n, n ≤ l.length → Txt.strncmp l l n = .ok .eq := by
      intro l
      induction l with
      | nil => intro n hn; have : n = 0 := by simpa using hn
               subst this; rfl
      | cons a l ih =>
        intro n hn
        cases n with
        | zero => rfl
        | succ n =>
          simp only [Txt.strncmp, ne_eq, not_true_eq_false, if_false]
          split
          · rfl
          · exact ih n (by simpa using hn)
    refine ⟨r == .eq, by simp [hl, e1], by simp [hl, e1], ?_, ?_⟩
    · simp [hl, e2]
      cases r <;> rfl
    · rintro rfl
      rw [hrefl s _ (Nat.le_refl _)] at e1
      simp only [Out.ok.injEq] at e1
      subst e1; rfl
  · refine ⟨false, by simp [hl], by simp [hl], by rw [if_pos (Ne.symm hl)], ?_⟩
    rintro rfl; exact absurd rfl hl

example : (0 : UInt8) ∉ (encode ['a', '☘']) ∧ Txt.eq (encode ['a', '☘']) (encode ['a', '☘']) = .ok true := by
  decide +kernel

/-! ### C27 -/

/-- C27 is false as stated: a text and a prefix of it compare as the same although they differ, and
"compares as the same" is not even transitive. -/
theorem C27_violated : ∃ s t u : Text, s ≠ t ∧ Txt.cmp s t = .ok .eq ∧ Txt.cmp t u = .ok .eq ∧
    Txt.cmp s u = .ok .lt :=
  ⟨[97, 98], [97], [97, 99], by decide, by decide, by decide, by decide⟩

/-- C27: comparison is defined for all texts, the four tests agree with `compare:`, and exchanging the
operands reverses the answer. -/
theorem C27_consistent (s t : Text) : ∃ r, Txt.cmp s t = .ok r ∧ Txt.cmp t s = .ok r.swap ∧
    Txt.before s t = .ok (r == .lt) ∧ Txt.after s t = .ok (r == .gt) ∧
    Txt.beforeOrSame s t = .ok (r != .gt) ∧ Txt.afterOrSame s t = .ok (r != .lt) := by
  obtain ⟨r, e1, e2⟩ := Txt.cmp_ok s t
  refine ⟨r, e1, e2, ?_, ?_, ?_, ?_⟩ <;> simp [Txt.before, Txt.after, Txt.beforeOrSame, Txt.afterOrSame, e1] <;>
    cases r <;> rfl

/-- C27, exact answer for texts without NUL bytes: equal if one text begins with the other, otherwise the
byte-wise lexicographic order. -/
theorem C27_compare_exact (s t : Text) (hs : (0 : UInt8) ∉ s) :
    ∃ r, Txt.cmp s t = .ok r ∧ (r = .eq ↔ s <+: t ∨ t <+: s) ∧
      (r = .lt ↔ lexLt s t ∧ ¬ s <+: t) ∧ (r = .gt ↔ lexLt t s ∧ ¬ t <+: s) := Txt.cmp_nulFree s t hs

/-- C27, part: on texts without NUL bytes of the same length, `before` is a strict total order and "compares
as the same" is equality. Missing: texts of different lengths and texts with NUL bytes (`C27_violated`). -/
theorem C27_total_order_partial (n : Nat) (s t u : Text) (hs : (0 : UInt8) ∉ s) (ht : (0 : UInt8) ∉ t)
    (ls : s.length = n) (lt : t.length = n) (lu : u.length = n) :
    (Txt.cmp s t = .ok .eq ↔ s = t) ∧
    (Txt.before s t = .ok true ∨ s = t ∨ Txt.before t s = .ok true) ∧
    (Txt.before s t = .ok true → Txt.before t s = .ok false) ∧
    (Txt.before s t = .ok true → Txt.before t u = .ok true → Txt.before s u = .ok true) := by
  have key : ∀ s t : Text, (0 : UInt8) ∉ s → s.length = n → t.length = n →
      ∃ r, Txt.cmp s t = .ok r ∧ (r = .eq ↔ s = t) ∧ (r = .lt ↔ lexLt s t) ∧ (r = .gt ↔ lexLt t s) := by
    intro s t hs ls lt
    obtain ⟨r, e, h1, h2, h3⟩ := Txt.cmp_nulFree s t hs
    have hp : s <+: t ↔ s = t := ⟨fun h => h.eq_of_length (by omega), fun h => h ▸ List.prefix_refl _⟩
    have hp' : t <+: s ↔ s = t := ⟨fun h => (h.eq_of_length (by omega)).symm, fun h => h ▸ List.prefix_refl _⟩
    refine ⟨r, e, ?_, ?_, ?_⟩
    · rw [h1, hp, hp', or_self]
    · rw [h2, hp]
      constructor
      · exact fun h => h.1
      · intro h; exact ⟨h, fun he => by rw [he] at h; exact Txt.lexLt_irrefl _ h⟩
    · rw [h3, hp']
      constructor
      · exact fun h => h.1
      · intro h; exact ⟨h, fun he => by rw [he] at h; exact Txt.lexLt_irrefl _ h⟩
  have bef : ∀ s t : Text, (0 : UInt8) ∉ s → s.length = n → t.length = n →
      (Txt.before s t = .ok true ↔ lexLt s t) ∧ (Txt.before s t = .ok false ↔ ¬ lexLt s t) := by
    intro s t hs ls lt
    obtain ⟨r, e, -, h2, -⟩ := key s t hs ls lt
    rw [← h2]
    cases r <;> simp [Txt.before, e]
  refine ⟨?_, ?_, ?_, ?_⟩
  · obtain ⟨r, e, h1, -, -⟩ := key s t hs ls lt
    rw [e, ← h1]; simp
  · rw [(bef s t hs ls lt).1, (bef t s ht lt ls).1]
    exact Txt.lexLt_total s t
  · rw [(bef s t hs ls lt).1, (bef t s ht lt ls).2]
    exact fun h h' => Txt.lexLt_irrefl _ (Txt.lexLt_trans h h')
  · rw [(bef s t hs ls lt).1, (bef t u ht lt lu).1, (bef s u hs ls lu).1]
    exact Txt.lexLt_trans

example : (0 : UInt8) ∉ ([1, 2] : Text) ∧ (0 : UInt8) ∉ ([1, 3] : Text) ∧
    Txt.before [1, 2] [1, 3] = .ok true ∧ Txt.before [1, 3] [2, 0] = .ok true := by decide +kernel

/-! ### C28 -/

/-- C28: `+` is concatenation of the bytes and stays inside its block; `-` undoes it. -/
theorem C28_concat (s t : Text) : Txt.concat s t = .ok (s ++ t) ∧ Txt.minus (s ++ t) t = .ok s := by
  constructor
  · simp [Txt.concat, Txt.appendTo, Txt.slice, List.take_of_length_le]
  · unfold Txt.minus
    simp only
    rw [if_neg (by simp)]
    rw [show (s ++ t).length - t.length = s.length by simp]
    simp [Txt.matchAt, Txt.slice]

/-- C28: `-` leaves a text that does not end in the argument unchanged, and is always defined. -/
theorem C28_minus (s t : Text) (h : ¬ ∃ a, s = a ++ t) : Txt.minus s t = .ok s := by
  unfold Txt.minus
  simp only
  split
  · rfl
  · rename_i hle
    obtain ⟨b, e, hb⟩ := Txt.matchAt_eq s t (s.length - t.length) (by omega)
    rw [e]
    cases b with
    | false => rfl
    | true =>
      exfalso
      obtain ⟨a, c, rfl, hl⟩ := hb.mp rfl
      apply h
      refine ⟨a, ?_⟩
      simp at hl
      have : c = [] := List.length_eq_zero_iff.mp (by omega)
      rw [this]; simp

/-- C28: concatenating valid texts concatenates their characters. -/
theorem C28_concat_characters (a b : List Char) : Txt.concat (encode a) (encode b) = .ok (encode (a ++ b)) := by
  rw [(C28_concat _ _).1, Txt.encode_append]

example : ¬ ∃ a, ([1, 2] : Text) = a ++ [1] := by
  rintro ⟨a, e⟩
  have := congrArg List.getLast? e
  simp at this

/-! ### C29 -/

/-- C29: `remove surrounding spaces` is defined for every text and gives the text without its longest
white-space prefix and suffix. -/
theorem C29_trim (t : Text) : ∃ r, Txt.trim t = .ok r ∧ IsTrimmed t r ∧ (∀ r', IsTrimmed t r' → r' = r) := by
  obtain ⟨r, e, h⟩ := Txt.trim_spec t
  exact ⟨r, e, h, fun r' h' => Txt.isTrimmed_unique h' h⟩

/-- C29: trimming twice equals trimming once. -/
theorem C29_trim_twice (t r : Text) (h : Txt.trim t = .ok r) : Txt.trim r = .ok r := by
  obtain ⟨r1, e1, h1⟩ := Txt.trim_spec t
  rw [h] at e1
  simp only [Out.ok.injEq] at e1
  subst e1
  obtain ⟨r2, e2, h2⟩ := Txt.trim_spec r
  rw [e2, Txt.isTrimmed_unique h2 (Txt.isTrimmed_self h1)]

example : Txt.trim [32, 9, 97, 32, 98, 10, 32] = .ok [97, 32, 98] ∧ Txt.trim [32, 32] = .ok [] := by decide

/-! ### C46 -/

/-- C46 is false as stated: `uppercase` of an empty text frees a pointer that is not from the heap. -/
theorem C46_violated : Txt.upper (Txt.build (encode [])) = .ub ∧ Txt.lower (Txt.build (encode [])) = .ub :=
  ⟨rfl, rfl⟩

/-- C46, part: `uppercase` and `lowercase` change exactly the ASCII letters, for every non-empty text.
Missing: the empty text. -/
theorem C46_case_partial (cs : List Char) (h : cs ≠ []) :
    ∃ u l, Txt.upper (Txt.build (encode cs)) = .ok u ∧ u.val = encode (cs.map Char.toUpper) ∧
      Txt.lower (Txt.build (encode cs)) = .ok l ∧ l.val = encode (cs.map Char.toLower) := by
  have ho : decide ((encode cs).length ≠ 0) = true := by
    simpa [Txt.encode_eq_nil] using h
  refine ⟨⟨_, true⟩, ⟨_, true⟩, ?_, (Txt.encode_upper cs).symm, ?_, (Txt.encode_lower cs).symm⟩
  · simp [Txt.upper, Txt.build]
    simpa [Txt.encode_eq_nil] using h
  · simp [Txt.lower, Txt.build]
    simpa [Txt.encode_eq_nil] using h

example : (['a', 'é', 'Z'] : List Char) ≠ [] ∧ ['a', 'é', 'Z'].map Char.toUpper = ['A', 'é', 'Z'] := by decide

end Verif.Props.Text
