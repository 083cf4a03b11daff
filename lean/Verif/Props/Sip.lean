import Verif.Lemmas.Sip

/-!
# Properties of `hash:`: C30

`Spec.Sip.hash 2 4 key m` is SipHash-2-4 as published, over natural numbers.
-/

namespace Verif.Props.Sip
open Verif.Model Verif.Model.Sip

/-- The published test vector (appendix A of the paper): the specification is the well-known function. -/
example : Verif.Spec.Sip.hash 2 4 (List.range 16) (List.range 15) = 0xa129ca6149be45e5 := by decide +kernel

/-- C30: the hash function of the run time (also used for property names, `world.c:121-124`) is SipHash-2-4 of the
bytes under the first 16 key bytes, for every text and every key of at least 16 bytes; nothing outside
the text and the key is read. -/
theorem C30_function (m key : Text) (hk : 16 ≤ key.length) :
    ∃ w : W, siphash24 m key = .ok w ∧
      w.toNat = Verif.Spec.Sip.hash 2 4 ((key.take 16).map UInt8.toNat) (m.map UInt8.toNat) := by
  obtain ⟨w, h1, h2⟩ := siphash24_spec m key hk
  refine ⟨w, h1, h2.trans ?_⟩
  unfold Verif.Spec.Sip.hash
  congr 4
  unfold nats
  rw [← List.map_take, ← List.map_drop, ← List.map_take, ← List.map_take, ← List.map_drop, ← List.map_take,
    List.take_take, List.drop_take, List.take_take]
  rfl

/-- A key longer than 16 bytes, and a text of 15 bytes with the value of the published test vector. -/
example : 16 ≤ ((List.range 20).map UInt8.ofNat).length ∧
    siphash24 ((List.range 15).map UInt8.ofNat) ((List.range 20).map UInt8.ofNat) = .ok 0xa129ca6149be45e5#64 := by
  decide +kernel

/-- C30: whatever the text and the key are, `hash:` reads nothing outside of them, and answers an error exactly when
fewer than 16 non-zero bytes are in the key. -/
theorem C30_safe (text key : Text) :
    ∃ r, hashWithKey text key = .ok r ∧ (r = none ↔ (key.filter (· ≠ 0)).length < 16) := by
  unfold hashWithKey
  dsimp only
  rw [strlen_cstring]
  by_cases h : (key.filter (· ≠ 0)).length < 16
  · rw [if_pos h]
    exact ⟨none, rfl, by simp only [h]⟩
  · rw [if_neg h]
    obtain ⟨w, h1, _⟩ := siphash24_spec text (cstring key) (by
      unfold cstring; rw [List.length_append]; omega)
    rw [h1]
    exact ⟨_, rfl, by simp only [h, reduceCtorEq]⟩

/-- C30, part: with a key whose first 16 bytes are not zero, `hash:` answers the decimal numeral of SipHash-2-4 of
the text under those 16 bytes.  Missing: keys with a zero byte among the first 16. -/
theorem C30_partial (text key : Text) (hk : 16 ≤ key.length) (hz : ∀ b ∈ key.take 16, b ≠ 0) :
    ∃ t : Text, hashWithKey text key = .ok (some t) ∧ t ≠ [] ∧
      (∀ c ∈ t, 48 ≤ c.toNat ∧ c.toNat ≤ 57) ∧
      Verif.Spec.Sip.numeral (t.map UInt8.toNat)
        = Verif.Spec.Sip.hash 2 4 ((key.take 16).map UInt8.toNat) (text.map UInt8.toNat) := by
  have hf : key.filter (· ≠ 0) = key.take 16 ++ (key.drop 16).filter (· ≠ 0) := by
    conv => lhs; rw [← List.take_append_drop 16 key]
    rw [List.filter_append]
    congr 1
    rw [List.filter_eq_self]
    intro b hb
    simpa using hz b hb
  have hl : (key.take 16).length = 16 := by rw [List.length_take]; omega
  have hlen : 16 ≤ (key.filter (· ≠ 0)).length := by rw [hf, List.length_append]; omega
  obtain ⟨w, h1, h2⟩ := C30_function text (cstring key) (by
    unfold cstring; rw [List.length_append]; omega)
  have htake : (cstring key).take 16 = key.take 16 := by
    unfold cstring
    rw [hf, List.append_assoc, List.take_append_of_le_length (by omega), List.take_of_length_le (by omega)]
  rw [htake] at h2
  have hw := w.isLt
  have h64 : (2 : Nat) ^ 64 ≤ 10 ^ 39 := by decide
  obtain ⟨h3, h4⟩ := decimal_value 39 w.toNat (by omega) (by decide)
  have h5 : decimal 40 w.toNat = decimal 39 w.toNat := decimal_fuel 39 40 w.toNat (by omega) (by decide) (by decide)
  refine ⟨decimal 39 w.toNat, ?_, decimal_ne_nil 38 _, decimal_digits 39 _, h3.trans h2⟩
  unfold hashWithKey
  dsimp only
  rw [strlen_cstring, if_neg (by omega), h1, Out.ok_bind, h5, List.take_of_length_le h4]

example : 16 ≤ ([1, 2, 3, 4, 5, 6, 7, 8, 9, 10, 11, 12, 13, 14, 15, 16, 0] : Text).length ∧
    (∀ b ∈ ([1, 2, 3, 4, 5, 6, 7, 8, 9, 10, 11, 12, 13, 14, 15, 16, 0] : Text).take 16, b ≠ 0) := by decide

/-- C30 is false as stated: zero bytes of a key are dropped.  A key of 16 bytes with a zero byte is refused, and a
longer key with a zero byte in front is used shifted by one, which gives another hash. -/
theorem C30_violated :
    hashWithKey [104, 105] (0 :: List.replicate 15 7) = .ok none ∧
      ∃ t : Text, hashWithKey [104, 105] (0 :: List.replicate 16 7) = .ok (some t) ∧
        Verif.Spec.Sip.numeral (t.map UInt8.toNat)
          ≠ Verif.Spec.Sip.hash 2 4 (((0 :: List.replicate 16 7).take 16)) [104, 105] := by
  refine ⟨by decide +kernel, ?_⟩
  obtain ⟨r, h1, h2⟩ := Out.of_sat (o := hashWithKey [104, 105] (0 :: List.replicate 16 7))
    (p := fun r => match r with
      | some t => decide (Verif.Spec.Sip.numeral (t.map UInt8.toNat)
          ≠ Verif.Spec.Sip.hash 2 4 (((0 :: List.replicate 16 7).take 16)) [104, 105])
      | none => false) (by decide +kernel)
  cases r with
  | none => cases h2
  | some t => exact ⟨t, h1, of_decide_eq_true h2⟩

end Verif.Props.Sip
