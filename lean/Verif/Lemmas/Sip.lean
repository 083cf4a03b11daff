import Verif.Model.Sip
import Verif.Spec.Sip

/-!
# Lemmas about SipHash
-/

namespace Verif.Model.Sip

open Verif.Spec.Sip (State)

theorem rotate_nat (x : W) (b : Nat) (hb : b ≤ 64) : (rotate x b).toNat = Verif.Spec.Sip.rotl x.toNat b := by
  unfold rotate Verif.Spec.Sip.rotl
  rw [BitVec.toNat_or, BitVec.toNat_shiftLeft, BitVec.toNat_ushiftRight, Nat.shiftLeft_eq, Nat.shiftRight_eq_div_pow]
  have hx := x.isLt
  have h64 : (2 : Nat) ^ 64 = 2 ^ (64 - b) * 2 ^ b := by rw [← Nat.pow_add]; congr 1; omega
  have h1 : x.toNat * 2 ^ b % 2 ^ 64 = (x.toNat % 2 ^ (64 - b)) * 2 ^ b := by
    rw [h64, Nat.mul_mod_mul_right]
  have h2 : x.toNat / 2 ^ (64 - b) < 2 ^ b := by
    rw [Nat.div_lt_iff_lt_mul (Nat.two_pow_pos _), Nat.mul_comm, ← h64]; exact hx
  rw [h1]
  have := Nat.shiftLeft_add_eq_or_of_lt h2 (x.toNat % 2 ^ (64 - b))
  rw [Nat.shiftLeft_eq] at this
  exact this.symm

/-- A state of the model as a state of the specification. -/
def toState (v : V) : State := ⟨v.v0.toNat, v.v1.toNat, v.v2.toNat, v.v3.toNat⟩

theorem add_nat (x y : W) : (x + y).toNat = Verif.Spec.Sip.add x.toNat y.toNat := by
  rw [BitVec.toNat_add]; rfl

theorem half_spec (a b c d : W) (s t : Nat) (hs : s ≤ 64) (ht : t ≤ 64) :
    (halfRound a b c d s t).1.toNat
        = Verif.Spec.Sip.rotl (Verif.Spec.Sip.add a.toNat b.toNat) 32 ∧
      (halfRound a b c d s t).2.1.toNat
        = Verif.Spec.Sip.rotl b.toNat s ^^^ Verif.Spec.Sip.add a.toNat b.toNat ∧
      (halfRound a b c d s t).2.2.1.toNat = Verif.Spec.Sip.add c.toNat d.toNat ∧
      (halfRound a b c d s t).2.2.2.toNat
        = Verif.Spec.Sip.rotl d.toNat t ^^^ Verif.Spec.Sip.add c.toNat d.toNat := by
  refine ⟨?_, ?_, ?_, ?_⟩
  · show (rotate (a + b) 32).toNat = _
    rw [rotate_nat _ 32 (by decide), add_nat]
  · show (rotate b s ^^^ (a + b)).toNat = _
    rw [BitVec.toNat_xor, rotate_nat _ s hs, add_nat]
  · exact add_nat c d
  · show (rotate d t ^^^ (c + d)).toNat = _
    rw [BitVec.toNat_xor, rotate_nat _ t ht, add_nat]

theorem twoHalves_spec (v : V) : toState (twoHalves v) = Verif.Spec.Sip.sipRound (toState v) := by
  obtain ⟨v0, v1, v2, v3⟩ := v
  unfold twoHalves
  obtain ⟨h0, h1, h2, h3⟩ := half_spec v0 v1 v2 v3 13 16 (by decide) (by decide)
  dsimp only
  generalize halfRound v0 v1 v2 v3 13 16 = r at h0 h1 h2 h3
  obtain ⟨a0, a1, a2, a3⟩ := r
  dsimp only at h0 h1 h2 h3 ⊢
  obtain ⟨g2, g1, g0, g3⟩ := half_spec a2 a1 a0 a3 17 21 (by decide) (by decide)
  generalize halfRound a2 a1 a0 a3 17 21 = r at g0 g1 g2 g3
  obtain ⟨b2, b1, b0, b3⟩ := r
  dsimp only at g0 g1 g2 g3 ⊢
  simp only [toState, g0, g1, g2, g3, h0, h1, h2, h3, Verif.Spec.Sip.sipRound]

theorem doubleRound_spec (v : V) : toState (doubleRound v) = Verif.Spec.Sip.rounds 2 (toState v) := by
  rw [doubleRound, twoHalves_spec, twoHalves_spec, Verif.Spec.Sip.rounds]
  generalize Verif.Spec.Sip.sipRound = f
  rfl

/-- Bytes as numbers. -/
def nats (t : Text) : List Nat := t.map UInt8.toNat

theorem le_lt : ∀ (t : Text), Verif.Spec.Sip.le (nats t) < 256 ^ t.length
  | [] => by simp [nats, Verif.Spec.Sip.le]
  | b :: t => by
    have ih := le_lt t
    have hb := b.toNat_lt
    simp only [nats, List.map_cons, Verif.Spec.Sip.le, List.length_cons, Nat.pow_succ] at ih ⊢
    omega

theorem ofBytes_le : ∀ (t : Text), t.length ≤ 8 → (ofBytes t).toNat = Verif.Spec.Sip.le (nats t)
  | [], _ => rfl
  | b :: t, h => by
    have ih := ofBytes_le t (by simp only [List.length_cons] at h; omega)
    have hlt := le_lt t
    have hb := b.toNat_lt
    have hlen : t.length ≤ 7 := by simp only [List.length_cons] at h; omega
    have h7 : 256 ^ t.length ≤ 256 ^ 7 := Nat.pow_le_pow_right (by decide) hlen
    rw [ofBytes, BitVec.toNat_or, BitVec.toNat_shiftLeft, ih]
    simp only [nats, List.map_cons, Verif.Spec.Sip.le] at hlt ⊢
    have e1 : (BitVec.setWidth 64 b.toBitVec).toNat = b.toNat := by
      rw [BitVec.toNat_setWidth]
      show b.toNat % 2 ^ 64 = b.toNat
      exact Nat.mod_eq_of_lt (by omega)
    rw [e1, Nat.shiftLeft_eq, Nat.mod_eq_of_lt (by
      have : (256 : Nat) ^ 7 * 2 ^ 8 = 2 ^ 64 := by decide
      have h2 : Verif.Spec.Sip.le (List.map UInt8.toNat t) * 2 ^ 8 < 256 ^ 7 * 2 ^ 8 :=
        Nat.mul_lt_mul_of_pos_right (Nat.lt_of_lt_of_le hlt h7) (by decide)
      omega)]
    have := Nat.shiftLeft_add_eq_or_of_lt (i := 8) (b := b.toNat) (by omega)
      (Verif.Spec.Sip.le (List.map UInt8.toNat t))
    rw [Nat.shiftLeft_eq] at this
    rw [Nat.or_comm, ← this]
    omega

theorem load_ok {m : Text} {i : Nat} (h : i + 8 ≤ m.length) :
    load m i = .ok (ofBytes ((m.drop i).take 8)) := by
  simp only [load, Txt.slice, if_pos h, Out.ok_bind]

theorem le_append : ∀ (a b : List Nat),
    Verif.Spec.Sip.le (a ++ b) = Verif.Spec.Sip.le a + 256 ^ a.length * Verif.Spec.Sip.le b
  | [], b => by simp [Verif.Spec.Sip.le]
  | x :: a, b => by
    simp only [List.cons_append, Verif.Spec.Sip.le, le_append a b, List.length_cons, Nat.pow_succ]
    grind

theorem le_zeros : ∀ (n : Nat), Verif.Spec.Sip.le (List.replicate n 0) = 0
  | 0 => rfl
  | n + 1 => by simp only [List.replicate_succ, Verif.Spec.Sip.le, le_zeros n]

theorem toState_xor3 (v : V) (w : W) :
    toState ⟨v.v0, v.v1, v.v2, v.v3 ^^^ w⟩ = Verif.Spec.Sip.xor3 (toState v) w.toNat := by
  simp only [toState, BitVec.toNat_xor, Verif.Spec.Sip.xor3]

theorem toState_xor0 (v : V) (w : W) :
    toState ⟨v.v0 ^^^ w, v.v1, v.v2, v.v3⟩ = Verif.Spec.Sip.xor0 (toState v) w.toNat := by
  simp only [toState, BitVec.toNat_xor, Verif.Spec.Sip.xor0]

theorem toState_xor2 (v : V) (w : W) :
    toState ⟨v.v0, v.v1, v.v2 ^^^ w, v.v3⟩ = Verif.Spec.Sip.xor2 (toState v) w.toNat := by
  simp only [toState, BitVec.toNat_xor, Verif.Spec.Sip.xor2]

theorem toState_all (v : V) :
    ((v.v0 ^^^ v.v1) ^^^ (v.v2 ^^^ v.v3)).toNat = Verif.Spec.Sip.xorAll (toState v) := by
  simp only [toState, BitVec.toNat_xor, Verif.Spec.Sip.xorAll]
  rw [← Nat.xor_assoc]

/-- One step of the loop is the compression of one word. -/
theorem mix_spec (v : V) (w : W) : toState (mix v w) = Verif.Spec.Sip.compress 2 (toState v) w.toNat := by
  unfold mix Verif.Spec.Sip.compress
  rw [← toState_xor3, ← doubleRound_spec, ← toState_xor0]

theorem iterate_add {α : Type} (f : α → α) : ∀ (n k : Nat) (s : α),
    Verif.Spec.Sip.iterate f (n + k) s = Verif.Spec.Sip.iterate f k (Verif.Spec.Sip.iterate f n s)
  | 0, k, s => by rw [Nat.zero_add]; rfl
  | n + 1, k, s => by
    rw [Nat.add_right_comm]
    exact iterate_add f n k (f s)

theorem rounds_add (n k : Nat) (s : State) :
    Verif.Spec.Sip.rounds (n + k) s = Verif.Spec.Sip.rounds k (Verif.Spec.Sip.rounds n s) :=
  iterate_add Verif.Spec.Sip.sipRound n k s

theorem ff_nat : (0xff#64).toNat = 0xff := by decide

theorem finish_spec (v : V) : (finish v).toNat =
    Verif.Spec.Sip.xorAll (Verif.Spec.Sip.rounds 4 (Verif.Spec.Sip.xor2 (toState v) 0xff)) := by
  have h := toState_xor2 v 0xff#64
  rw [ff_nat] at h
  have h4 := rounds_add 2 2 (Verif.Spec.Sip.xor2 (toState v) 0xff)
  rw [← h] at h4 ⊢
  unfold finish
  rw [h4, ← doubleRound_spec, ← doubleRound_spec, ← toState_all]

theorem initial_spec (k0 k1 : W) : toState (initial k0 k1) = Verif.Spec.Sip.start k0.toNat k1.toNat := by
  simp only [toState, initial, BitVec.toNat_xor, BitVec.toNat_ofNat, Nat.reducePow, Nat.reduceMod,
    Verif.Spec.Sip.start]

theorem blocks_spec (m : Text) : ∀ (fuel i sz : Nat) (v : V), i + sz = m.length → sz < fuel →
    ∃ v' : V, blocks m fuel i sz v = .ok (v', i + 8 * (sz / 8), sz % 8) ∧
      toState v' = (Verif.Spec.Sip.words (sz / 8) (nats (m.drop i))).foldl (Verif.Spec.Sip.compress 2) (toState v)
  | 0, _, _, _, _, h => by omega
  | fuel + 1, i, sz, v, he, h => by
    unfold blocks
    by_cases h8 : sz ≥ 8
    · rw [if_pos h8, load_ok (by omega)]
      simp only [Out.ok_bind]
      obtain ⟨v', h1, h2⟩ := blocks_spec m fuel (i + 8) (sz - 8) _ (by omega) (by omega)
      refine ⟨v', ?_, ?_⟩
      · rw [h1]
        have a : (sz - 8) % 8 = sz % 8 := by omega
        have b : i + 8 + 8 * ((sz - 8) / 8) = i + 8 * (sz / 8) := by omega
        rw [a, b]
      · have a : sz / 8 = (sz - 8) / 8 + 1 := by omega
        rw [h2, mix_spec, a, Verif.Spec.Sip.words, List.foldl_cons, ofBytes_le _ (by
          rw [List.length_take]; omega)]
        simp only [nats, List.map_take, List.map_drop, List.drop_drop]
    · rw [if_neg h8]
      have a : sz / 8 = 0 := by omega
      have b : sz % 8 = sz := by omega
      refine ⟨v, ?_, ?_⟩
      · rw [a, b]; rfl
      · rw [a]; rfl

theorem tail_spec (m : Text) (i sz : Nat) (h : i + sz = m.length) (h8 : sz < 8) :
    ∃ w : W, tail m i sz = .ok w ∧ w.toNat = Verif.Spec.Sip.le (nats (m.drop i)) := by
  have e : ∀ j : Nat, m[i + j]? = (m.drop i)[j]? := fun j => by rw [List.getElem?_drop]
  have e4 : Txt.slice m i 4 = if 4 ≤ (m.drop i).length then .ok ((m.drop i).take 4) else .ub := by
    unfold Txt.slice
    rw [List.length_drop]
    by_cases hc : i + 4 ≤ m.length
    · rw [if_pos hc, if_pos (by omega)]
    · rw [if_neg hc, if_neg (by omega)]
  have hl : (m.drop i).length = sz := by rw [List.length_drop]; omega
  unfold tail copyByte
  simp only [e, e4]
  generalize m.drop i = l at hl
  have fin : ∀ t : Text, t.length ≤ 8 → Verif.Spec.Sip.le (nats t) = Verif.Spec.Sip.le (nats l) →
      ∃ w : W, (Out.ok (ofBytes t) : Out W) = .ok w ∧ w.toNat = Verif.Spec.Sip.le (nats l) :=
    fun t ht hh => ⟨_, rfl, (ofBytes_le t ht).trans hh⟩
  subst hl
  match l, h8 with
  | [], _ => exact fin (List.replicate 8 0) (by decide) (by decide)
  | [a], _ => exact fin [a, 0, 0, 0, 0, 0, 0, 0] (by simp) (by simp [nats, Verif.Spec.Sip.le])
  | [a, b], _ => exact fin [a, b, 0, 0, 0, 0, 0, 0] (by simp) (by simp [nats, Verif.Spec.Sip.le])
  | [a, b, c], _ => exact fin [a, b, c, 0, 0, 0, 0, 0] (by simp) (by simp [nats, Verif.Spec.Sip.le])
  | [a, b, c, d], _ => exact fin [a, b, c, d, 0, 0, 0, 0] (by simp) (by simp [nats, Verif.Spec.Sip.le])
  | [a, b, c, d, x], _ => exact fin [a, b, c, d, x, 0, 0, 0] (by simp) (by simp [nats, Verif.Spec.Sip.le])
  | [a, b, c, d, x, y], _ => exact fin [a, b, c, d, x, y, 0, 0] (by simp) (by simp [nats, Verif.Spec.Sip.le])
  | [a, b, c, d, x, y, z], _ =>
    exact fin [a, b, c, d, x, y, z, 0] (by simp) (by simp [nats, Verif.Spec.Sip.le])
  | _ :: _ :: _ :: _ :: _ :: _ :: _ :: _ :: _, h8 => exact absurd h8 (by simp)

theorem words_append : ∀ (n : Nat) (a b : List Nat), 8 * n ≤ a.length →
    Verif.Spec.Sip.words n (a ++ b) = Verif.Spec.Sip.words n a
  | 0, _, _, _ => rfl
  | n + 1, a, b, h => by
    simp only [Verif.Spec.Sip.words]
    rw [List.take_append_of_le_length (by omega), List.drop_append_of_le_length (by omega),
      words_append n (a.drop 8) b (by rw [List.length_drop]; omega)]

theorem words_last : ∀ (n : Nat) (l : List Nat),
    Verif.Spec.Sip.words (n + 1) l = Verif.Spec.Sip.words n l ++ [Verif.Spec.Sip.le ((l.drop (8 * n)).take 8)]
  | 0, l => by simp [Verif.Spec.Sip.words]
  | n + 1, l => by
    rw [Verif.Spec.Sip.words, words_last n (l.drop 8), Verif.Spec.Sip.words, List.cons_append, List.drop_drop]
    have : 8 + 8 * n = 8 * (n + 1) := by omega
    rw [this]

/-- The words of a padded message: the whole words, then the last bytes with the length. -/
theorem words_padded (m : List Nat) :
    Verif.Spec.Sip.words ((Verif.Spec.Sip.padded m).length / 8) (Verif.Spec.Sip.padded m)
      = Verif.Spec.Sip.words (m.length / 8) m
        ++ [Verif.Spec.Sip.le (m.drop (8 * (m.length / 8))) + 2 ^ 56 * (m.length % 256)] := by
  have hl : (Verif.Spec.Sip.padded m).length = 8 * (m.length / 8 + 1) := by
    simp only [Verif.Spec.Sip.padded, List.length_append, List.length_replicate, List.length_cons, List.length_nil]
    omega
  rw [hl, Nat.mul_div_cancel_left _ (by decide), words_last]
  have h1 : Verif.Spec.Sip.words (m.length / 8) (Verif.Spec.Sip.padded m)
      = Verif.Spec.Sip.words (m.length / 8) m := by
    unfold Verif.Spec.Sip.padded
    rw [List.append_assoc, words_append _ _ _ (by omega)]
  have hl2 : ((Verif.Spec.Sip.padded m).drop (8 * (m.length / 8))).length = 8 := by
    rw [List.length_drop, hl]; omega
  rw [h1, List.take_of_length_le (by omega)]
  congr 2
  unfold Verif.Spec.Sip.padded
  rw [List.append_assoc, List.drop_append_of_le_length (by omega), le_append, le_append, le_zeros,
    List.length_drop, List.length_replicate]
  simp only [Verif.Spec.Sip.le, Nat.mul_zero, Nat.add_zero, Nat.zero_add]
  rw [← Nat.mul_assoc, ← Nat.pow_add]
  have : m.length - 8 * (m.length / 8) + (7 - m.length % 8) = 7 := by omega
  rw [this]

/-- The last word of the code. -/
theorem lastWord (n : Nat) (t : W) (ht : t.toNat < 2 ^ 56) :
    ((BitVec.ofNat 64 n <<< 56) ||| t).toNat = t.toNat + 2 ^ 56 * (n % 256) := by
  rw [BitVec.toNat_or, BitVec.toNat_shiftLeft, BitVec.toNat_ofNat, Nat.shiftLeft_eq]
  have e : n % 2 ^ 64 * 2 ^ 56 % 2 ^ 64 = (n % 256) * 2 ^ 56 := by omega
  rw [e]
  have := Nat.shiftLeft_add_eq_or_of_lt (i := 56) (b := t.toNat) ht (n % 256)
  rw [Nat.shiftLeft_eq] at this
  rw [← this]
  omega

/-- The code computes SipHash-2-4 and never reads outside the text and the key. -/
theorem siphash24_spec (m key : Text) (hk : 16 ≤ key.length) :
    ∃ w : W, siphash24 m key = .ok w ∧
      w.toNat = Verif.Spec.Sip.hash 2 4 (nats key) (nats m) := by
  unfold siphash24
  rw [load_ok (by omega), load_ok (by omega)]
  simp only [Out.ok_bind]
  have a0 := ofBytes_le ((key.drop 0).take 8) (by rw [List.length_take]; omega)
  have a1 := ofBytes_le ((key.drop 8).take 8) (by rw [List.length_take]; omega)
  have hinit := initial_spec (ofBytes ((key.drop 0).take 8)) (ofBytes ((key.drop 8).take 8))
  generalize initial _ _ = v at hinit
  rw [a0, a1] at hinit
  obtain ⟨v', h1, h2⟩ := blocks_spec m (m.length + 1) 0 m.length v (by omega) (by omega)
  rw [h1]
  simp only [Out.ok_bind]
  obtain ⟨t, h3, h4⟩ := tail_spec m (0 + 8 * (m.length / 8)) (m.length % 8) (by omega) (by omega)
  rw [h3]
  simp only [Out.ok_bind]
  have ht : t.toNat < 2 ^ 56 := by
    rw [h4]
    have := le_lt (m.drop (0 + 8 * (m.length / 8)))
    rw [List.length_drop] at this
    have h7 : 256 ^ (m.length - (0 + 8 * (m.length / 8))) ≤ 256 ^ 7 := Nat.pow_le_pow_right (by decide) (by omega)
    have e7 : (256 : Nat) ^ 7 = 2 ^ 56 := by decide
    omega
  have hb := lastWord m.length t ht
  generalize (BitVec.ofNat 64 m.length <<< 56) ||| t = b at hb
  refine ⟨_, rfl, ?_⟩
  rw [finish_spec, mix_spec]
  unfold Verif.Spec.Sip.hash
  have hlen : (nats m).length = m.length := by simp [nats]
  have hdrop : (nats m).drop (8 * (m.length / 8)) = nats (m.drop (0 + 8 * (m.length / 8))) := by
    simp [nats]
  have hw : Verif.Spec.Sip.words ((Verif.Spec.Sip.padded (nats m)).length / 8) (Verif.Spec.Sip.padded (nats m))
      = Verif.Spec.Sip.words (m.length / 8) (nats (m.drop 0)) ++ [b.toNat] := by
    rw [words_padded, hlen, hdrop, ← h4, ← hb, List.drop_zero]
  have hk0 : Verif.Spec.Sip.le ((nats key).take 8) = Verif.Spec.Sip.le (nats ((key.drop 0).take 8)) := by
    simp [nats]
  have hk1 : Verif.Spec.Sip.le (((nats key).drop 8).take 8) = Verif.Spec.Sip.le (nats ((key.drop 8).take 8)) := by
    simp [nats]
  rw [hw, hk0, hk1, ← hinit, List.foldl_append, ← h2, List.foldl_cons, List.foldl_nil]

theorem decimal_value : ∀ (fuel n : Nat), n < 10 ^ fuel → 0 < fuel →
    Verif.Spec.Sip.numeral (nats (decimal fuel n)) = n ∧ (decimal fuel n).length ≤ fuel
  | 0, _, _, h => by omega
  | fuel + 1, n, h, _ => by
    unfold decimal
    have d : ∀ k : Nat, k < 10 → (UInt8.ofNat (48 + k)).toNat = 48 + k := fun k hk => by
      rw [UInt8.toNat_ofNat']; omega
    by_cases h10 : n < 10
    · rw [if_pos h10]
      simp only [nats, List.map_cons, List.map_nil, Verif.Spec.Sip.numeral, List.foldl_cons, List.foldl_nil,
        d n h10, List.length_cons, List.length_nil]
      omega
    · rw [if_neg h10]
      have hf : 0 < fuel := by
        rcases Nat.eq_zero_or_pos fuel with e | e
        · subst e; omega
        · exact e
      obtain ⟨h1, h2⟩ := decimal_value fuel (n / 10) (by rw [Nat.pow_succ] at h; omega) hf
      simp only [nats, Verif.Spec.Sip.numeral] at h1
      simp only [nats, List.map_append, List.map_cons, List.map_nil, Verif.Spec.Sip.numeral, List.foldl_append,
        List.foldl_cons, List.foldl_nil, h1, d (n % 10) (Nat.mod_lt _ (by decide)), List.length_append,
        List.length_cons, List.length_nil]
      omega

theorem decimal_fuel : ∀ (fuel fuel' n : Nat), n < 10 ^ fuel → 0 < fuel → fuel ≤ fuel' →
    decimal fuel' n = decimal fuel n
  | 0, _, _, _, h, _ => by omega
  | _ + 1, 0, _, _, _, h => by omega
  | fuel + 1, fuel' + 1, n, h, _, hle => by
    unfold decimal
    by_cases h10 : n < 10
    · rw [if_pos h10, if_pos h10]
    · have hf : 0 < fuel := by
        rcases Nat.eq_zero_or_pos fuel with e | e
        · subst e; omega
        · exact e
      rw [if_neg h10, if_neg h10, decimal_fuel fuel fuel' (n / 10) (by rw [Nat.pow_succ] at h; omega) hf (by omega)]

theorem decimal_ne_nil (fuel n : Nat) : decimal (fuel + 1) n ≠ [] := by
  unfold decimal
  by_cases h10 : n < 10
  · rw [if_pos h10]; simp
  · rw [if_neg h10]; simp

theorem decimal_digits : ∀ (fuel n : Nat), ∀ c ∈ decimal fuel n, 48 ≤ c.toNat ∧ c.toNat ≤ 57
  | 0, _ => by simp [decimal]
  | fuel + 1, n => by
    have d : ∀ k : Nat, k < 10 → (UInt8.ofNat (48 + k)).toNat = 48 + k := fun k hk => by
      rw [UInt8.toNat_ofNat']; omega
    intro c hc
    unfold decimal at hc
    by_cases h10 : n < 10
    · rw [if_pos h10, List.mem_singleton] at hc
      rw [hc, d n h10]; omega
    · rw [if_neg h10, List.mem_append, List.mem_singleton] at hc
      rcases hc with hc | hc
      · exact decimal_digits fuel _ c hc
      · rw [hc, d _ (Nat.mod_lt _ (by decide))]; omega

theorem strlen_cstring (t : Text) : strlen (cstring t) = (t.filter (· ≠ 0)).length := by
  unfold strlen cstring
  rw [List.takeWhile_append_of_pos (by
    intro a ha
    simpa using (List.mem_filter.1 ha).2)]
  simp

end Verif.Model.Sip
