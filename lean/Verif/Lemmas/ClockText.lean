import Verif.Model.ClockText
import Verif.Spec.ClockText
import Verif.Lemmas.Clock

/-!
# Lemmas about written dates and weeks
-/

namespace Verif.Lemmas.ClockText
open Verif Verif.Model Verif.Model.Clock Verif.Spec Verif.Lemmas.Clock

theorem digit_inj {x y : Nat} (hx : x < 10) (hy : y < 10) (h : UInt8.ofNat (48 + x) = UInt8.ofNat (48 + y)) : x = y := by
  have := congrArg UInt8.toNat h
  simp only [UInt8.toNat_ofNat'] at this
  omega

theorem two_digits_inj {n m : Int} {t : Text} (h1 : TwoDigits n t) (h2 : TwoDigits m t) : n = m := by
  obtain ⟨x, y, hx, hy, rfl, rfl⟩ := h1
  obtain ⟨x', y', hx', hy', rfl, h⟩ := h2
  injection h with h h'
  injection h' with h'
  have := digit_inj hx hx' h
  have := digit_inj hy hy' h'
  omega

theorem two_digits_length {n : Int} {t : Text} (h : TwoDigits n t) : t.length = 2 := by
  obtain ⟨_, _, _, _, _, rfl⟩ := h
  rfl

theorem two_digits_two {n : Int} (h0 : 0 ≤ n) (h1 : n < 100) : TwoDigits n (two n) := by
  refine ⟨(n / 10 % 10).toNat, (n % 10).toNat, by omega, by omega, by omega, rfl⟩

theorem two_digits_eq {n : Int} {t : Text} (h : TwoDigits n t) : t = two n := by
  obtain ⟨x, y, hx, hy, rfl, rfl⟩ := h
  unfold two
  rw [show ((10 * (x : Int) + y) / 10 % 10).toNat = x by omega, show ((10 * (x : Int) + y) % 10).toNat = y by omega]

theorem shows_length {yr : Int → Text} {d e : DateTime} {f : Field} {a b : Text} (hf : f ≠ .year) (h1 : d.Shows yr f a)
    (h2 : e.Shows yr f b) : a.length = b.length := by
  cases f with
  | year => exact absurd rfl hf
  | byte c => rw [show a = [c] from h1, show b = [c] from h2]
  | half =>
    rcases h1 with ⟨_, rfl⟩ | ⟨_, rfl⟩ <;> rcases h2 with ⟨_, rfl⟩ | ⟨_, rfl⟩ <;> rfl
  | hour12 =>
    obtain ⟨_, _, _, _, h1⟩ := h1
    obtain ⟨_, _, _, _, h2⟩ := h2
    rw [two_digits_length h1, two_digits_length h2]
  | _ => rw [two_digits_length h1, two_digits_length h2]

theorem writes_length {yr : Int → Text} {d e : DateTime} : ∀ {fs : List Field} {a b : Text}, Field.year ∉ fs →
    d.Writes yr fs a → e.Writes yr fs b → a.length = b.length := by
  intro fs
  induction fs with
  | nil => intro a b _ h1 h2; cases h1; cases h2; rfl
  | cons f fs ih =>
    intro a b hn h1 h2
    cases h1 with
    | cons s1 w1 =>
      cases h2 with
      | cons s2 w2 =>
        rw [List.length_append, List.length_append, shows_length (fun h => hn (h ▸ List.mem_cons_self)) s1 s2,
          ih (fun h => hn (List.mem_cons_of_mem _ h)) w1 w2]

theorem both_show {yr : Int → Text} {d e : DateTime} : ∀ {fs : List Field} {a b : Text}, fs.count .year ≤ 1 → a = b →
    d.Writes yr fs a → e.Writes yr fs b → ∀ f ∈ fs, ∃ s, d.Shows yr f s ∧ e.Shows yr f s := by
  intro fs
  induction fs with
  | nil => intro a b _ _ _ _ f hf; cases hf
  | cons g fs ih =>
    intro a b hc he h1 h2
    cases h1 with
    | @cons _ _ a1 b1 s1 w1 =>
      cases h2 with
      | @cons _ _ a2 b2 s2 w2 =>
        have hl : a1.length = a2.length := by
          by_cases hg : g = .year
          · subst hg
            have hn : Field.year ∉ fs := by
              rw [List.count_cons_self] at hc
              exact List.count_eq_zero.1 (by omega)
            have := writes_length hn w1 w2
            have := congrArg List.length he
            rw [List.length_append, List.length_append] at this
            omega
          · exact shows_length hg s1 s2
        obtain ⟨e1, e2⟩ := List.append_inj he hl
        have hc' : fs.count .year ≤ 1 := Nat.le_trans (List.count_le_count_cons) hc
        intro f hf
        rcases List.mem_cons.1 hf with rfl | hf
        · exact ⟨a1, s1, e1 ▸ s2⟩
        · exact ih hc' e2 w1 w2 f hf

theorem written_apart {yr : Int → Text} (hy : ∀ a b, yr a = yr b → a = b) {fs : List Field} (hc : AllParts fs)
    {d e : DateTime} (hd : d.Valid) (he : e.Valid) {t : Text} (h1 : d.Writes yr fs t) (h2 : e.Writes yr fs t) : d = e := by
  obtain ⟨hyr, hmo, hda, hmi, hse, hho⟩ := hc
  have B := both_show (by omega) rfl h1 h2
  have a1 : d.year = e.year := by
    obtain ⟨s, p, q⟩ := B .year (List.count_pos_iff.1 (by omega))
    exact hy _ _ (p.symm.trans q)
  have a2 : d.month = e.month := by
    obtain ⟨s, p, q⟩ := B .month hmo
    exact two_digits_inj p q
  have a3 : d.day = e.day := by
    obtain ⟨s, p, q⟩ := B .day hda
    exact two_digits_inj p q
  have a5 : d.minute = e.minute := by
    obtain ⟨s, p, q⟩ := B .minute hmi
    exact two_digits_inj p q
  have a6 : d.second = e.second := by
    obtain ⟨s, p, q⟩ := B .second hse
    exact two_digits_inj p q
  have a4 : d.hour = e.hour := by
    rcases hho with hho | ⟨hho, hha⟩
    · obtain ⟨s, p, q⟩ := B .hour hho
      exact two_digits_inj p q
    · obtain ⟨s, ⟨x, x1, x2, x3, p⟩, y, y1, y2, y3, q⟩ := B .hour12 hho
      obtain ⟨s', p', q'⟩ := B .half hha
      have := two_digits_inj p q
      have h1 := hd.hour
      have h2 := he.hour
      have hh : d.hour < 12 ↔ e.hour < 12 := by
        rcases p' with ⟨a, rfl⟩ | ⟨a, rfl⟩ <;> rcases q' with ⟨b, hb⟩ | ⟨b, hb⟩
        · exact ⟨fun _ => b, fun _ => a⟩
        · exact absurd hb (by decide)
        · exact absurd hb (by decide)
        · omega
      omega
  cases d; cases e
  simp only at a1 a2 a3 a4 a5 a6
  subst a1 a2 a3 a4 a5 a6
  rfl

/-- The conversion for a part of a written date. -/
def toPiece : Field → Piece
  | .year => .year
  | .month => .month
  | .day => .day
  | .hour => .hour
  | .hour12 => .hour12
  | .minute => .minute
  | .second => .second
  | .half => .half
  | .byte c => .byte c

theorem day_le {d : DateTime} (h : d.Valid) : d.day ≤ 31 := by
  have := h.day.2
  rw [monthLength_eq] at this
  have := (mlen_le (leap d.year) (d.month - 1)).2
  omega

theorem shows_piece (yr : Int → Text) (b : Tm) (h : (toDate b).Valid) (f : Field) :
    (toDate b).Shows yr f (piece yr b (toPiece f)) := by
  have hd := day_le h
  have h1 := h.month; have h2 := h.day; have h3 := h.hour; have h4 := h.minute; have h5 := h.second
  cases f with
  | year => rfl
  | month => exact two_digits_two (by omega) (by omega)
  | day => exact two_digits_two (by omega) (by omega)
  | hour => exact two_digits_two (by omega) (by omega)
  | minute => exact two_digits_two (by omega) (by omega)
  | second => exact two_digits_two (by omega) (by omega)
  | byte c => rfl
  | half =>
    show (b.hour < 12 ∧ (if b.hour < 12 then _ else _) = _) ∨ (12 ≤ b.hour ∧ (if b.hour < 12 then _ else _) = _)
    by_cases hb : b.hour < 12
    · exact .inl ⟨hb, if_pos hb⟩
    · exact .inr ⟨by omega, if_neg hb⟩
  | hour12 =>
    have h3 : 0 ≤ b.hour ∧ b.hour < 24 := h3
    refine ⟨if b.hour % 12 = 0 then 12 else b.hour % 12, ?_, ?_, ?_, ?_⟩
    · split <;> omega
    · split <;> omega
    · show 12 ∣ b.hour - _
      split <;> omega
    · exact two_digits_two (by split <;> omega) (by split <;> omega)

theorem writes_pieces (yr : Int → Text) (b : Tm) (h : (toDate b).Valid) : ∀ fs : List Field,
    (toDate b).Writes yr fs ((fs.map toPiece).flatMap (piece yr b))
  | [] => .nil
  | f :: fs => by
    rw [List.map_cons, List.flatMap_cons]
    exact .cons (shows_piece yr b h f) (writes_pieces yr b h fs)

/-- How many numbers up to `k` have the remainder `r` after division by 7. -/
theorem count_seven (a : Int) (h0 : 0 ≤ a ∧ a < 7) (p : Nat → Bool) (hp : ∀ i : Nat, p i = true ↔ (a - (i : Int)) % 7 = 1) :
    ∀ k : Nat, (((List.range (k + 1)).filter p).length : Int) = ((k : Int) + 7 - (a + 6) % 7) / 7
  | 0 => by
    rw [List.range_succ, List.filter_append, List.length_append]
    cases h : p 0
    · have : ¬ (a - ((0 : Nat) : Int)) % 7 = 1 := fun e => by rw [(hp 0).2 e] at h; cases h
      rw [List.filter_cons_of_neg (by rw [h]; decide)]
      show ((0 : Nat) : Int) = _
      omega
    · have := (hp 0).1 h
      rw [List.filter_cons_of_pos h]
      show ((1 : Nat) : Int) = _
      omega
  | k + 1 => by
    have ih := count_seven a h0 p hp k
    rw [List.range_succ, List.filter_append, List.length_append]
    cases h : p (k + 1)
    · have : ¬ (a - ((k + 1 : Nat) : Int)) % 7 = 1 := fun e => by rw [(hp (k + 1)).2 e] at h; cases h
      rw [List.filter_cons_of_neg (by rw [h]; decide)]
      show ((_ + 0 : Nat) : Int) = _
      omega
    · have := (hp (k + 1)).1 h
      rw [List.filter_cons_of_pos h]
      show ((_ + 1 : Nat) : Int) = _
      omega

end Verif.Lemmas.ClockText
