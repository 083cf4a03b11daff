import Verif.Model.Json

/-!
# Escapes and numbers in JSON: lemmas
-/

namespace Verif.Lemmas.Json
open Verif Verif.Spec.Json Verif.Model.Json
open Verif.Model (Text)

/-! ## Reading a text in quotes -/

theorem at_byte (qs : Text) {c : UInt8} (hc : c ≠ 92) (r out : Text) (b : Bool) :
    unescapeAt qs (c :: r) out b = (c :: r, out, b) := by
  induction qs generalizing out b with
  | nil => rfl
  | cons q qs ih =>
    unfold unescapeAt
    split
    · next h => injection h with h; exact absurd h hc
    · exact ih out b

theorem at_esc {c : UInt8} (hc : c ∈ usual.map (·.1)) (r out : Text) :
    unescapeAt unescapes (92 :: c :: r) out false = (c :: r, out ++ [letter c], true) := by
  have : c = 34 ∨ c = 92 ∨ c = 98 ∨ c = 110 ∨ c = 114 ∨ c = 116 := by simpa [usual] using hc
  rcases this with rfl | rfl | rfl | rfl | rfl | rfl <;>
    simp [unescapeAt, unescapes, describe, isControl, letter, letters]

theorem loop_pieces (ps : List Piece) (h : FinePieces ps) : ∀ (out : Text) (n : Nat), (ps.flatMap Piece.written).length ≤ n →
    unescapeLoop unescapes n (ps.flatMap Piece.written) out = out ++ ps.map Piece.meant := by
  induction ps with
  | nil =>
    intro out n _
    cases n <;> simp [unescapeLoop]
  | cons p ps ih =>
    intro out n hn
    cases p with
    | byte c =>
      obtain ⟨h1, h2⟩ := h
      have hc : c ≠ 92 := fun e => h1 (by simp [e])
      simp only [List.flatMap_cons, Piece.written, List.cons_append, List.nil_append, List.length_cons] at hn ⊢
      obtain ⟨n, rfl⟩ : ∃ m, n = m + 1 := ⟨n - 1, by omega⟩
      unfold unescapeLoop
      dsimp only
      rw [at_byte _ hc]
      dsimp only
      rw [List.tail_cons, ih h2 _ _ (by omega)]
      simp [Piece.meant]
    | esc c =>
      obtain ⟨h1, _, h2⟩ := h
      simp only [List.flatMap_cons, Piece.written, List.cons_append, List.nil_append, List.length_cons] at hn ⊢
      obtain ⟨n, rfl⟩ : ∃ m, n = m + 1 := ⟨n - 1, by omega⟩
      unfold unescapeLoop
      dsimp only
      rw [at_esc h1]
      dsimp only
      rw [List.tail_cons, ih h2 _ _ (by omega)]
      simp [Piece.meant]
    | uni a b c d => exact h.elim

/-- The bytes after a backslash that count. -/
def D : List UInt8 := [34, 116, 98, 110, 114, 12, 92]

/-- Pairs of a backslash and one of these. -/
def pairsAny : Text → Nat
  | a :: b :: r => (if a = 92 ∧ b ∈ D then 1 else 0) + pairsAny (b :: r)
  | _ => 0

theorem pairs_sum (t : Text) : (unescapes.map fun q => pairs (describe q) t).sum = pairsAny t := by
  have e : unescapes.map (fun q => pairs (describe q) t) = D.map (fun d => pairs d t) := by
    simp [unescapes, describe, D]
  rw [e]
  induction t with
  | nil => simp [pairs, pairsAny, D]
  | cons a t ih =>
    cases t with
    | nil => simp [pairs, pairsAny, D]
    | cons b r =>
      have hs : ∀ x ∈ D, pairs x (a :: b :: r) = (if a = 92 ∧ b = x then 1 else 0) + pairs x (b :: r) := fun x _ => rfl
      rw [List.map_congr_left hs]
      have hsum : ∀ l : List UInt8, (l.map fun d => (if a = 92 ∧ b = d then 1 else 0) + pairs d (b :: r)).sum =
          (l.map fun d => if a = 92 ∧ b = d then 1 else 0).sum + (l.map fun d => pairs d (b :: r)).sum := by
        intro l
        induction l with
        | nil => rfl
        | cons x l ih => simp only [List.map_cons, List.sum_cons, ih]; omega
      rw [hsum, ih (by rfl)]
      conv => rhs; unfold pairsAny
      congr 1
      by_cases ha : a = 92
      · simp only [ha, true_and]
        by_cases hb : b ∈ D
        · rw [if_pos hb]
          have : b = 34 ∨ b = 116 ∨ b = 98 ∨ b = 110 ∨ b = 114 ∨ b = 12 ∨ b = 92 := by simpa [D] using hb
          rcases this with rfl | rfl | rfl | rfl | rfl | rfl | rfl <;> decide
        · rw [if_neg hb]
          have : b ≠ 34 ∧ b ≠ 116 ∧ b ≠ 98 ∧ b ≠ 110 ∧ b ≠ 114 ∧ b ≠ 12 ∧ b ≠ 92 := by simpa [D] using hb
          simp [D, this]
      · simp [ha, D]

theorem any_byte {a : UInt8} (h : a ≠ 92) (t : Text) : pairsAny (a :: t) = pairsAny t := by
  cases t with
  | nil => rfl
  | cons b r => unfold pairsAny; rw [if_neg (fun x => h x.1)]; cases r <;> simp [pairsAny]

theorem any_pieces (ps : List Piece) (h : FinePieces ps) :
    pairsAny (ps.flatMap Piece.written) + ps.length = (ps.flatMap Piece.written).length := by
  induction ps with
  | nil => rfl
  | cons p ps ih =>
    cases p with
    | byte c =>
      obtain ⟨h1, h2⟩ := h
      have hc : c ≠ 92 := fun e => h1 (by simp [e])
      simp only [List.flatMap_cons, Piece.written, List.cons_append, List.nil_append, List.length_cons]
      rw [any_byte hc]
      have := ih h2
      omega
    | esc c =>
      obtain ⟨h1, h3, h2⟩ := h
      have := ih h2
      simp only [List.flatMap_cons, Piece.written, List.cons_append, List.nil_append, List.length_cons]
      have hD : c ∈ D := by
        have : c = 34 ∨ c = 92 ∨ c = 98 ∨ c = 110 ∨ c = 114 ∨ c = 116 := by simpa [usual] using h1
        rcases this with rfl | rfl | rfl | rfl | rfl | rfl <;> decide
      have e : pairsAny (92 :: c :: ps.flatMap Piece.written) = 1 + pairsAny (c :: ps.flatMap Piece.written) := by
        conv => lhs; unfold pairsAny
        rw [if_pos ⟨rfl, hD⟩]
      rw [e]
      by_cases hc : c = 92
      · have hl := h3 hc
        subst hc
        have e2 : pairsAny (92 :: ps.flatMap Piece.written) = pairsAny (ps.flatMap Piece.written) := by
          cases hw : ps.flatMap Piece.written with
          | nil => rfl
          | cons b r =>
            conv => lhs; unfold pairsAny
            rw [if_neg, Nat.zero_add]
            rintro ⟨_, hb⟩
            rw [hw] at hl
            have h34 : b ≠ 34 := by
              cases ps with
              | nil => simp at hw
              | cons p ps =>
                cases p with
                | byte c =>
                  simp only [List.flatMap_cons, Piece.written, List.cons_append, List.nil_append] at hw
                  injection hw with hw _
                  rw [← hw]
                  exact fun e => h2.1 (by simp [e])
                | esc c =>
                  simp only [List.flatMap_cons, Piece.written, List.cons_append, List.nil_append] at hw
                  injection hw with hw _
                  rw [← hw]; decide
                | uni a b c d => exact h2.elim
            simp [loose] at hl
            simp [D, h34, hl] at hb
        rw [e2]
        omega
      · rw [any_byte hc]
        omega
    | uni a b c d => exact h.elim

/-- A text in quotes is read as what it means. -/
theorem unescape_pieces (ps : List Piece) (h : FinePieces ps) :
    unescape unescapes (ps.flatMap Piece.written) = .ok (ps.map Piece.meant) := by
  unfold unescape
  rw [if_neg (by decide), pairs_sum, loop_pieces ps h _ _ (Nat.le_refl _)]
  have := any_pieces ps h
  unfold fill
  have e : ((ps.flatMap Piece.written).length : Int) - (pairsAny (ps.flatMap Piece.written) : Nat) = (ps.length : Nat) := by omega
  rw [e, List.nil_append, List.length_map, if_pos (Int.le_refl _), Int.toNat_natCast, Nat.sub_self, List.replicate_zero,
    List.append_nil]

/-! ## Writing a text -/

/-- A text as JSON. -/
def piecesOf (t : Text) : List Piece :=
  t.map fun c => if c ∈ ([34, 10, 8, 13, 9, 92] : List UInt8) then .esc (describe c) else .byte c

/-- A text as JSON in a sequence. -/
def piecesIn (t : Text) : List Piece := t.map fun c => if c = 34 then .esc 34 else .byte c

theorem sum_counts (chars : Text) (hn : chars.Nodup) (t : Text) :
    (chars.map fun q => t.countP (· = q)).sum = t.countP (· ∈ chars) := by
  induction chars with
  | nil => simp
  | cons q qs ih =>
    have hq := List.nodup_cons.1 hn
    rw [List.map_cons, List.sum_cons, ih hq.2]
    clear ih
    induction t with
    | nil => rfl
    | cons c t iht =>
      simp only [List.countP_cons, decide_eq_true_eq, List.mem_cons] at iht ⊢
      by_cases h1 : c = q
      · subst h1
        simp only [hq.1, if_true, if_false, or_false]
        omega
      · simp only [h1, if_false, false_or]
        omega

theorem escape_eq (chars : Text) (hn : chars.Nodup) (h0 : 1 ≤ chars.length) (t : Text) : escape chars t =
    .ok (t.flatMap fun c => if c ∈ chars then [92, if isControl c then describe c else c] else [c]) := by
  unfold escape
  rw [if_neg (by omega), sum_counts chars hn]
  have : (t.flatMap fun c => if c ∈ chars then [92, if isControl c then describe c else c] else [c]).length =
      t.length + t.countP (· ∈ chars) := by
    induction t with
    | nil => rfl
    | cons c t ih =>
      simp only [List.flatMap_cons, List.length_append, ih, List.length_cons, List.countP_cons, decide_eq_true_eq]
      by_cases h : c ∈ chars <;> simp [h] <;> omega
  unfold fill
  dsimp only
  rw [if_pos (by rw [this]; omega), this]
  simp

theorem escape_text (t : Text) (h : Safe t) : escape escapes t = .ok ((piecesOf t).flatMap Piece.written) := by
  rw [escape_eq _ (by decide) (by decide)]
  congr 1
  induction t with
  | nil => rfl
  | cons c t ih =>
    obtain ⟨h1, _, h2⟩ := h
    rw [piecesOf, List.map_cons, List.flatMap_cons, List.flatMap_cons, ih h2]
    congr 1
    by_cases hc : c ∈ ([34, 10, 8, 13, 9, 92] : List UInt8)
    · rw [if_pos hc, if_pos (by simp only [escapes, List.mem_cons] at hc ⊢; grind)]
      have : c = 34 ∨ c = 10 ∨ c = 8 ∨ c = 13 ∨ c = 9 ∨ c = 92 := by simpa using hc
      rcases this with rfl | rfl | rfl | rfl | rfl | rfl <;> decide
    · rw [if_neg hc, if_neg (by simp only [escapes, List.mem_cons] at hc h1 ⊢; grind)]
      rfl

theorem meant_piecesOf (t : Text) : (piecesOf t).map Piece.meant = t := by
  induction t with
  | nil => rfl
  | cons c t ih =>
    rw [piecesOf, List.map_cons, List.map_cons, ← piecesOf, ih]
    congr 1
    by_cases hc : c ∈ ([34, 10, 8, 13, 9, 92] : List UInt8)
    · rw [if_pos hc]
      have : c = 34 ∨ c = 10 ∨ c = 8 ∨ c = 13 ∨ c = 9 ∨ c = 92 := by simpa using hc
      rcases this with rfl | rfl | rfl | rfl | rfl | rfl <;> decide
    · rw [if_neg hc]
      rfl

theorem fine_piecesOf (t : Text) (h : Safe t) : FinePieces (piecesOf t) := by
  induction t with
  | nil => trivial
  | cons c t ih =>
    obtain ⟨h1, h3, h2⟩ := h
    rw [piecesOf, List.map_cons, ← piecesOf]
    by_cases hc : c ∈ ([34, 10, 8, 13, 9, 92] : List UInt8)
    · rw [if_pos hc]
      refine ⟨?_, ?_, ih h2⟩
      · have : c = 34 ∨ c = 10 ∨ c = 8 ∨ c = 13 ∨ c = 9 ∨ c = 92 := by simpa using hc
        rcases this with rfl | rfl | rfl | rfl | rfl | rfl <;> decide
      · intro hd
        have hc' : c = 92 := by
          have : c = 34 ∨ c = 10 ∨ c = 8 ∨ c = 13 ∨ c = 9 ∨ c = 92 := by simpa using hc
          rcases this with rfl | rfl | rfl | rfl | rfl | rfl <;> simp_all [describe]
        have h4 := h3 hc'
        cases t with
        | nil => rfl
        | cons b t =>
          have hb := h4 b (by simp)
          rw [piecesOf, List.map_cons, List.flatMap_cons]
          by_cases hb2 : b ∈ ([34, 10, 8, 13, 9, 92] : List UInt8)
          · simp only [List.mem_cons] at hb hb2; grind
          · rw [if_neg hb2]
            simp [Piece.written, loose] at hb ⊢
            simp [hb]
    · rw [if_neg hc]
      refine ⟨?_, ih h2⟩
      simp only [List.mem_cons] at hc h1 ⊢
      grind

theorem escape_in (t : Text) : escape [34] t = .ok ((piecesIn t).flatMap Piece.written) := by
  rw [escape_eq _ (by decide) (by decide)]
  congr 1
  induction t with
  | nil => rfl
  | cons c t ih =>
    rw [piecesIn, List.map_cons, List.flatMap_cons, List.flatMap_cons, ih, ← piecesIn]
    congr 1
    by_cases hc : c = 34
    · subst hc; decide
    · rw [if_neg hc, if_neg (by simpa using hc)]
      rfl

theorem meant_piecesIn (t : Text) : (piecesIn t).map Piece.meant = t := by
  induction t with
  | nil => rfl
  | cons c t ih =>
    rw [piecesIn, List.map_cons, List.map_cons, ← piecesIn, ih]
    congr 1
    by_cases hc : c = 34
    · subst hc; decide
    · rw [if_neg hc]
      rfl

theorem fine_piecesIn (t : Text) (h : ∀ c ∈ t, c ≠ 0 ∧ c ≠ 92) : FinePieces (piecesIn t) := by
  induction t with
  | nil => trivial
  | cons c t ih =>
    obtain ⟨h1, h2⟩ := h c List.mem_cons_self
    have ih := ih fun x hx => h x (List.mem_cons_of_mem _ hx)
    rw [piecesIn, List.map_cons, ← piecesIn]
    by_cases hc : c = 34
    · rw [if_pos hc]
      exact ⟨by decide, fun h => absurd h (by decide), ih⟩
    · rw [if_neg hc]
      exact ⟨by simp [h1, h2, hc], ih⟩

end Verif.Lemmas.Json
