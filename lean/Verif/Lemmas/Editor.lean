import Verif.Model.Editor
import Verif.Spec.Editor
import Verif.Lemmas.Lines

/-!
# Lemmas: text fields
-/

namespace Verif.Model.Editor
open Verif.Spec.Editor

theorem bind_ok {α β : Type} (a : α) (f : α → Out β) : (Out.ok a).bind f = f a := rfl

theorem bytes_nil : bytes [] = [] := rfl
theorem bytes_cons (s : Sym) (l : List Sym) : bytes (s :: l) = s.bytes ++ bytes l := by simp [bytes]
theorem bytes_append (l m : List Sym) : bytes (l ++ m) = bytes l ++ bytes m := by simp [bytes]

theorem cont_iff (b : UInt8) : cont b = true ↔ Cont b := by
  have h : ∀ n, n < 256 → (cont (UInt8.ofNat n) = true ↔ Cont (UInt8.ofNat n)) := by decide +kernel
  have := h b.toNat b.toNat_lt
  rwa [UInt8.ofNat_toNat] at this

/-- What stands behind the cursor: not in the middle of a symbol. -/
def Rest (C : Text) : Prop := ∃ c C', C = c :: C' ∧ cont c = false ∧ c ≠ 10

theorem ok_bytes {s : Sym} (h : s.Ok) : ∃ b cs, s.bytes = b :: cs ∧ cont b = false ∧ b ≠ 10 ∧ b ≠ 0 := by
  cases s with
  | nl => exact ⟨13, [10], rfl, by decide, by decide, by decide⟩
  | ch t =>
    cases t with
    | nil => exact absurd h id
    | cons b cs =>
      refine ⟨b, cs, rfl, ?_, h.2.2.2.1, h.2.1⟩
      cases hc : cont b with
      | false => rfl
      | true => exact absurd ((cont_iff b).1 hc) h.1

theorem rest_of {r : List Sym} (h : ∀ s ∈ r, s.Ok) (z : Text) : Rest (bytes r ++ 0 :: z) := by
  cases r with
  | nil => exact ⟨0, z, rfl, by decide, by decide⟩
  | cons s r =>
    obtain ⟨b, cs, e, h1, h2, _⟩ := ok_bytes (h s (List.mem_cons_self ..))
    exact ⟨b, cs ++ (bytes r ++ 0 :: z), by rw [bytes_cons, e]; simp, h1, h2⟩

theorem rd_at (A C : Text) (b : UInt8) : rd (A ++ b :: C) A.length = .ok b := by
  simp [rd]

theorem rd_of {mem : Text} {i : Nat} {b : UInt8} (h : mem[i]? = some b) : rd mem i = .ok b := by
  simp [rd, h]

theorem skipR_eq {len : Nat} : ∀ (cs A C : Text) (c : UInt8) (fuel : Nat), (∀ x ∈ cs, cont x = true) → cont c = false →
    A.length + cs.length ≤ len → cs.length < fuel →
    skipR (A ++ (cs ++ c :: C)) len fuel A.length = .ok (A.length + cs.length) := by
  intro cs
  induction cs with
  | nil =>
    intro A C c fuel _ hc _ hf
    obtain ⟨fuel, rfl⟩ : ∃ j, fuel = j + 1 := ⟨fuel - 1, by simp at hf; omega⟩
    simp only [skipR, List.nil_append, rd_at, bind_ok, hc, List.length_nil, Nat.add_zero]
    split <;> rfl
  | cons x cs ih =>
    intro A C c fuel hx hc hl hf
    obtain ⟨fuel, rfl⟩ : ∃ j, fuel = j + 1 := ⟨fuel - 1, by simp at hf; omega⟩
    simp only [List.length_cons] at hl hf
    have := ih (A ++ [x]) C c fuel (fun y hy => hx y (List.mem_cons_of_mem _ hy)) hc (by simp; omega) (by omega)
    simp only [List.append_assoc, List.cons_append, List.nil_append, List.length_append, List.length_cons, List.length_nil] at this
    simp only [skipR, List.cons_append, rd_at, bind_ok]
    rw [if_pos (by omega), if_pos (hx x (List.mem_cons_self ..)), this]
    simp only [List.length_cons]
    congr 1; omega

theorem moveRight_ch {len n : Nat} {jump : Bool} (A cs C : Text) (b : UInt8) (hcs : ∀ x ∈ cs, cont x = true) (hC : Rest C)
    (hl : A.length + 1 + cs.length ≤ len) :
    moveRight (A ++ (b :: cs ++ C)) len jump (n + 1) A.length =
      moveRight (A ++ (b :: cs ++ C)) len jump n (A.length + 1 + cs.length) := by
  obtain ⟨c, C', rfl, hc, h10⟩ := hC
  have h1 := skipR_eq (len := len) cs (A ++ [b]) C' c (len + 1) hcs hc (by simp; omega) (by omega)
  have h2 := rd_at (A ++ [b] ++ cs) C' c
  simp only [List.append_assoc, List.cons_append, List.nil_append, List.length_append, List.length_cons, List.length_nil,
    Nat.zero_add] at h1 h2
  rw [moveRight, if_neg (by omega)]
  simp only [List.cons_append]
  rw [h1, bind_ok, show A.length + 1 + cs.length = A.length + (cs.length + 1) by omega, h2, bind_ok, if_neg h10]

theorem moveRight_nl {len n : Nat} {jump : Bool} (A C : Text) (hl : A.length + 2 ≤ len) :
    moveRight (A ++ (13 :: 10 :: C)) len jump (n + 1) A.length = .ok (if jump then A.length + 2 else A.length) := by
  have h1 := skipR_eq (len := len) [] (A ++ [13]) C 10 (len + 1) (by simp) (by decide) (by simp; omega) (by simp)
  have h2 := rd_at (A ++ [13]) C 10
  simp only [List.append_assoc, List.cons_append, List.nil_append, List.length_append, List.length_cons, List.length_nil,
    Nat.zero_add, Nat.add_zero] at h1 h2
  rw [moveRight, if_neg (by omega), h1, bind_ok, h2, bind_ok, if_pos rfl]
  cases jump <;> rfl

theorem skipL_eq (A cs C : Text) (b : UInt8) (hb : cont b = false) : ∀ k, k ≤ cs.length →
    (∀ x ∈ cs, cont x = true) → skipL (A ++ (b :: cs ++ C)) (A.length + k) = .ok A.length := by
  intro k
  induction k with
  | zero =>
    intro _ _
    cases hA : A.length with
    | zero => rfl
    | succ n =>
      rw [Nat.add_zero, skipL, ← hA]
      simp only [List.cons_append]
      rw [rd_at, bind_ok, hb, hA]
      rfl
  | succ k ih =>
    intro hk hx
    have h1 : (A ++ (b :: cs ++ C))[A.length + (k + 1)]? = some (cs[k]'(by omega)) := by
      rw [List.getElem?_append_right (by omega)]
      simp only [Nat.add_sub_cancel_left, List.cons_append, List.getElem?_cons_succ]
      rw [List.getElem?_append_left (by omega)]
      simp [List.getElem?_eq_getElem (show k < cs.length by omega)]
    rw [show A.length + (k + 1) = (A.length + k) + 1 by omega, skipL, show (A.length + k) + 1 = A.length + (k + 1) by omega,
      rd_of h1, bind_ok, if_pos (hx _ (List.getElem_mem _))]
    exact ih (by omega) hx

theorem moveLeft_eq (A C : Text) (s : Sym) (h : s.Ok) :
    moveLeft (A ++ (s.bytes ++ C)) (A.length + s.bytes.length) = .ok A.length := by
  cases s with
  | nl =>
    simp only [Sym.bytes, List.length_cons, List.length_nil, Nat.zero_add]
    have h1 : skipL (A ++ ([13, 10] ++ C)) (A.length + 1) = .ok (A.length + 1) := by
      rw [skipL]
      have := rd_at (A ++ [13]) C 10
      simp only [List.append_assoc, List.cons_append, List.nil_append, List.length_append, List.length_cons, List.length_nil,
        Nat.zero_add] at this
      simp only [List.cons_append, List.nil_append]
      rw [this, bind_ok]
      rfl
    have h2 := rd_at (A ++ [13]) C 10
    simp only [List.append_assoc, List.cons_append, List.nil_append, List.length_append, List.length_cons, List.length_nil,
      Nat.zero_add] at h2
    rw [moveLeft, if_neg (by omega), show A.length + (1 + 1) - 1 = A.length + 1 by omega, h1, bind_ok]
    simp only [List.cons_append, List.nil_append]
    rw [h2, bind_ok, if_pos rfl, if_neg (by omega)]
    congr 1
  | ch t =>
    obtain ⟨b, cs, e, h1, h2, _⟩ := ok_bytes h
    simp only [Sym.bytes] at e
    subst e
    have hcs : ∀ x ∈ cs, cont x = true := fun x hx => (cont_iff x).2 (h.2.2.2.2 x hx)
    simp only [Sym.bytes, List.length_cons]
    rw [moveLeft, if_neg (by omega), show A.length + (cs.length + 1) - 1 = A.length + cs.length by omega,
      skipL_eq A cs C b h1 cs.length (Nat.le_refl _) hcs, bind_ok]
    simp only [List.cons_append]
    rw [rd_at, bind_ok, if_neg h2]

/-- The beginning of a line. -/
def Begins (P : Text) : Prop := P = [] ∨ ∃ P', P = P' ++ [13, 10]

theorem firstChar_lf {mem : Text} {i : Nat} (h : mem[i]? = some 10) : firstChar mem i = .ok (i + 1) := by
  cases i with
  | zero => rw [firstChar, rd_of h]; rfl
  | succ i => rw [firstChar, rd_of h]; rfl

theorem firstChar_walk {mem : Text} (p : Nat) (hp : p = 0 ∨ ∃ q, p = q + 1 ∧ mem[q]? = some 10) : ∀ k,
    (∀ j, j ≤ k → ∃ b, mem[p + j]? = some b ∧ b ≠ 10) → firstChar mem (p + k) = .ok p := by
  intro k
  induction k with
  | zero =>
    intro h
    obtain ⟨b, hb, h10⟩ := h 0 (Nat.le_refl _)
    rcases hp with rfl | ⟨q, rfl, hq⟩
    · rw [Nat.add_zero] at hb ⊢
      rw [firstChar, rd_of hb, bind_ok, if_neg h10]
    · rw [Nat.add_zero] at hb ⊢
      rw [firstChar, rd_of hb, bind_ok, if_neg h10, firstChar_lf hq]
  | succ k ih =>
    intro h
    obtain ⟨b, hb, h10⟩ := h (k + 1) (Nat.le_refl _)
    rw [show p + (k + 1) = p + k + 1 by omega] at hb ⊢
    rw [firstChar, rd_of hb, bind_ok, if_neg h10]
    exact ih (fun j hj => h j (by omega))

theorem begins_last {P C : Text} (h : Begins P) : P.length = 0 ∨ ∃ q, P.length = q + 1 ∧ (P ++ C)[q]? = some 10 := by
  rcases h with rfl | ⟨P', rfl⟩
  · exact .inl rfl
  · refine .inr ⟨P'.length + 1, by simp, ?_⟩
    simp

theorem firstChar_eq (P Q C : Text) (hP : Begins P) (hQ : ∀ c ∈ Q, c ≠ 10) (hC : Rest C) (j : Nat) (hj : j ≤ Q.length) :
    firstChar (P ++ (Q ++ C)) (P.length + j) = .ok P.length := by
  apply firstChar_walk _ (begins_last hP)
  intro i hi
  rw [List.getElem?_append_right (by omega), Nat.add_sub_cancel_left]
  by_cases h : i < Q.length
  · refine ⟨Q[i], ?_, hQ _ (List.getElem_mem _)⟩
    rw [List.getElem?_append_left h, List.getElem?_eq_getElem h]
  · obtain ⟨c, C', rfl, _, h10⟩ := hC
    refine ⟨c, ?_, h10⟩
    rw [List.getElem?_append_right (by omega), show i - Q.length = 0 by omega]
    rfl

theorem toCr_cr {len : Nat} : ∀ (W A C : Text) (fuel : Nat), (∀ x ∈ W, x ≠ 13) → A.length + W.length ≤ len → W.length < fuel →
    toCr (A ++ (W ++ 13 :: C)) len fuel A.length = .ok (true, A.length + W.length) := by
  intro W
  induction W with
  | nil =>
    intro A C fuel _ _ hf
    obtain ⟨fuel, rfl⟩ : ∃ j, fuel = j + 1 := ⟨fuel - 1, by simp at hf; omega⟩
    rw [toCr, List.nil_append, rd_at]
    rfl
  | cons w W ih =>
    intro A C fuel hw hl hf
    simp only [List.length_cons] at hl hf
    obtain ⟨fuel, rfl⟩ : ∃ j, fuel = j + 1 := ⟨fuel - 1, by omega⟩
    have := ih (A ++ [w]) C fuel (fun y hy => hw y (List.mem_cons_of_mem _ hy)) (by simp; omega) (by omega)
    simp only [List.append_assoc, List.cons_append, List.nil_append, List.length_append, List.length_cons, List.length_nil] at this
    simp only [List.cons_append]
    rw [toCr, rd_at, bind_ok, if_neg (hw w (List.mem_cons_self ..)), if_neg (by omega), this]
    simp only [List.length_cons]
    congr 2; omega

theorem toCr_end {len : Nat} : ∀ (W A C : Text) (fuel : Nat), (∀ x ∈ W, x ≠ 13) → A.length + W.length = len → W.length < fuel →
    toCr (A ++ (W ++ 0 :: C)) len fuel A.length = .ok (false, len) := by
  intro W
  induction W with
  | nil =>
    intro A C fuel _ hl hf
    obtain ⟨fuel, rfl⟩ : ∃ j, fuel = j + 1 := ⟨fuel - 1, by simp at hf; omega⟩
    simp only [List.length_nil, Nat.add_zero] at hl
    rw [toCr, List.nil_append, rd_at, bind_ok, if_neg (by decide), if_pos hl, hl]
  | cons w W ih =>
    intro A C fuel hw hl hf
    simp only [List.length_cons] at hl hf
    obtain ⟨fuel, rfl⟩ : ∃ j, fuel = j + 1 := ⟨fuel - 1, by omega⟩
    have := ih (A ++ [w]) C fuel (fun y hy => hw y (List.mem_cons_of_mem _ hy)) (by simp; omega) (by omega)
    simp only [List.append_assoc, List.cons_append, List.nil_append, List.length_append, List.length_cons, List.length_nil] at this
    simp only [List.cons_append]
    rw [toCr, rd_at, bind_ok, if_neg (hw w (List.mem_cons_self ..)), if_neg (by omega), this]

/-- The number of bytes that begin a character. -/
def leads (W : Text) : Nat := (W.filter fun b => !cont b).length

theorem charLoop_walk {c : Nat} {f : Bool} : ∀ (W A C : Text) (i : Nat) (c : Nat), A.length = i + 1 → (∀ x ∈ W, x ≠ 10) →
    charLoop (A ++ (W ++ C)) i = .ok (c, f) → charLoop (A ++ (W ++ C)) (i + W.length) = .ok (c + leads W, f) := by
  intro W
  induction W with
  | nil => intro A C i c _ _ h; simpa [leads] using h
  | cons w W ih =>
    intro A C i c hA hW h
    have h1 : charLoop (A ++ (w :: W ++ C)) (i + 1) = .ok (if cont w then c else c + 1, f) := by
      rw [charLoop, ← hA]
      simp only [List.cons_append]
      rw [rd_at, bind_ok, if_neg (hW w (List.mem_cons_self ..))]
      simp only [List.cons_append] at h
      rw [h]
      rfl
    have := ih (A ++ [w]) C (i + 1) _ (by simp [hA]) (fun y hy => hW y (List.mem_cons_of_mem _ hy)) (by simpa using h1)
    simp only [List.append_assoc, List.cons_append, List.nil_append] at this
    simp only [List.cons_append, List.length_cons]
    rw [show i + (W.length + 1) = i + 1 + W.length by omega, this]
    congr 2
    cases hw : cont w <;> simp [leads, List.filter_cons, hw] <;> omega

theorem charLine_eq (P Q C : Text) (hP : Begins P) (hQ : ∀ c ∈ Q, c ≠ 10) (hC : Rest C) (hb : Q = [] ∨ Rest Q) :
    charLine (P ++ (Q ++ C)) (P.length + Q.length) = .ok (leads Q) := by
  obtain ⟨c, C', rfl, hc, h10⟩ := hC
  have hlast : leads (Q ++ [c]) = leads Q + 1 := by simp [leads, List.filter_append, hc]
  have hne : ∀ x ∈ Q ++ [c], x ≠ 10 := by
    intro x hx
    rcases List.mem_append.1 hx with h | h
    · exact hQ x h
    · simp at h; subst h; exact h10
  rcases hP with rfl | ⟨P', rfl⟩
  · rcases hb with rfl | ⟨b, Q', rfl, hb, _⟩
    · simp only [List.nil_append, List.length_nil, Nat.add_zero, charLine, charLoop]
      rw [show rd (c :: C') 0 = .ok c from rfl]
      rfl
    · have h0 : charLoop ([b] ++ ((Q' ++ [c]) ++ C')) 0 = .ok (0, false) := rfl
      have := charLoop_walk (c := 0) (Q' ++ [c]) [b] C' 0 0 rfl (fun x hx => hne x (List.mem_cons_of_mem _ hx)) h0
      simp only [List.append_assoc, List.cons_append, List.nil_append, List.length_append, List.length_cons, List.length_nil,
        Nat.zero_add] at this
      simp only [List.nil_append, List.length_nil, Nat.zero_add, List.length_cons, List.cons_append]
      rw [charLine, this, bind_ok]
      simp [leads, List.filter_append, List.filter_cons, hb, hc]
  · have h0 : charLoop ((P' ++ [13, 10]) ++ ((Q ++ [c]) ++ C')) (P'.length + 1) = .ok (0, true) := by
      have := rd_at (P' ++ [13]) ((Q ++ [c]) ++ C') 10
      simp only [List.append_assoc, List.cons_append, List.nil_append, List.length_append, List.length_cons, List.length_nil,
        Nat.zero_add] at this
      simp only [List.append_assoc, List.cons_append, List.nil_append]
      rw [charLoop, this]
      rfl
    have := charLoop_walk (c := 0) (Q ++ [c]) (P' ++ [13, 10]) C' (P'.length + 1) 0 (by simp) hne h0
    rw [hlast] at this
    simp only [List.append_assoc, List.cons_append, List.nil_append, List.length_append, List.length_cons, List.length_nil,
      Nat.zero_add] at this ⊢
    rw [charLine, show P'.length + (1 + 1) + Q.length = P'.length + 1 + (Q.length + 1) by omega, this, bind_ok]
    simp

end Verif.Model.Editor
