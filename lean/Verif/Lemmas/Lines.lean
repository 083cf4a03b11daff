import Verif.Model.Lines
import Verif.Spec.Lines

/-!
# Lemmas: line endings
-/

namespace Verif.Model.Lines
open Verif.Spec.Lines

/-- What the loop writes, as a function. -/
def written : UInt8 → Text → Text
  | _, [] => []
  | prev, c :: t =>
    (if blank c = 10 ∧ prev ≠ 13 then [13] else []) ++ ((if prev = 13 ∧ blank c ≠ 10 then [10] else []) ++
      blank c :: written (blank c) t)

theorem bind_ok {α β : Type} (a : α) (f : α → Out β) : (Out.ok a).bind f = f a := rfl

theorem put_ok {size : Nat} {out : Text} (c : UInt8) (h : out.length < size) : put size out c = .ok (out ++ [c]) := by
  unfold put; rw [if_pos h]

theorem loop_eq (len : Nat) : ∀ (t : Text) (d : Nat) (prev : UInt8) (out : Text), out.length + t.length = len + d →
    ∃ d', loop len t d prev out = .ok (d', out ++ written prev t) ∧ (out ++ written prev t).length = len + d' := by
  intro t
  induction t with
  | nil => intro d prev out h; exact ⟨d, by simp [loop, written], by simpa [written] using h⟩
  | cons c t ih =>
    intro d prev out h
    simp only [List.length_cons] at h
    by_cases h1 : blank c = 10 ∧ prev ≠ 13
    · have h2 : ¬ (prev = 13 ∧ blank c ≠ 10) := fun x => h1.2 x.1
      obtain ⟨d', e, hl⟩ := ih (d + 1) (blank c) (out ++ [13] ++ [blank c]) (by simp; omega)
      refine ⟨d', ?_, ?_⟩
      · rw [loop]
        change (if blank c = 10 ∧ prev ≠ 13 then (put (len + d + 1) out 13).bind fun out => Out.ok (d + 1, out) else Out.ok (d, out)).bind _ = _
        rw [if_pos h1, put_ok 13 (by omega)]
        simp only [bind_ok]
        change (if prev = 13 ∧ blank c ≠ 10 then (put (len + (d + 1) + 1) (out ++ [13]) 10).bind fun out => Out.ok (d + 1 + 1, out) else Out.ok (d + 1, out ++ [13])).bind _ = _
        rw [if_neg h2]
        simp only [bind_ok]
        rw [put_ok _ (by simp; omega)]
        simp only [bind_ok]
        refine Eq.trans e ?_
        simp [written, h1]
      · simpa [written, h1] using hl
    · by_cases h2 : prev = 13 ∧ blank c ≠ 10
      · obtain ⟨d', e, hl⟩ := ih (d + 1) (blank c) (out ++ [10] ++ [blank c]) (by simp; omega)
        refine ⟨d', ?_, ?_⟩
        · rw [loop]
          change (if blank c = 10 ∧ prev ≠ 13 then (put (len + d + 1) out 13).bind fun out => Out.ok (d + 1, out) else Out.ok (d, out)).bind _ = _
          rw [if_neg h1]
          simp only [bind_ok]
          change (if prev = 13 ∧ blank c ≠ 10 then (put (len + d + 1) out 10).bind fun out => Out.ok (d + 1, out) else Out.ok (d, out)).bind _ = _
          rw [if_pos h2, put_ok 10 (by omega)]
          simp only [bind_ok]
          rw [put_ok _ (by simp; omega)]
          simp only [bind_ok]
          refine Eq.trans e ?_
          simp [written, h2]
        · simpa [written, h2] using hl
      · obtain ⟨d', e, hl⟩ := ih d (blank c) (out ++ [blank c]) (by simp; omega)
        refine ⟨d', ?_, ?_⟩
        · rw [loop]
          change (if blank c = 10 ∧ prev ≠ 13 then (put (len + d + 1) out 13).bind fun out => Out.ok (d + 1, out) else Out.ok (d, out)).bind _ = _
          rw [if_neg h1]
          simp only [bind_ok]
          change (if prev = 13 ∧ blank c ≠ 10 then (put (len + d + 1) out 10).bind fun out => Out.ok (d + 1, out) else Out.ok (d, out)).bind _ = _
          rw [if_neg h2]
          simp only [bind_ok]
          rw [put_ok _ (by omega)]
          simp only [bind_ok]
          refine Eq.trans e ?_
          simp only [written, if_neg h1, if_neg h2, List.nil_append, List.append_assoc, List.cons_append]
        · simpa only [written, if_neg h1, if_neg h2, List.nil_append, List.append_assoc, List.cons_append] using hl

theorem cstring_eq (t z : Text) (h : ∀ c ∈ t, c ≠ 0) : cstring (t ++ 0 :: z) = .ok t := by
  unfold cstring
  rw [if_pos (by simp), List.takeWhile_append_of_pos (by intro c hc; simpa using h c hc)]
  simp

theorem blank_ne {c : UInt8} (h : c ≠ 0) : blank c ≠ 0 := by
  unfold blank; split
  · decide
  · exact h

theorem written_ne : ∀ (t : Text) (prev : UInt8), (∀ c ∈ t, c ≠ 0) → ∀ c ∈ written prev t, c ≠ 0 := by
  intro t
  induction t with
  | nil => intro _ _ c hc; cases hc
  | cons a t ih =>
    intro prev h c hc
    simp only [written, List.mem_append, List.mem_cons] at hc
    rcases hc with hc | hc | rfl | hc
    · split at hc
      · simp at hc; subst hc; decide
      · cases hc
    · split at hc
      · simp at hc; subst hc; decide
      · cases hc
    · exact blank_ne (h a (List.mem_cons_self ..))
    · exact ih _ (fun c hc => h c (List.mem_cons_of_mem _ hc)) c hc

theorem normalize_eq (t z : Text) (h : ∀ c ∈ t, c ≠ 0) :
    ∃ k, normalize (t ++ 0 :: z) = .ok (written 0 t ++ 0 :: List.replicate k 0) := by
  obtain ⟨d, e, hl⟩ := loop_eq t.length t 0 0 [] (by simp)
  rw [List.nil_append] at e hl
  refine ⟨0, ?_⟩
  unfold normalize
  rw [cstring_eq t z h]
  simp only [bind_ok, e, hl]
  rw [show t.length + d + 1 - (t.length + d) = 1 by omega]
  rfl

theorem writeText_eq (t : Text) (h : ∀ c ∈ t, c ≠ 0) : writeText t = .ok (written 0 t) := by
  obtain ⟨k, e⟩ := normalize_eq t [] h
  unfold writeText
  rw [e]
  exact cstring_eq _ _ (written_ne t 0 h)

theorem blank_blank (c : UInt8) : blank (blank c) = blank c := by
  unfold blank; split <;> simp_all

theorem written_crlf {prev : UInt8} (h : prev ≠ 13) (t : Text) : written prev (13 :: 10 :: t) = 13 :: 10 :: written 10 t := by
  have b1 : blank 13 = 13 := by decide
  have b2 : blank 10 = 10 := by decide
  simp [written, b1, b2, h]

theorem written_cr {prev : UInt8} (h : prev ≠ 13) (t : Text) : written prev (13 :: t) = 13 :: written 13 t := by
  have b1 : blank 13 = 13 := by decide
  simp [written, b1, h]

theorem written_lf {prev : UInt8} (h : prev ≠ 13) (t : Text) : written prev (10 :: t) = 13 :: 10 :: written 10 t := by
  have b1 : blank 10 = 10 := by decide
  simp [written, b1, h]

theorem blank_ne10 {c : UInt8} (h : c ≠ 10) : blank c ≠ 10 := by
  unfold blank; split
  · decide
  · exact h

theorem blank_ne13 {c : UInt8} (h : c ≠ 13) : blank c ≠ 13 := by
  unfold blank; split
  · decide
  · exact h

theorem written_other {prev c : UInt8} (h : prev ≠ 13) (hc : c ≠ 10) (t : Text) :
    written prev (c :: t) = blank c :: written (blank c) t := by
  simp [written, blank_ne10 hc, h]

theorem written_after {c : UInt8} (hc : c ≠ 10) (t : Text) : written 13 (c :: t) = 10 :: written 0 (c :: t) := by
  simp [written, blank_ne10 hc]

theorem lines_ne (t : Bytes) : lines t ≠ [] := by
  fun_induction lines t with
  | case1 => simp
  | case2 => simp
  | case3 => simp
  | case4 c t _ _ ih =>
    cases h : lines t with
    | nil => exact absurd h ih
    | cons => simp [onto]

theorem joined_nil {ls : List Bytes} (h : ls ≠ []) : joined ([] :: ls) = 13 :: 10 :: joined ls := by
  cases ls with
  | nil => exact absurd rfl h
  | cons => rfl

theorem joined_onto (c : UInt8) {ls : List Bytes} (h : ls ≠ []) : joined (onto c ls) = c :: joined ls := by
  cases ls with
  | nil => exact absurd rfl h
  | cons l ls => cases ls <;> rfl

theorem map_onto (c : UInt8) (ls : List Bytes) : (onto c ls).map (List.map blank) = onto (blank c) (ls.map (List.map blank)) := by
  cases ls <;> rfl

/-- What is missing at the end: the line feed behind a carriage return. -/
def rest (t : Bytes) : Bytes := if t.getLast? = some 13 then [10] else []

theorem rest_cons {c : UInt8} {t : Bytes} (h : t ≠ []) : rest (c :: t) = rest t := by
  unfold rest
  rw [List.getLast?_cons]
  cases t with
  | nil => exact absurd rfl h
  | cons a t => simp [List.getLast?_cons]

theorem written_lines (t : Text) : ∀ prev, prev ≠ 13 → written prev t ++ rest t = joined ((lines t).map (List.map blank)) := by
  fun_induction lines t with
  | case1 => intro _ _; rfl
  | case2 t ih =>
    intro prev hp
    have : ((lines t).map (List.map blank)) ≠ [] := by simpa using lines_ne t
    rw [written_crlf hp, List.map_cons, List.map_nil, joined_nil this, ← ih 10 (by decide)]
    cases t with
    | nil => rfl
    | cons a t => rw [rest_cons (by simp), rest_cons (by simp)]; rfl
  | case3 c t h1 h2 ih =>
    intro prev hp
    have hl : ((lines t).map (List.map blank)) ≠ [] := by simpa using lines_ne t
    rw [List.map_cons, List.map_nil, joined_nil hl]
    rcases h2 with rfl | rfl
    · cases t with
      | nil =>
        rw [written_cr hp]
        rfl
      | cons a t =>
        have ha : a ≠ 10 := by
          intro e; subst e
          exact h1 t rfl rfl
        rw [written_cr hp, written_after ha, rest_cons (by simp), ← ih 0 (by decide)]
        rfl
    · rw [written_lf hp, ← ih 10 (by decide)]
      cases t with
      | nil => rfl
      | cons a t => rw [rest_cons (by simp)]; rfl
  | case4 c t h1 h2 ih =>
    intro prev hp
    have h13 : c ≠ 13 := fun e => h2 (.inl e)
    have h10 : c ≠ 10 := fun e => h2 (.inr e)
    rw [written_other hp h10, map_onto, joined_onto _ (by simpa using lines_ne t), ← ih _ (blank_ne13 h13)]
    cases t with
    | nil => simp [written, rest, h13]
    | cons a t => rw [rest_cons (by simp)]; rfl

/-- Writing what was written changes nothing. -/
theorem written_written (t : Text) : ∀ prev p, prev ≠ 13 → p ≠ 13 → written p (written prev t) = written prev t := by
  fun_induction lines t with
  | case1 => intro _ _ _ _; rfl
  | case2 t ih =>
    intro prev p hp hq
    rw [written_crlf hp, written_crlf hq, ih 10 10 (by decide) (by decide)]
  | case3 c t h1 h2 ih =>
    intro prev p hp hq
    rcases h2 with rfl | rfl
    · cases t with
      | nil => rw [written_cr hp]; exact written_cr hq []
      | cons a t =>
        have ha : a ≠ 10 := by
          intro e; subst e
          exact h1 t rfl rfl
        rw [written_cr hp, written_after ha, written_crlf hq, ih 0 10 (by decide) (by decide)]
    · rw [written_lf hp, written_crlf hq, ih 10 10 (by decide) (by decide)]
  | case4 c t h1 h2 ih =>
    intro prev p hp hq
    have h13 : c ≠ 13 := fun e => h2 (.inl e)
    have h10 : c ≠ 10 := fun e => h2 (.inr e)
    rw [written_other hp h10, written_other hq (blank_ne10 h10), blank_blank, ih _ _ (blank_ne13 h13) (blank_ne13 h13)]

end Verif.Model.Lines
