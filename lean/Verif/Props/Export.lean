import Verif.Model.Export
import Verif.Lemmas.ReadBackText

/-!
# Showing the tree of a program (C113)
-/

namespace Verif.Props.Export
open Verif Verif.Spec Verif.Model Verif.Model.Export

/-! ## Numbers -/

theorem dec_fuel : ∀ (fuel n : Nat), n < fuel → Sip.decimal fuel n = Spec.ReadBack.digits n
  | 0, _, h => absurd h (by omega)
  | fuel + 1, n, h => by
    rw [Sip.decimal, Spec.ReadBack.digits]
    by_cases hn : n < 10
    · rw [if_pos hn, if_pos hn]
    · rw [if_neg hn, if_neg hn, dec_fuel fuel (n / 10) (by omega)]

theorem dec_eq (n : Nat) : dec n = Spec.ReadBack.digits n := dec_fuel _ _ (by omega)

theorem dec_inj {n m : Nat} (h : dec n = dec m) : n = m := by
  rw [dec_eq, dec_eq] at h
  rw [← Verif.Model.ReadBack.natOf_digits n, h, Verif.Model.ReadBack.natOf_digits]

theorem dec_digit {n : Nat} {c : UInt8} (h : c ∈ dec n) : 48 ≤ c.toNat ∧ c.toNat ≤ 57 := by
  rw [dec_eq] at h
  exact (Verif.Model.ReadBack.digits_spec n).2 c h

theorem dec_ne (n : Nat) : dec n ≠ [] := by
  rw [dec_eq]
  exact (Verif.Model.ReadBack.digits_spec n).1

theorem split_at : ∀ (a b r s : Text) (x : UInt8), (∀ c ∈ a, c ≠ x) → (∀ c ∈ b, c ≠ x) → a ++ x :: r = b ++ x :: s →
    a = b ∧ r = s
  | [], [], r, s, x, _, _, h => by
    injection h with _ h
    exact ⟨rfl, h⟩
  | [], c :: b, r, s, x, _, hb, h => by
    injection h with h _
    exact absurd h.symm (hb c List.mem_cons_self)
  | c :: a, [], r, s, x, ha, _, h => by
    injection h with h _
    exact absurd h (ha c List.mem_cons_self)
  | c :: a, d :: b, r, s, x, ha, hb, h => by
    injection h with h1 h2
    obtain ⟨e1, e2⟩ := split_at a b r s x (fun c hc => ha c (List.mem_cons_of_mem _ hc)) (fun c hc => hb c (List.mem_cons_of_mem _ hc)) h2
    exact ⟨by rw [h1, e1], e2⟩

theorem dec_split {n m : Nat} {r s : Text} (h : dec n ++ 59 :: r = dec m ++ 59 :: s) : n = m ∧ r = s := by
  have hne : ∀ k, ∀ c ∈ dec k, c ≠ 59 := by
    intro k c hc e
    have := dec_digit hc
    subst e
    revert this
    decide
  obtain ⟨e1, e2⟩ := split_at _ _ _ _ _ (hne n) (hne m) h
  exact ⟨dec_inj e1, e2⟩

/-! ## Trees -/

mutual
/-- The tree with empty values in place of missing ones. -/
def filled : Raw → Raw
  | .node t m v ks => .node t m (some (v.getD [])) (filledAll ks)
/-- The same for several trees. -/
def filledAll : List Raw → List Raw
  | [] => []
  | k :: ks => filled k :: filledAll ks
end

/-- The next byte is not the beginning of a node. -/
def Stop (r : Text) : Prop := ∀ c ∈ r.head?, ¬ (48 ≤ c.toNat ∧ c.toNat ≤ 57)

theorem put_head (k : Raw) : ∃ c l, put k = c :: l ∧ 48 ≤ c.toNat ∧ c.toNat ≤ 57 := by
  cases k with
  | node t m v ks =>
    rw [put]
    cases ht : dec t with
    | nil => exact absurd ht (dec_ne t)
    | cons c l => exact ⟨c, _, rfl, dec_digit (by rw [ht]; exact List.mem_cons_self)⟩

theorem value_split {v w : Option Text} {r s : Text} (h : putValue v ++ r = putValue w ++ s) :
    v.getD [] = w.getD [] ∧ r = s := by
  have key : ∀ v : Option Text, putValue v = dec (v.getD []).length ++ 59 :: v.getD [] := by
    intro v
    cases v <;> rfl
  rw [key, key, List.append_assoc, List.append_assoc] at h
  obtain ⟨e1, e2⟩ := dec_split h
  exact List.append_inj e2 (by rw [e1])

mutual
theorem put_inj : ∀ (a b : Raw) (r s : Text), put a ++ r = put b ++ s → filled a = filled b ∧ r = s
  | .node t m v ks, .node t' m' v' ks', r, s, h => by
    rw [put, put] at h
    simp only [List.append_assoc, List.cons_append] at h
    obtain ⟨e1, h⟩ := dec_split h
    obtain ⟨e2, h⟩ := dec_split h
    obtain ⟨e3, h⟩ := value_split h
    injection h with _ h
    have h : putNodes ks ++ 59 :: r = putNodes ks' ++ 59 :: s := h
    obtain ⟨e4, h⟩ := putNodes_inj ks ks' r s h
    rw [filled, filled, e1, e2, e3, e4]
    exact ⟨rfl, h⟩
theorem putNodes_inj : ∀ (a b : List Raw) (r s : Text), putNodes a ++ 59 :: r = putNodes b ++ 59 :: s →
    filledAll a = filledAll b ∧ r = s
  | [], [], r, s, h => by
    rw [putNodes] at h
    injection h with _ h
    exact ⟨rfl, h⟩
  | [], _ :: _, r, s, h => by
    rw [putNodes, putNodes] at h
    injection h with h _
    exact absurd h (by decide)
  | _ :: _, [], r, s, h => by
    rw [putNodes, putNodes] at h
    injection h with h _
    exact absurd h (by decide)
  | k :: ks, k' :: ks', r, s, h => by
    rw [putNodes, putNodes] at h
    simp only [List.append_assoc, List.cons_append] at h
    injection h with _ h
    obtain ⟨e1, h⟩ := put_inj k k' _ _ h
    obtain ⟨e2, h⟩ := putAll_inj ks ks' _ _ (by intro c hc; cases hc; decide) (by intro c hc; cases hc; decide) h
    injection h with _ h
    injection h with _ h
    rw [filledAll, filledAll, e1, e2]
    exact ⟨rfl, h⟩
theorem putAll_inj : ∀ (a b : List Raw) (r s : Text), Stop r → Stop s → putAll a ++ r = putAll b ++ s →
    filledAll a = filledAll b ∧ r = s
  | [], [], r, s, _, _, h => ⟨rfl, by rw [putAll] at h; exact h⟩
  | [], k :: ks, r, s, hr, _, h => by
    rw [putAll, putAll] at h
    obtain ⟨c, l, e, hc⟩ := put_head k
    rw [e] at h
    exact absurd hc (hr c (by rw [show r = _ from h]; rfl))
  | k :: ks, [], r, s, _, hs, h => by
    rw [putAll, putAll] at h
    obtain ⟨c, l, e, hc⟩ := put_head k
    rw [e] at h
    exact absurd hc (hs c (by rw [show s = _ from h.symm]; rfl))
  | k :: ks, k' :: ks', r, s, hr, hs, h => by
    rw [putAll, putAll, List.append_assoc, List.append_assoc] at h
    obtain ⟨e1, h⟩ := put_inj k k' _ _ h
    obtain ⟨e2, h⟩ := putAll_inj ks ks' _ _ hr hs h
    rw [filledAll, filledAll, e1, e2]
    exact ⟨rfl, h⟩
end

mutual
/-- No part of the name of a message contains the parameter sign. -/
def Plain (sign : UInt8) : Node → Prop
  | .ref _ _ | .num _ | .str _ | .una _ => True
  | .block _ b => PlainAll sign b
  | .nested e | .ret e | .bin _ e => Plain sign e
  | .assign r e => Plain sign r ∧ Plain sign e
  | .msg r ms => Plain sign r ∧ PlainAll sign ms
  | .kw ps as => (∀ p ∈ ps, ∀ c ∈ p, c ≠ sign) ∧ PlainAll sign as
/-- The same for several trees. -/
def PlainAll (sign : UInt8) : List Node → Prop
  | [] => True
  | n :: l => Plain sign n ∧ PlainAll sign l
end

theorem parts_inj (x : UInt8) : ∀ (a b : List Text), (∀ p ∈ a, ∀ c ∈ p, c ≠ x) → (∀ p ∈ b, ∀ c ∈ p, c ≠ x) →
    (a.flatMap fun p => p ++ [x]) = (b.flatMap fun p => p ++ [x]) → a = b
  | [], [], _, _, _ => rfl
  | [], p :: b, _, _, h => by simp at h
  | p :: a, [], _, _, h => by simp at h
  | p :: a, q :: b, ha, hb, h => by
    simp only [List.flatMap_cons, List.append_assoc, List.singleton_append] at h
    obtain ⟨e1, e2⟩ := split_at p q _ _ x (ha p List.mem_cons_self) (hb q List.mem_cons_self) h
    rw [e1, parts_inj x a b (fun p hp => ha p (List.mem_cons_of_mem _ hp)) (fun p hp => hb p (List.mem_cons_of_mem _ hp)) e2]

theorem params_inj : ∀ (a b : List Text), filledAll (a.map fun p => .node 78 0 (some p) []) = filledAll (b.map fun p => .node 78 0 (some p) []) → a = b
  | [], [], _ => rfl
  | [], p :: b, h => by simp [filledAll] at h
  | p :: a, [], h => by simp [filledAll] at h
  | p :: a, q :: b, h => by
    simp only [List.map_cons, filledAll, filled, List.cons.injEq, Raw.node.injEq, Option.getD_some, Option.some.injEq] at h
    rw [h.1.2.2.1, params_inj a b h.2]

mutual
theorem build_inj (x : UInt8) : ∀ (a b : Node), Plain x a → Plain x b → filled (build x a) = filled (build x b) → a = b
  | .ref m n, b, _, _, h => by
    cases b <;> simp [build, filled, filledAll] at h
    rw [h.1, h.2]
  | .num v, b, _, _, h => by
    cases b <;> simp [build, filled, filledAll] at h
    rw [h]
  | .str v, b, _, _, h => by
    cases b <;> simp [build, filled, filledAll] at h
    rw [h]
  | .una v, b, _, _, h => by
    cases b <;> simp [build, filled, filledAll] at h
    rw [h]
  | .block ps c, b, ha, hb, h => by
    cases b <;> simp [build, filled, filledAll] at h
    rw [Plain] at ha hb
    rw [params_inj _ _ h.1, buildAll_inj x _ _ ha hb h.2]
  | .nested e, b, ha, hb, h => by
    cases b <;> simp [build, filled, filledAll] at h
    rw [Plain] at ha hb
    rw [build_inj x _ _ ha hb h]
  | .ret e, b, ha, hb, h => by
    cases b <;> simp [build, filled, filledAll] at h
    rw [Plain] at ha hb
    rw [build_inj x _ _ ha hb h]
  | .bin n e, b, ha, hb, h => by
    cases b <;> simp [build, filled, filledAll] at h
    rw [Plain] at ha hb
    rw [h.1, build_inj x _ _ ha hb h.2]
  | .assign r e, b, ha, hb, h => by
    cases b <;> simp [build, filled, filledAll] at h
    rw [Plain] at ha hb
    rw [build_inj x _ _ ha.1 hb.1 h.1, build_inj x _ _ ha.2 hb.2 h.2]
  | .msg r ms, b, ha, hb, h => by
    cases b <;> simp [build, filled, filledAll] at h
    rw [Plain] at ha hb
    rw [build_inj x _ _ ha.1 hb.1 h.1, buildAll_inj x _ _ ha.2 hb.2 h.2]
  | .kw ps as, b, ha, hb, h => by
    cases b <;> simp [build, filled, filledAll] at h
    rw [Plain] at ha hb
    rw [parts_inj x _ _ ha.1 hb.1 (by simpa using h.1), buildAll_inj x _ _ ha.2 hb.2 h.2]
theorem buildAll_inj (x : UInt8) : ∀ (a b : List Node), PlainAll x a → PlainAll x b →
    filledAll (buildAll x a) = filledAll (buildAll x b) → a = b
  | [], [], _, _, _ => rfl
  | [], _ :: _, _, _, h => by simp [buildAll, filledAll] at h
  | _ :: _, [], _, _, h => by simp [buildAll, filledAll] at h
  | a :: l, b :: m, ha, hb, h => by
    rw [PlainAll] at ha hb
    simp only [buildAll, filledAll, List.cons.injEq] at h
    rw [build_inj x a b ha.1 hb.1 h.1, buildAll_inj x l m ha.2 hb.2 h.2]
end

theorem filledAll_append : ∀ (a b : List Raw), filledAll (a ++ b) = filledAll a ++ filledAll b
  | [], b => by rw [filledAll]; rfl
  | k :: a, b => by rw [List.cons_append, filledAll, filledAll, filledAll_append a b]; rfl

/-- **C113**: the text that is shown for the tree of a program (there always is one) determines the program: two programs
for which the same text is shown are the same, whatever their texts and names contain; the parts of the names of messages
do not contain the parameter sign. -/
theorem C113 (sign : UInt8) (a b : List Node) (ha : PlainAll sign a) (hb : PlainAll sign b) :
    ∃ s t, exportTree (program sign a) = .ok s ∧ exportTree (program sign b) = .ok t ∧ (s = t → a = b) := by
  have ok : ∀ p, exportTree (program sign p) = .ok (putAll (program sign p)) := by
    intro p
    unfold program
    cases p with
    | nil => rw [buildAll]; rfl
    | cons k l => rw [buildAll]; rfl
  refine ⟨_, _, ok a, ok b, ?_⟩
  intro h
  obtain ⟨e, _⟩ := putAll_inj (program sign a) (program sign b) [] [] (by intro c hc; cases hc) (by intro c hc; cases hc)
    (by rw [h])
  unfold program at e
  rw [filledAll_append, filledAll_append] at e
  exact buildAll_inj sign a b ha hb (List.append_cancel_right e)

/-- `x := 'a;0;'.` and a message with two parts. -/
example : PlainAll 58 [.assign (.ref 0 [120]) (.str [97, 59, 48, 59]), .msg (.ref 0 [120]) [.kw [[97], [98]] [.num [49], .num [50]]]] ∧
    exportTree (program 58 [.assign (.ref 2 [120]) (.str [97, 59])]) =
      .ok [53, 49, 59, 48, 59, 48, 59, 59, 91, 53, 55, 59, 50, 59, 49, 59, 120, 59, 59, 53, 54, 59, 48, 59, 50, 59, 97, 59, 59, 59, 93, 59,
        55, 57, 59, 48, 59, 48, 59, 59, 59] := by
  constructor
  · simp [PlainAll, Plain]
  · decide +kernel

end Verif.Props.Export
