import Verif.Model.Package
import Verif.Spec.Package

/-!
# Lemmas: packages
-/

namespace Verif.Model.Package
open Verif.Spec.Package

theorem le_length (n k : Nat) : (le n k).length = k := by
  induction k generalizing n with
  | zero => rfl
  | succ k ih => simp [le, ih]

theorem ofLe_le (n k : Nat) : ofLe (le n k) = n % 256 ^ k := by
  induction k generalizing n with
  | zero => simp [le, ofLe, Nat.mod_one]
  | succ k ih =>
    simp only [le, ofLe, ih]
    rw [Nat.pow_succ, Nat.mul_comm (256 ^ k) 256, Nat.mod_mul]
    congr 1
    exact Nat.mod_eq_of_lt (Nat.mod_lt _ (by decide))

theorem copyLoop_eq (src out : Text) : copyLoop src out = out ++ src := by
  fun_induction copyLoop src out with
  | case1 src out h => rfl
  | case2 src out h ih => rw [ih, List.append_assoc, List.take_append_drop]

/-- The bytes of the files from position `pos` on. -/
def image (pos : Nat) : List Item → Text
  | [] => []
  | (n, c) :: l =>
    n ++ 0 :: (le (pos + n.length + 9 + c.length) 8 ++ (c ++ image (pos + n.length + 9 + c.length) l))

theorem image_length (pos : Nat) (l : List Item) : (image pos l).length = size l := by
  induction l generalizing pos with
  | nil => rfl
  | cons x l ih =>
    obtain ⟨n, c⟩ := x
    simp only [image, List.length_append, List.length_cons, le_length, ih, size, List.map_cons, List.sum_cons]
    omega

theorem image_append (pos : Nat) (l m : List Item) : image pos (l ++ m) = image pos l ++ image (pos + size l) m := by
  induction l generalizing pos with
  | nil => simp [image, size]
  | cons x l ih =>
    obtain ⟨n, c⟩ := x
    have : pos + n.length + 9 + c.length + size l = pos + size ((n, c) :: l) := by
      simp [size]; omega
    simp only [List.cons_append, image, ih, List.append_assoc, this]

theorem add_some (out name c : Text) : add (some out) name (some c) = (false, out ++ image out.length [(name, c)]) := by
  have hl : (appended out name c).length = out.length + name.length + 9 + c.length := by
    simp [appended, copyLoop_eq]; omega
  have h1 : (appended out name c).take (out.length + name.length + 1) = out ++ name ++ [0] := by
    unfold appended
    rw [copyLoop_eq, List.append_assoc (out ++ name ++ [0])]
    exact List.take_left' (by simp; omega)
  have h2 : (appended out name c).drop (out.length + name.length + 1 + (le (appended out name c).length 8).length) = c := by
    rw [le_length]
    unfold appended
    rw [copyLoop_eq]
    exact List.drop_left' (by simp; omega)
  rw [hl] at h2
  simp only [add, Option.getD_some, writeAt, h1, h2, hl, Prod.mk.injEq, true_and]
  simp [image, List.append_assoc]

theorem add_none (name c : Text) : add none name (some c) = add (some []) name (some c) := rfl

theorem addAll_eq (items : List Item) (pkg : Text) :
    addAll (some pkg) items = some (pkg ++ image pkg.length items) := by
  induction items generalizing pkg with
  | nil => simp [addAll, image]
  | cons x items ih =>
    obtain ⟨n, c⟩ := x
    have hl : (pkg ++ image pkg.length [(n, c)]).length = pkg.length + size [(n, c)] := by
      rw [List.length_append, image_length]
    rw [addAll, add_some, ih, hl, List.append_assoc, ← image_append]
    rfl

theorem addAll_none (items : List Item) (h : items ≠ []) : addAll none items = some (image 0 items) := by
  cases items with
  | nil => exact absurd rfl h
  | cons x items =>
    have : addAll none (x :: items) = addAll (some []) (x :: items) := rfl
    rw [this, addAll_eq]
    simp

/-- Whatever is written while a file is added stands behind what was there. -/
theorem interrupted_eq (pkg name c : Text) (k : Nat) : ∃ rest, interrupted pkg name c k = pkg ++ rest ∧
    rest.length ≤ name.length + 9 + c.length := by
  have ha : appended pkg name c = pkg ++ (name ++ 0 :: (List.replicate 8 0 ++ c)) := by
    simp [appended, copyLoop_eq]
  have hl : (appended pkg name c).length = pkg.length + (name.length + 9 + c.length) := by
    rw [ha]; simp; omega
  unfold interrupted
  simp only
  split
  · refine ⟨(name ++ 0 :: (List.replicate 8 0 ++ c)).take k, ?_, ?_⟩
    · rw [ha, List.take_append, List.take_of_length_le (by omega)]
      simp
    · simp; omega
  · unfold writeAt
    generalize hj : (le (appended pkg name c).length 8).take (k - ((appended pkg name c).length - pkg.length)) = d
    have hd : d.length ≤ 8 := by rw [← hj, List.length_take, le_length]; omega
    refine ⟨(name ++ [0]) ++ d ++ (appended pkg name c).drop (pkg.length + name.length + 1 + d.length), ?_, ?_⟩
    · have : (appended pkg name c).take (pkg.length + name.length + 1) = pkg ++ (name ++ [0]) := by
        rw [ha, show pkg ++ (name ++ 0 :: (List.replicate 8 0 ++ c)) = (pkg ++ (name ++ [0])) ++ (List.replicate 8 0 ++ c) by simp]
        exact List.take_left' (by simp; omega)
      rw [this]
      simp only [List.append_assoc]
    · simp only [List.length_append, List.length_drop, hl, List.length_cons, List.length_nil]
      omega

/-- After the last write the file is added. -/
theorem interrupted_last (pkg name c : Text) (k : Nat) (hk : name.length + 17 + c.length ≤ k) :
    interrupted pkg name c k = (add (some pkg) name (some c)).2 := by
  have hl : (appended pkg name c).length = pkg.length + (name.length + 9 + c.length) := by
    simp [appended, copyLoop_eq]; omega
  unfold interrupted
  simp only
  rw [if_neg (by omega), List.take_of_length_le (by rw [le_length]; omega)]
  rfl

theorem sameN_eq : ∀ (name n t : Text) (k : Nat), (∀ c ∈ name, c ≠ 0) → (∀ c ∈ n, c ≠ 0) → n.length < k →
    sameN name (n ++ 0 :: t) k = .ok (decide (n = name)) := by
  intro name n
  induction n generalizing name with
  | nil =>
    intro t k h1 _ hk
    obtain ⟨k, rfl⟩ : ∃ j, k = j + 1 := ⟨k - 1, by simp at hk; omega⟩
    cases name with
    | nil => rfl
    | cons a name =>
      have : (a == 0) = false := by simpa using h1 a (List.mem_cons_self ..)
      simp [sameN, this]
  | cons b n ih =>
    intro t k h1 h2 hk
    obtain ⟨k, rfl⟩ : ∃ j, k = j + 1 := ⟨k - 1, by simp at hk; omega⟩
    cases name with
    | nil =>
      have : (b == 0) = false := by simpa using h2 b (List.mem_cons_self ..)
      simp [sameN, this]
    | cons a name =>
      simp only [List.cons_append, sameN]
      by_cases hab : a = b
      · subst hab
        rw [if_pos (by simp), ih name t k (fun c hc => h1 c (List.mem_cons_of_mem _ hc))
          (fun c hc => h2 c (List.mem_cons_of_mem _ hc)) (by simp at hk; omega)]
        simp
      · rw [if_neg (by simpa using hab)]
        simp [Ne.symm hab]

theorem boundary_eq (n t : Text) (h : ∀ c ∈ n, c ≠ 0) : ((n ++ 0 :: t).takeWhile (· != 0)).length = n.length := by
  rw [List.takeWhile_append_of_pos (by intro c hc; simpa using h c hc)]
  simp

/-- Reading a name, its end and the address behind it. -/
theorem read_entry (pkg pre n a rest buffer : Text) (h : pkg = pre ++ (n ++ 0 :: (a ++ rest))) (ha : a.length = 8)
    (hn : n.length ≤ 491) : ∃ t, (pkg.drop pre.length).take 500 ++ buffer.drop ((pkg.drop pre.length).take 500).length =
      n ++ 0 :: (a ++ t) ∧ n.length < ((pkg.drop pre.length).take 500).length := by
  have h1 : pkg.drop pre.length = (n ++ 0 :: a) ++ rest := by
    rw [h, List.drop_left' rfl]; simp
  have h2 : (pkg.drop pre.length).take 500 = (n ++ 0 :: a) ++ rest.take (500 - (n ++ 0 :: a).length) := by
    rw [h1, List.take_append, List.take_of_length_le (by simp [ha]; omega)]
  rw [h2]
  refine ⟨rest.take (500 - (n ++ 0 :: a).length) ++ buffer.drop (((n ++ 0 :: a) ++ rest.take (500 - (n ++ 0 :: a).length)).length), ?_, ?_⟩
  · simp only [List.append_assoc, List.cons_append]
  · simp only [List.length_append, List.length_cons]; omega

/-- The contents behind a name. -/
theorem contentsAt_entry (pkg pre n c rest : Text) (hp : pkg.length < 2147483648)
    (h : pkg = pre ++ (n ++ 0 :: (le (pre.length + n.length + 9 + c.length) 8 ++ (c ++ rest)))) :
    contentsAt pkg (pre.length + n.length + 1) = .ok (if c = [] then none else some c) := by
  have hd : pkg.drop (pre.length + n.length + 1) = le (pre.length + n.length + 9 + c.length) 8 ++ (c ++ rest) := by
    rw [h, show pre ++ (n ++ 0 :: (le (pre.length + n.length + 9 + c.length) 8 ++ (c ++ rest))) =
      (pre ++ n ++ [0]) ++ (le (pre.length + n.length + 9 + c.length) 8 ++ (c ++ rest)) by simp]
    exact List.drop_left' (by simp; omega)
  have hlen : pkg.length = pre.length + n.length + 9 + c.length + rest.length := by
    rw [h]; simp [le_length]; omega
  have hnext : ofLe ((pkg.drop (pre.length + n.length + 1)).take 8) = pre.length + n.length + 9 + c.length := by
    rw [hd, List.take_left' (le_length _ _), ofLe_le]
    exact Nat.mod_eq_of_lt (by omega)
  have hcur : (if pre.length + n.length + 1 + 8 ≤ pkg.length then pre.length + n.length + 1 + 8
      else max (pre.length + n.length + 1) pkg.length) = pre.length + n.length + 9 := by
    rw [if_pos (by omega)]
  have hdc : (pkg.drop (pre.length + n.length + 9)).take c.length = c := by
    rw [show pre.length + n.length + 9 = (pre.length + n.length + 1) + 8 by omega, ← List.drop_drop, hd,
      List.drop_left' (le_length _ _), List.take_left' rfl]
  unfold contentsAt
  simp only [hnext, hcur]
  have hsize : (pre.length + n.length + 9 + c.length + 18446744073709551616 - (pre.length + n.length + 9) % 18446744073709551616) %
      18446744073709551616 = c.length := by omega
  simp only [hsize]
  rw [if_neg (by omega)]
  by_cases hc : c = []
  · rw [if_pos (by simp [hc]), if_pos hc]
  · have : c.length ≠ 0 := by simpa using hc
    rw [if_neg this, if_neg hc, if_neg (by omega), hdc]

/-- The conditions on the names in a package. -/
def Fits (items : List Item) : Prop := ∀ x ∈ items, Name x.1 ∧ x.1.length ≤ 491

theorem loadLoop_skip (pkg pre n c rest name buffer : Text) (fuel : Nat) (hb : buffer.length = 500)
    (hp : pkg.length < 2147483648) (hn : Name n) (hl : n.length ≤ 491) (hname : ∀ c ∈ name, c ≠ 0) (hne : n ≠ name)
    (h : pkg = pre ++ (n ++ 0 :: (le (pre.length + n.length + 9 + c.length) 8 ++ (c ++ rest)))) :
    ∃ b, b.length = 500 ∧ loadLoop pkg name (fuel + 1) pre.length buffer =
      loadLoop pkg name fuel (pre.length + n.length + 9 + c.length) b := by
  obtain ⟨t, h1, h2⟩ := read_entry pkg pre n _ (c ++ rest) buffer h (le_length _ _) hl
  have hlen : pkg.length = pre.length + n.length + 9 + c.length + rest.length := by
    rw [h]; simp [le_length]; omega
  have hb2 : ((pkg.drop pre.length).take 500 ++ buffer.drop ((pkg.drop pre.length).take 500).length).length = 500 := by
    rw [List.length_append, List.length_drop, hb]
    have : ((pkg.drop pre.length).take 500).length ≤ 500 := by rw [List.length_take]; omega
    omega
  refine ⟨_, hb2, ?_⟩
  rw [loadLoop]
  simp only
  have hs : sameN name ((pkg.drop pre.length).take 500 ++ buffer.drop ((pkg.drop pre.length).take 500).length)
      ((pkg.drop pre.length).take 500).length = .ok false := by
    rw [h1, sameN_eq name n _ _ hname hn.2 h2]
    simp [hne]
  rw [hs]
  simp only
  rw [h1]
  have hbd := boundary_eq n (le (pre.length + n.length + 9 + c.length) 8 ++ t) hn.2
  rw [hbd]
  have hlen500 : (n ++ 0 :: (le (pre.length + n.length + 9 + c.length) 8 ++ t)).length = 500 := by rw [← h1]; exact hb2
  rw [if_neg (by rw [hlen500]; omega)]
  have hj : ofLe (((n ++ 0 :: (le (pre.length + n.length + 9 + c.length) 8 ++ t)).drop (n.length + 1)).take 8) =
      pre.length + n.length + 9 + c.length := by
    rw [show n ++ 0 :: (le (pre.length + n.length + 9 + c.length) 8 ++ t) =
      (n ++ [0]) ++ (le (pre.length + n.length + 9 + c.length) 8 ++ t) by simp,
      List.drop_left' (by simp), List.take_left' (le_length _ _), ofLe_le]
    exact Nat.mod_eq_of_lt (by omega)
  rw [hj, if_neg (by omega), if_pos (by omega)]

theorem loadLoop_hit (pkg pre c rest name buffer : Text) (fuel : Nat)
    (hp : pkg.length < 2147483648) (hn : Name name) (hl : name.length ≤ 491)
    (h : pkg = pre ++ (name ++ 0 :: (le (pre.length + name.length + 9 + c.length) 8 ++ (c ++ rest)))) :
    loadLoop pkg name (fuel + 1) pre.length buffer = some (.ok (if c = [] then none else some c)) := by
  obtain ⟨t, h1, h2⟩ := read_entry pkg pre name _ (c ++ rest) buffer h (le_length _ _) hl
  rw [loadLoop]
  simp only
  have hs : sameN name ((pkg.drop pre.length).take 500 ++ buffer.drop ((pkg.drop pre.length).take 500).length)
      ((pkg.drop pre.length).take 500).length = .ok true := by
    rw [h1, sameN_eq name name _ _ hn.2 hn.2 h2]
    simp
  rw [hs]
  simp only
  rw [contentsAt_entry pkg pre name c rest hp h]

theorem loadLoop_found : ∀ (items : List Item) (pkg pre rest name buffer c : Text) (fuel : Nat), buffer.length = 500 →
    pkg.length < 2147483648 → Fits items → pkg = pre ++ (image pre.length items ++ rest) →
    first items name = some c → items.length ≤ fuel →
    loadLoop pkg name fuel pre.length buffer = some (.ok (if c = [] then none else some c)) := by
  intro items
  induction items with
  | nil => intro _ _ _ _ _ _ _ _ _ _ _ h; cases h
  | cons x items ih =>
    intro pkg pre rest name buffer c fuel hb hp hf hpkg hfirst hfuel
    obtain ⟨n, d⟩ := x
    obtain ⟨fuel, rfl⟩ : ∃ j, fuel = j + 1 := ⟨fuel - 1, by simp at hfuel; omega⟩
    have hx := hf (n, d) (List.mem_cons_self ..)
    have hpkg' : pkg = pre ++ (n ++ 0 :: (le (pre.length + n.length + 9 + d.length) 8 ++
        (d ++ (image (pre.length + n.length + 9 + d.length) items ++ rest)))) := by
      rw [hpkg]; simp [image]
    by_cases hne : n = name
    · subst hne
      simp only [first, if_true, Option.some.injEq] at hfirst
      subst hfirst
      exact loadLoop_hit pkg pre d _ n buffer fuel hp hx.1 hx.2 hpkg'
    · simp only [first, if_neg hne] at hfirst
      have hname : ∀ c ∈ name, c ≠ 0 := by
        have : ∃ y ∈ items, y.1 = name := by
          clear ih hpkg hpkg' hf hfuel
          induction items with
          | nil => cases hfirst
          | cons y l ih2 =>
            obtain ⟨n', d'⟩ := y
            by_cases h' : n' = name
            · exact ⟨(n', d'), List.mem_cons_self .., h'⟩
            · simp only [first, if_neg h'] at hfirst
              obtain ⟨y, hy, e⟩ := ih2 hfirst
              exact ⟨y, List.mem_cons_of_mem _ hy, e⟩
        obtain ⟨y, hy, rfl⟩ := this
        exact (hf y (List.mem_cons_of_mem _ hy)).1.2
      obtain ⟨b, hb', e⟩ := loadLoop_skip pkg pre n d _ name buffer fuel hb hp hx.1 hx.2 hname hne hpkg'
      rw [e]
      have hpre : (pre ++ (n ++ 0 :: (le (pre.length + n.length + 9 + d.length) 8 ++ d))).length =
          pre.length + n.length + 9 + d.length := by simp [le_length]; omega
      have := ih pkg (pre ++ (n ++ 0 :: (le (pre.length + n.length + 9 + d.length) 8 ++ d))) rest name b c fuel hb' hp
        (fun y hy => hf y (List.mem_cons_of_mem _ hy)) (by rw [hpre, hpkg']; simp) hfirst (by simp at hfuel; omega)
      rw [hpre] at this
      exact this

theorem loadLoop_more {pkg name : Text} {r : Out (Option Text)} : ∀ (j fuel : Nat) {pos : Nat} {buffer : Text}, j ≤ fuel →
    loadLoop pkg name j pos buffer = some r → loadLoop pkg name fuel pos buffer = some r := by
  intro j
  induction j with
  | zero => intro _ _ _ _ h; cases h
  | succ j ih =>
    intro fuel pos buffer hf h
    obtain ⟨fuel, rfl⟩ : ∃ i, fuel = i + 1 := ⟨fuel - 1, by omega⟩
    rw [loadLoop] at h ⊢
    simp only at h ⊢
    split at h
    · exact h
    · exact h
    · exact h
    · split at h
      · rename_i hb; rw [if_pos hb]; exact h
      · rename_i hb
        rw [if_neg hb]
        split at h
        · rename_i hz; rw [if_pos hz]; exact h
        · rename_i hz
          rw [if_neg hz]
          exact ih fuel (by omega) h

theorem loadLoop_end (pkg name buffer : Text) (fuel : Nat) (hp : pkg.length + name.length + 1 < 9223372036854775808) :
    loadLoop pkg name (fuel + 1) pkg.length buffer = some (.ok none) := by
  rw [loadLoop]
  have h0 : (pkg.drop pkg.length).take 500 = [] := by simp
  simp only [h0, List.length_nil, sameN]
  have : contentsAt pkg (pkg.length + name.length + 1) = .ok none := by
    unfold contentsAt
    have h1 : pkg.drop (pkg.length + name.length + 1) = [] := List.drop_eq_nil_of_le (by omega)
    have h2 : (if pkg.length + name.length + 1 + 8 ≤ pkg.length then pkg.length + name.length + 1 + 8
        else max (pkg.length + name.length + 1) pkg.length) = pkg.length + name.length + 1 := by
      rw [if_neg (by omega)]; omega
    simp only [h1, h2, List.take_nil, ofLe]
    rw [if_pos (by omega), if_neg (by omega)]
  rw [this]

theorem loadLoop_missing : ∀ (items : List Item) (pkg pre name buffer : Text) (fuel : Nat), buffer.length = 500 →
    pkg.length < 2147483648 → Fits items → pkg = pre ++ image pre.length items → (∀ c ∈ name, c ≠ 0) →
    pkg.length + name.length + 1 < 9223372036854775808 →
    first items name = none → items.length + 1 ≤ fuel → loadLoop pkg name fuel pre.length buffer = some (.ok none) := by
  intro items
  induction items with
  | nil =>
    intro pkg pre name buffer fuel _ _ _ hpkg _ hp _ hfuel
    obtain ⟨fuel, rfl⟩ : ∃ j, fuel = j + 1 := ⟨fuel - 1, by simp at hfuel; omega⟩
    simp only [image, List.append_nil] at hpkg
    subst hpkg
    exact loadLoop_end pkg name buffer fuel hp
  | cons x items ih =>
    intro pkg pre name buffer fuel hb hp hf hpkg hname hsum hfirst hfuel
    obtain ⟨n, d⟩ := x
    obtain ⟨fuel, rfl⟩ : ∃ j, fuel = j + 1 := ⟨fuel - 1, by simp at hfuel; omega⟩
    have hx := hf (n, d) (List.mem_cons_self ..)
    have hpkg' : pkg = pre ++ (n ++ 0 :: (le (pre.length + n.length + 9 + d.length) 8 ++
        (d ++ image (pre.length + n.length + 9 + d.length) items))) := by rw [hpkg]; simp [image]
    by_cases hne : n = name
    · simp [first, hne] at hfirst
    · simp only [first, if_neg hne] at hfirst
      obtain ⟨b, hb', e⟩ := loadLoop_skip pkg pre n d _ name buffer fuel hb hp hx.1 hx.2 hname hne hpkg'
      rw [e]
      have hpre : (pre ++ (n ++ 0 :: (le (pre.length + n.length + 9 + d.length) 8 ++ d))).length =
          pre.length + n.length + 9 + d.length := by simp [le_length]; omega
      have := ih pkg (pre ++ (n ++ 0 :: (le (pre.length + n.length + 9 + d.length) 8 ++ d))) name b fuel hb' hp
        (fun y hy => hf y (List.mem_cons_of_mem _ hy)) (by rw [hpre, hpkg']; simp) hname hsum hfirst (by simp at hfuel; omega)
      rw [hpre] at this
      exact this

end Verif.Model.Package
