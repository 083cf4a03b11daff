import Verif.Lemmas.Package

/-!
# Properties of packages (C85)
-/

namespace Verif.Props.Package
open Verif.Model.Package Verif.Spec.Package
open Verif (Out)

/-- Files whose names a search can read past: valid names of at most 491 bytes. -/
def Short (items : List Item) : Prop := ∀ x ∈ items, Name x.1 ∧ x.1.length ≤ 491

theorem first_length {items : List Item} {name c : Bytes} (h : first items name = some c) : 1 ≤ items.length := by
  cases items with
  | nil => cases h
  | cons => simp

/-- Whether a search ended with that outcome. -/
def gives : Option (Out (Option Bytes)) → Out (Option Bytes) → Bool
  | some (.ok a), .ok b => a == b
  | some .ub, .ub => true
  | some .exit, .exit => true
  | _, _ => false

theorem of_gives {a : Option (Out (Option Bytes))} {b : Out (Option Bytes)} (h : gives a b = true) : a = some b := by
  cases a with
  | none => cases h
  | some a =>
    cases a with
    | ok a =>
      cases b with
      | ok b => rw [eq_of_beq h]
      | ub => cases h
      | exit => cases h
    | ub => cases b <;> first | rfl | cases h
    | exit => cases b <;> first | rfl | cases h

/-- **C85, the part that holds.** Add any files, one after the other, to a package that does not exist yet. Then a search
for a name answers the contents of the first file of that name, byte for byte; for a name that was never added it answers
nothing. It reads no memory it should not, and ends within as many rounds as there are files, and one. Missing: empty
files, names of more than 491 bytes, packages of 2^31 bytes and more, and files that were added twice (see below). -/
theorem C85_load_partial (items : List Item) (hne : items ≠ []) (hs : Short items) (hsize : size items < 2147483648)
    (name : Bytes) (hname : ∀ c ∈ name, c ≠ 0) (hlen : name.length < 2147483648) (hfull : ∀ x ∈ items, x.2 ≠ [])
    (fuel : Nat) (hfuel : items.length + 1 ≤ fuel) :
    ∃ pkg, addAll none items = some pkg ∧ pkg.length = size items ∧ load fuel pkg name = some (.ok (first items name)) := by
  have hl := image_length 0 items
  refine ⟨_, addAll_none items hne, hl, ?_⟩
  cases hf : first items name with
  | none =>
    exact loadLoop_missing items (image 0 items) [] name _ fuel List.length_replicate (by omega) hs rfl hname (by omega) hf hfuel
  | some c =>
    have h := loadLoop_found items (image 0 items) [] [] name (List.replicate 500 0) c fuel List.length_replicate (by omega) hs (by simp)
      hf (by omega)
    have hc : c ≠ [] := by
      clear h hsize hl hfuel hne hs
      induction items with
      | nil => cases hf
      | cons x l ih =>
        obtain ⟨n, d⟩ := x
        by_cases hn : n = name
        · simp only [first, if_pos hn, Option.some.injEq] at hf
          subst hf
          exact hfull _ (List.mem_cons_self ..)
        · simp only [first, if_neg hn] at hf
          exact ih (fun x hx => hfull x (List.mem_cons_of_mem _ hx)) hf
    rw [if_neg hc] at h
    exact h

/-- Two files, `a/b.png` and `c`. -/
def two : List Item := [([97, 47, 98, 46, 112, 110, 103], [137, 80, 0, 0, 255]), ([99], [1, 2, 3])]

example : two ≠ [] ∧ Short two ∧ size two < 2147483648 ∧ (∀ x ∈ two, x.2 ≠ []) ∧ first two [99] = some [1, 2, 3] ∧
    first two [97] = none := by
  refine ⟨by decide, ?_, by decide, by decide, by decide, by decide⟩
  intro x hx
  simp only [two, List.mem_cons, List.not_mem_nil, or_false] at hx
  rcases hx with rfl | rfl <;> exact ⟨⟨by decide, by decide⟩, by decide⟩

/-- Adding a file leaves all that was in the package as it was: the new file stands behind it. -/
theorem C85_append (pkg name c : Bytes) : ∃ rest, add (some pkg) name (some c) = (false, pkg ++ rest) ∧
    rest.length = name.length + 9 + c.length := by
  refine ⟨_, add_some pkg name c, ?_⟩
  rw [image_length]
  simp [size]

/-- A file that cannot be read is an error and changes nothing in the package. -/
theorem C85_unreadable (pkg name : Bytes) : add (some pkg) name none = (true, pkg) := rfl

example : add (some [97, 0]) [98] none = (true, [97, 0]) ∧ add (some [97, 0]) [98] (some [99]) ≠ (true, [97, 0]) := by decide +kernel

/-- **C85, crash points.** If the program stops while it adds a file, after any number of bytes were written, then every
file that was added before is still found with its contents. -/
theorem C85_crash (items : List Item) (hne : items ≠ []) (hs : Short items) (n d : Bytes) (k : Nat)
    (hsize : size (items ++ [(n, d)]) < 2147483648) (name c : Bytes) (hfirst : first items name = some c) (hc : c ≠ [])
    (fuel : Nat) (hfuel : items.length ≤ fuel) :
    ∃ pkg, addAll none items = some pkg ∧ load fuel (interrupted pkg n d k) name = some (.ok (some c)) := by
  refine ⟨_, addAll_none items hne, ?_⟩
  obtain ⟨rest, hr, hl⟩ := interrupted_eq (image 0 items) n d k
  have hi := image_length 0 items
  have hz : size (items ++ [(n, d)]) = size items + (n.length + 9 + d.length) := by simp [size]
  have h := loadLoop_found items (interrupted (image 0 items) n d k) [] rest name (List.replicate 500 0) c fuel List.length_replicate
    (by rw [hr, List.length_append]; omega) hs (by rw [hr]; rfl) hfirst hfuel
  rw [if_neg hc] at h
  exact h

example : size (two ++ [([120], [7, 7])]) < 2147483648 ∧ first two [99] = some [1, 2, 3] ∧ ([1, 2, 3] : Bytes) ≠ [] := by
  decide

/-- Once all has been written, the file has been added. -/
theorem C85_crash_last (pkg n d : Bytes) (k : Nat) (hk : n.length + 17 + d.length ≤ k) :
    interrupted pkg n d k = (add (some pkg) n (some d)).2 := interrupted_last pkg n d k hk

example : ([120] : Bytes).length + 17 + ([7, 7] : Bytes).length ≤ 20 := by decide

/-- A program that stopped while it added a file leaves a package in which that file makes the search store to the null
pointer: its contents are there, but its end is 0. -/
theorem C85_violated_half : ∃ (items : List Item) (n d : Bytes) (k : Nat) (pkg : Bytes), Short items ∧
    addAll none items = some pkg ∧ ∀ fuel, items.length + 1 ≤ fuel → load fuel (interrupted pkg n d k) n = some .ub := by
  refine ⟨[([99], [1, 2, 3])], [120], [7, 7], 12, [99, 0, 13, 0, 0, 0, 0, 0, 0, 0, 1, 2, 3], ?_, by decide +kernel, ?_⟩
  · intro x hx
    simp only [List.mem_cons, List.not_mem_nil, or_false] at hx
    subst hx
    exact ⟨⟨by decide, by decide⟩, by decide⟩
  · intro fuel hf
    have : interrupted [99, 0, 13, 0, 0, 0, 0, 0, 0, 0, 1, 2, 3] [120] [7, 7] 12 =
      [99, 0, 13, 0, 0, 0, 0, 0, 0, 0, 1, 2, 3, 120, 0, 0, 0, 0, 0, 0, 0, 0, 0, 7, 7] := by decide +kernel
    rw [this]
    exact loadLoop_more 2 fuel hf (of_gives (by decide +kernel))

/-- Files that are added after such a stop are never found. -/
theorem C85_violated_crash : ∃ (items : List Item) (n d : Bytes) (k : Nat) (pkg : Bytes) (later : Item), Short items ∧
    addAll none items = some pkg ∧ Name later.1 ∧ later.2 ≠ [] ∧
    ∀ fuel, items.length + 1 ≤ fuel →
      load fuel (add (some (interrupted pkg n d k)) later.1 (some later.2)).2 later.1 = some (.ok none) := by
  refine ⟨[([99], [1, 2, 3])], [120], [7, 7], 12, [99, 0, 13, 0, 0, 0, 0, 0, 0, 0, 1, 2, 3], ([121], [8]), ?_,
    by decide +kernel, ⟨by decide, by decide⟩, by decide, ?_⟩
  · intro x hx
    simp only [List.mem_cons, List.not_mem_nil, or_false] at hx
    subst hx
    exact ⟨⟨by decide, by decide⟩, by decide⟩
  · intro fuel hf
    have : (add (some (interrupted [99, 0, 13, 0, 0, 0, 0, 0, 0, 0, 1, 2, 3] [120] [7, 7] 12)) [121] (some [8])).2 =
      [99, 0, 13, 0, 0, 0, 0, 0, 0, 0, 1, 2, 3, 120, 0, 0, 0, 0, 0, 0, 0, 0, 0, 7, 7, 121, 0, 36, 0, 0, 0, 0, 0, 0, 0, 8] := by
      decide +kernel
    simp only [this]
    exact loadLoop_more 2 fuel hf (of_gives (by decide +kernel))

/-- An empty file that was added is not found. -/
theorem C85_violated_empty : ∃ (items : List Item) (name pkg : Bytes), Short items ∧ first items name = some [] ∧
    addAll none items = some pkg ∧ ∀ fuel, items.length + 1 ≤ fuel → load fuel pkg name = some (.ok none) := by
  refine ⟨[([99], [])], [99], [99, 0, 10, 0, 0, 0, 0, 0, 0, 0], ?_, by decide, by decide +kernel, ?_⟩
  · intro x hx
    simp only [List.mem_cons, List.not_mem_nil, or_false] at hx
    subst hx
    exact ⟨⟨by decide, by decide⟩, by decide⟩
  · intro fuel hf
    exact loadLoop_more 2 fuel hf (of_gives (by decide +kernel))

/-- Whoever changes a file and adds it again still gets the old contents. -/
theorem C85_violated_again : ∃ (items : List Item) (name pkg : Bytes), Short items ∧ addAll none items = some pkg ∧
    ∀ fuel, items.length + 1 ≤ fuel → ∃ c, load fuel pkg name = some (.ok (some c)) ∧ last items name ≠ some c := by
  have hs : Short [([99], [1]), ([99], [2])] := by
    intro x hx
    simp only [List.mem_cons, List.not_mem_nil, or_false] at hx
    rcases hx with rfl | rfl <;> exact ⟨⟨by decide, by decide⟩, by decide⟩
  refine ⟨[([99], [1]), ([99], [2])], [99], _, hs, addAll_none _ (by decide), ?_⟩
  intro fuel hf
  obtain ⟨pkg, h1, -, h2⟩ := C85_load_partial _ (by decide) hs (by decide) [99] (by decide) (by decide) (by decide) fuel hf
  rw [addAll_none _ (by decide)] at h1
  cases h1
  exact ⟨[1], h2, by decide⟩

/-- A stored name of 492 bytes makes the search for a file behind it read outside its buffer. -/
theorem C85_violated_long : ∃ (items : List Item) (name pkg : Bytes), (∀ x ∈ items, Name x.1) ∧ size items < 2147483648 ∧
    (first items name).isSome ∧ addAll none items = some pkg ∧ ∀ fuel, 1 ≤ fuel → load fuel pkg name = some .ub := by
  have hn : Name (List.replicate 492 97) := ⟨by decide +kernel, fun c hc => by rw [(List.mem_replicate.1 hc).2]; decide⟩
  refine ⟨[(List.replicate 492 97, [1]), ([99], [2])], [99], _, ?_, by decide +kernel, by decide +kernel, addAll_none _ (by decide), ?_⟩
  · intro x hx
    simp only [List.mem_cons, List.not_mem_nil, or_false] at hx
    rcases hx with rfl | rfl
    · exact hn
    · exact ⟨by decide, by decide⟩
  · intro fuel hf
    exact loadLoop_more 1 fuel hf (of_gives (by decide +kernel))

/-- A package that is damaged can keep the search from ever ending: here the address behind a name is that of the name. -/
theorem C85_violated_damaged : ∃ (pkg name : Bytes), ∀ fuel, load fuel pkg name = none := by
  refine ⟨[99, 99, 120, 0, 1, 0, 0, 0, 0, 0, 0, 0], [97], ?_⟩
  have h : ∀ fuel pos, pos ≤ 1 → ∀ buffer, loadLoop [99, 99, 120, 0, 1, 0, 0, 0, 0, 0, 0, 0] [97] fuel pos buffer = none := by
    intro fuel
    induction fuel with
    | zero => intros; rfl
    | succ fuel ih =>
      intro pos hp buffer
      have hcase : pos = 0 ∨ pos = 1 := by omega
      rw [loadLoop]
      rcases hcase with rfl | rfl
      · have h1 : ((List.drop 0 [99, 99, 120, 0, 1, 0, 0, 0, 0, 0, 0, 0] : Bytes).take 500) =
            [99, 99, 120, 0, 1, 0, 0, 0, 0, 0, 0, 0] := rfl
        simp only [h1]
        simp only [List.cons_append, sameN, List.takeWhile, List.length_cons]
        rw [if_neg (by decide)]
        simp only
        rw [if_neg (by simp)]
        rw [show ofLe (List.take 8 (List.drop _ _)) = 1 from rfl, if_neg (by decide), if_pos (by decide)]
        exact ih 1 (by omega) _
      · have h1 : ((List.drop 1 [99, 99, 120, 0, 1, 0, 0, 0, 0, 0, 0, 0] : Bytes).take 500) =
            [99, 120, 0, 1, 0, 0, 0, 0, 0, 0, 0] := rfl
        simp only [h1]
        simp only [List.cons_append, sameN, List.takeWhile, List.length_cons]
        rw [if_neg (by decide)]
        simp only
        rw [if_neg (by simp)]
        rw [show ofLe (List.take 8 (List.drop _ _)) = 1 from rfl, if_neg (by decide), if_pos (by decide)]
        exact ih 1 (by omega) _
  intro fuel
  exact h fuel 0 (by omega) _

end Verif.Props.Package
