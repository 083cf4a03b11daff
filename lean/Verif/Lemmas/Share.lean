import Verif.Model.Share

/-! # Texts shared with maps, methods and numbers: lemmas -/

namespace Verif.Lemmas.Share

open Verif.Model Verif.Model.Share Verif.Model.Num
open Verif.Spec.Share (Held change give)

/-- The program sees the same texts; texts of its own are nowhere else. -/
structure Rel (h : Heap) (sh : List (Held Text)) (keys : List Nat) : Prop where
  text : ∀ i : Nat, (h.held[i]?).map h.text = (sh[i]?).map Held.text
  heldLt : ∀ i k : Nat, h.held[i]? = some k → k < h.texts.length
  keysLt : ∀ k ∈ keys, k < h.texts.length
  own : ∀ (i k : Nat) (x : Held Text), h.held[i]? = some k → sh[i]? = some x → x.own = true → k ∉ keys ∧ ∀ j : Nat, j ≠ i → h.held[j]? ≠ some k

theorem Rel.has {h : Heap} {sh : List (Held Text)} {keys : List Nat} (r : Rel h sh keys) {i k : Nat} (hk : h.held[i]? = some k) :
    ∃ x, sh[i]? = some x ∧ x.text = h.text k := by
  have := r.text i
  rw [hk] at this
  cases hx : sh[i]? with
  | none => rw [hx] at this; cases this
  | some x => rw [hx] at this; exact ⟨x, rfl, (Option.some.inj this).symm⟩

theorem Rel.hasnt {h : Heap} {sh : List (Held Text)} {keys : List Nat} (r : Rel h sh keys) {i : Nat} (hk : h.held[i]? = none) :
    sh[i]? = none := by
  have := r.text i
  rw [hk] at this
  cases hx : sh[i]? with
  | none => rfl
  | some x => rw [hx] at this; cases this

theorem Rel.len {h : Heap} {sh : List (Held Text)} {keys : List Nat} (r : Rel h sh keys) : h.held.length = sh.length := by
  have h1 : ∀ i, h.held.length ≤ i ↔ sh.length ≤ i := by
    intro i
    rw [← List.getElem?_eq_none_iff, ← List.getElem?_eq_none_iff]
    constructor
    · exact r.hasnt
    · intro hx
      have := r.text i
      rw [hx] at this
      cases hk : h.held[i]? with
      | none => rfl
      | some k => rw [hk] at this; cases this
  have a := (h1 h.held.length).1 (Nat.le_refl _)
  have b := (h1 sh.length).2 (Nat.le_refl _)
  omega

theorem text_append {l : List Text} {t : Text} {hd hd' : List Nat} {k : Nat} (hk : k < l.length) :
    Heap.text ⟨l ++ [t], hd⟩ k = Heap.text ⟨l, hd'⟩ k := by
  unfold Heap.text
  dsimp only
  rw [List.getElem?_append_left hk]

theorem text_new {l : List Text} {t : Text} {hd : List Nat} : Heap.text ⟨l ++ [t], hd⟩ l.length = t := by
  unfold Heap.text
  simp

theorem build_rel {h : Heap} {sh : List (Held Text)} {keys : List Nat} (r : Rel h sh keys) (t : Text) :
    Rel (h.build t).2 sh ((h.build t).1 :: keys) ∧ (h.build t).2.text (h.build t).1 = t ∧
      ∀ k ∈ keys, (h.build t).2.text k = h.text k := by
  refine ⟨⟨?_, ?_, ?_, ?_⟩, text_new, fun k hk => text_append (r.keysLt k hk)⟩
  · intro i
    rw [← r.text i]
    show (h.held[i]?).map _ = _
    cases hk : h.held[i]? with
    | none => rfl
    | some k => exact congrArg some (text_append (r.heldLt i k hk))
  · intro i k hk
    have := r.heldLt i k hk
    show k < (h.texts ++ [t]).length
    rw [List.length_append]; omega
  · intro k hk
    show k < (h.texts ++ [t]).length
    rw [List.length_append]
    rcases List.mem_cons.1 hk with hk | hk
    · rw [hk]; exact Nat.lt_succ_self _
    · have := r.keysLt k hk; omega
  · intro i k x hk hx ho
    obtain ⟨h1, h2⟩ := r.own i k x hk hx ho
    refine ⟨fun hm => ?_, h2⟩
    rcases List.mem_cons.1 hm with hm | hm
    · have := r.heldLt i k hk
      rw [hm] at this
      exact Nat.lt_irrefl _ this
    · exact h1 hm

theorem get_snoc {α : Type} (l : List α) (a : α) (i : Nat) :
    (l ++ [a])[i]? = if i = l.length then some a else l[i]? := by
  rw [List.getElem?_append]
  split
  · next h => rw [if_neg (by omega)]
  · next h =>
    split
    · next e => rw [e]; simp
    · next e =>
      rw [List.getElem?_eq_none (by simp; omega), List.getElem?_eq_none (by omega)]

theorem make_rel {h : Heap} {sh : List (Held Text)} {keys : List Nat} (r : Rel h sh keys) (t : Text) :
    Rel (h.make t) (sh ++ [⟨t, true⟩]) keys ∧ ∀ k ∈ keys, (h.make t).text k = h.text k := by
  have hl := r.len
  refine ⟨⟨?_, ?_, ?_, ?_⟩, fun k hk => text_append (r.keysLt k hk)⟩
  · intro i
    show ((h.held ++ [h.texts.length])[i]?).map _ = _
    rw [get_snoc, get_snoc, hl]
    split
    · exact congrArg some text_new
    · rw [← r.text i]
      cases hk : h.held[i]? with
      | none => rfl
      | some k => exact congrArg some (text_append (r.heldLt i k hk))
  · intro i k hk
    show k < (h.texts ++ [t]).length
    have hk : (h.held ++ [h.texts.length])[i]? = some k := hk
    rw [get_snoc] at hk
    rw [List.length_append]
    split at hk
    · have := Option.some.inj hk; simp; omega
    · have := r.heldLt i k hk; omega
  · intro k hk
    have := r.keysLt k hk
    show k < (h.texts ++ [t]).length
    rw [List.length_append]; omega
  · intro i k x hk hx ho
    have hk : (h.held ++ [h.texts.length])[i]? = some k := hk
    rw [get_snoc] at hk hx
    split at hk
    · next hi =>
      have hk := Option.some.inj hk
      refine ⟨fun hm => ?_, fun j hj hh => ?_⟩
      · have := r.keysLt k hm; omega
      · have hh : (h.held ++ [h.texts.length])[j]? = some k := hh
        rw [get_snoc, if_neg (by omega)] at hh
        have := r.heldLt j k hh
        omega
    · next hi =>
      rw [if_neg (by omega)] at hx
      obtain ⟨h1, h2⟩ := r.own i k x hk hx ho
      refine ⟨h1, fun j hj hh => ?_⟩
      have hh : (h.held ++ [h.texts.length])[j]? = some k := hh
      rw [get_snoc] at hh
      split at hh
      · have := Option.some.inj hh
        have := r.heldLt i k hk
        omega
      · exact h2 j hj hh

theorem get_modify {α : Type} (l : List α) (f : α → α) (i j : Nat) :
    (l.modify i f)[j]? = (l[j]?).map fun a => if i = j then f a else a := List.getElem?_modify ..

theorem append_rel {h : Heap} {sh : List (Held Text)} {keys : List Nat} (r : Rel h sh keys) (i : Nat) (t : Text)
    (ho : ∀ x, sh[i]? = some x → x.own = true) :
    Rel (h.append i t) (change (· ++ ·) sh i t) keys ∧ ∀ k ∈ keys, (h.append i t).text k = h.text k := by
  unfold Heap.append
  cases hk : h.held[i]? with
  | none =>
    have hn := r.hasnt hk
    have : change (· ++ ·) sh i t = sh := by
      unfold change
      exact List.modify_eq_self (by rw [List.getElem?_eq_none_iff] at hn; exact hn)
    rw [this]
    exact ⟨r, fun k _ => rfl⟩
  | some k =>
    dsimp only
    obtain ⟨x, hx, hxt⟩ := r.has hk
    obtain ⟨h1, h2⟩ := r.own i k x hk hx (ho x hx)
    have hk' := r.heldLt i k hk
    have hother : ∀ j, j ≠ k → Heap.text ⟨h.texts.modify k fun u => u ++ t, h.held⟩ j = h.text j := by
      intro j hj
      unfold Heap.text
      dsimp only
      rw [get_modify]
      cases h.texts[j]? with
      | none => rfl
      | some u => simp [show ¬ k = j from fun e => hj e.symm]
    have hself : Heap.text ⟨h.texts.modify k fun u => u ++ t, h.held⟩ k = h.text k ++ t := by
      unfold Heap.text
      dsimp only
      rw [get_modify, List.getElem?_eq_getElem hk']
      simp
    refine ⟨⟨?_, ?_, ?_, ?_⟩, ?_⟩
    · intro j
      dsimp only
      unfold change
      rw [get_modify]
      by_cases hj : i = j
      · rw [← hj, hk, hx]
        simp only [Option.map_some, Option.some.injEq, if_true]
        rw [hself, hxt]
      · cases hkj : h.held[j]? with
        | none => rw [r.hasnt hkj]; rfl
        | some k' =>
          obtain ⟨y, hy, hyt⟩ := r.has hkj
          rw [hy]
          simp only [Option.map_some, Option.some.injEq, if_neg hj]
          rw [hyt]
          exact hother k' (fun e => h2 j (fun e' => hj e'.symm) (e ▸ hkj))
    · intro j k' hk''
      dsimp only
      rw [List.length_modify]
      exact r.heldLt j k' hk''
    · intro k' hk''
      dsimp only
      rw [List.length_modify]
      exact r.keysLt k' hk''
    · intro j k' y hj hy hoy
      unfold change at hy
      rw [get_modify] at hy
      cases hz : sh[j]? with
      | none => rw [hz] at hy; cases hy
      | some z =>
        rw [hz] at hy
        refine r.own j k' z hj hz ?_
        have := Option.some.inj hy
        split at this
        · rw [← this] at hoy; exact hoy
        · rw [← this] at hoy; exact hoy
    · intro j hj
      exact hother j (fun e => h1 (e ▸ hj))

theorem hold_rel {h : Heap} {sh : List (Held Text)} {keys : List Nat} (r : Rel h sh keys) {k : Nat} (hk : k ∈ keys) {t : Text}
    (ht : t = h.text k) : Rel { h with held := h.held ++ [k] } (sh ++ [⟨t, false⟩]) keys := by
  have hl := r.len
  refine ⟨?_, ?_, r.keysLt, ?_⟩
  · intro i
    dsimp only
    rw [get_snoc, get_snoc, hl]
    split
    · rw [ht]; rfl
    · exact r.text i
  · intro i k' hk'
    dsimp only at hk'
    rw [get_snoc] at hk'
    split at hk'
    · rw [← Option.some.inj hk']; exact r.keysLt k hk
    · exact r.heldLt i k' hk'
  · intro i k' x hk' hx ho
    dsimp only at hk' ⊢
    rw [get_snoc] at hk' hx
    split at hx
    · rw [← Option.some.inj hx] at ho; cases ho
    · next hi =>
      rw [if_neg (by omega)] at hk'
      obtain ⟨h1, h2⟩ := r.own i k' x hk' hx ho
      refine ⟨h1, fun j hj hh => ?_⟩
      rw [get_snoc] at hh
      split at hh
      · have := Option.some.inj hh
        exact h1 (this ▸ hk)
      · exact h2 j hj hh

theorem give_rel {h : Heap} {sh : List (Held Text)} {keys : List Nat} (r : Rel h sh keys) {i k : Nat} (hk : h.held[i]? = some k) :
    Rel h (give sh i) (k :: keys) := by
  refine ⟨?_, r.heldLt, ?_, ?_⟩
  · intro j
    rw [r.text j]
    unfold give
    rw [get_modify]
    cases sh[j]? with
    | none => rfl
    | some x => by_cases hij : i = j <;> simp [hij]
  · intro k' hk'
    rcases List.mem_cons.1 hk' with hk' | hk'
    · rw [hk']; exact r.heldLt i k hk
    · exact r.keysLt k' hk'
  · intro j k' x hk' hx ho
    unfold give at hx
    rw [get_modify] at hx
    cases hz : sh[j]? with
    | none => rw [hz] at hx; cases hx
    | some z =>
      rw [hz] at hx
      have hx := Option.some.inj hx
      split at hx
      · rw [← hx] at ho; cases ho
      · next hij =>
        obtain ⟨h1, h2⟩ := r.own j k' z hk' hz (by rw [← hx] at ho; exact ho)
        refine ⟨fun hm => ?_, h2⟩
        rcases List.mem_cons.1 hm with hm | hm
        · exact h2 i hij (hm ▸ hk)
        · exact h1 hm

theorem Rel.sub {h : Heap} {sh : List (Held Text)} {keys keys' : List Nat} (r : Rel h sh keys) (hs : ∀ k ∈ keys', k ∈ keys) :
    Rel h sh keys' :=
  ⟨r.text, r.heldLt, fun k hk => r.keysLt k (hs k hk), fun i k x h1 h2 h3 =>
    ⟨fun hm => (r.own i k x h1 h2 h3).1 (hs k hm), (r.own i k x h1 h2 h3).2⟩⟩

/-! ### Entries -/

/-- The entries as key texts and values. -/
def plain (h : Heap) (l : List Entry) : List (Text × Nat) := l.map fun e => (h.text e.key, e.val)

/-- The hashes are those of the keys. -/
def Hashed (hash : Text → Nat) (h : Heap) (l : List Entry) : Prop := ∀ e ∈ l, e.hash = hash (h.text e.key)

theorem hit_iff {hash : Text → Nat} {h : Heap} {t : Text} {e : Entry} (he : e.hash = hash (h.text e.key)) :
    hit hash h t e = decide (h.text e.key = t) := by
  unfold hit
  by_cases ht : h.text e.key = t
  · rw [he, ht]; simp
  · simp [ht]

theorem lookup_eq {hash : Text → Nat} {h : Heap} {t : Text} {l : List Entry} (hh : Hashed hash h l) :
    lookup hash h t l = ((plain h l).find? fun e => e.1 = t).map (·.2) := by
  induction l with
  | nil => rfl
  | cons e l ih =>
    rw [lookup, hit_iff (hh e List.mem_cons_self), ih (fun e he => hh e (List.mem_cons_of_mem _ he))]
    unfold plain
    rw [List.map_cons, List.find?_cons]
    by_cases ht : h.text e.key = t <;> simp [ht]

theorem remove_sub {hash : Text → Nat} {h : Heap} {t : Text} {l : List Entry} : ∀ e ∈ remove hash h t l, e ∈ l := by
  induction l with
  | nil => intro e he; exact he
  | cons a l ih =>
    intro e he
    rw [remove] at he
    split at he
    · exact List.mem_cons_of_mem _ he
    · rcases List.mem_cons.1 he with he | he
      · exact he ▸ List.mem_cons_self
      · exact List.mem_cons_of_mem _ (ih e he)

theorem remove_eq {hash : Text → Nat} {h : Heap} {t : Text} {l : List Entry} (hh : Hashed hash h l)
    (hn : ((plain h l).map (·.1)).Nodup) : plain h (remove hash h t l) = (plain h l).filter fun e => e.1 ≠ t := by
  induction l with
  | nil => rfl
  | cons e l ih =>
    have hn' : (h.text e.key :: (plain h l).map (·.1)).Nodup := hn
    rw [List.nodup_cons] at hn'
    rw [remove, hit_iff (hh e List.mem_cons_self)]
    have hc : plain h (e :: l) = (h.text e.key, e.val) :: plain h l := rfl
    rw [hc, List.filter_cons]
    by_cases ht : h.text e.key = t
    · simp only [ht, decide_true, if_true, ne_eq, not_true, decide_false, Bool.false_eq_true, if_false]
      refine (List.filter_eq_self.2 ?_).symm
      intro a ha
      refine decide_eq_true fun hat => hn'.1 ?_
      rw [ht, ← hat]
      exact List.mem_map_of_mem ha
    · simp only [ht, decide_false, Bool.false_eq_true, if_false, ne_eq, not_false_eq_true, decide_true, if_true]
      rw [← ih (fun e he => hh e (List.mem_cons_of_mem _ he)) hn'.2]
      rfl

theorem plain_congr {h h' : Heap} {l : List Entry} (hc : ∀ k ∈ l.map (·.key), h'.text k = h.text k) : plain h' l = plain h l := by
  unfold plain
  refine List.map_congr_left fun e he => ?_
  rw [hc e.key (List.mem_map_of_mem he)]

theorem hashed_congr {hash : Text → Nat} {h h' : Heap} {l : List Entry} (hc : ∀ k ∈ l.map (·.key), h'.text k = h.text k)
    (hh : Hashed hash h l) : Hashed hash h' l := fun e he => by
  rw [hc e.key (List.mem_map_of_mem he)]
  exact hh e he

end Verif.Lemmas.Share
