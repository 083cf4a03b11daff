import Verif.Lemmas.JsonDump
import Verif.Props.Num

/-!
# From values to JSON: lemmas
-/

namespace Verif.Lemmas.Json
open Verif Verif.Spec.Json Verif.Model.Json
open Verif.Model (Text)
open Verif.Model.Num (Seps numberToString numberFromText)

theorem no_blanks : Blanks [] := by
  intro c hc
  cases hc

theorem enter_new {α : Type} (es : List (Text × α)) (k : Text) (v : α) (h : k ∉ es.map (·.1)) : enter es k v = (k, v) :: es := by
  unfold enter
  congr 1
  rw [List.filter_eq_self]
  intro e he
  have : e.1 ≠ k := fun hk => h (hk ▸ List.mem_map_of_mem he)
  simpa using this

theorem turned_keys {D : Type} (es : List (Text × V D)) : (turnedEntries es).map (·.1) = es.map (·.1) := by
  induction es with
  | nil => rfl
  | cons e es ih => obtain ⟨k, v⟩ := e; rw [turnedEntries, List.map_cons, List.map_cons, ih]

variable {D : Type} (fl : Floats D) (sp : Seps) (P : D → Prop)
  (hP : ∀ x, P x → ∃ u, numberToString sp (fl.print x) none = .ok u ∧ FineNumber u ∧ fl.read (numberFromText sp u) = x)

set_option linter.unusedSectionVars false
include hP
mutual
theorem json_value (v : V D) (hv : Plain P v) : ∃ d, jsonValue fl sp v = .ok d.written ∧ Fine (fun _ => True) d ∧
    d.meant (fun t => fl.read (numberFromText sp t)) = turned v := by
  match v with
  | .nil => exact ⟨.null, by rw [jsonValue, Doc.written], trivial, by rw [Doc.meant, turned]⟩
  | .bool true => exact ⟨.bool true, by rw [jsonValue, Doc.written], trivial, by rw [Doc.meant, turned]⟩
  | .bool false => exact ⟨.bool false, by rw [jsonValue, Doc.written], trivial, by rw [Doc.meant, turned]⟩
  | .num x unit =>
    obtain ⟨rfl, hx⟩ := hv
    obtain ⟨u, h1, h2, h3⟩ := hP x hx
    exact ⟨.num u, by rw [jsonValue, Doc.written, h1], ⟨h2, trivial⟩, by rw [Doc.meant, turned, h3]⟩
  | .text t =>
    refine ⟨.text (piecesOf t), ?_, fine_piecesOf t hv, by rw [Doc.meant, turned, meant_piecesOf]⟩
    rw [jsonValue, escape_text t hv, Out.ok_bind, Doc.written, quoted]
  | .seq l =>
    obtain ⟨is, h1, h2, h3⟩ := json_items l hv true
    refine ⟨.arr [] is, ?_, ⟨no_blanks, h2⟩, by rw [Doc.meant, turned, h3]⟩
    rw [jsonValue, h1, Out.ok_bind, Doc.written]
    simp
  | .map es =>
    obtain ⟨hk, hes⟩ := hv
    obtain ⟨t, ms, h1, h2, h3, h4⟩ := json_entries es hes hk true
    refine ⟨.obj [] ms, ?_, ⟨no_blanks, h3⟩, ?_⟩
    · rw [jsonValue, h1, Out.ok_bind, Doc.written, h2]
      simp
    · rw [Doc.meant, turned, h4 [] (by intro k _ hk; cases hk), List.append_nil]
theorem json_items (l : List (V D)) (hv : PlainItems P l) (first : Bool) : ∃ is, jsonItems fl sp first l = .ok (writtenItems first is) ∧
    FineItems (fun _ => True) is ∧ meantItems (fun t => fl.read (numberFromText sp t)) is = turnedItems l := by
  match l with
  | [] => exact ⟨[], by rw [jsonItems, writtenItems], trivial, by rw [meantItems, turnedItems]⟩
  | .nil :: l =>
    obtain ⟨is, h1, h2, h3⟩ := json_items l hv.2 false
    refine ⟨([], .null, []) :: is, ?_, ⟨no_blanks, trivial, no_blanks, h2⟩, ?_⟩
    · rw [jsonItems, h1, writtenItems, Doc.written]
      simp [Out.ok_bind]
    · rw [meantItems, turnedItems, h3, Doc.meant, turned]
  | .bool true :: l =>
    obtain ⟨is, h1, h2, h3⟩ := json_items l hv.2 false
    refine ⟨([], .bool true, []) :: is, ?_, ⟨no_blanks, trivial, no_blanks, h2⟩, ?_⟩
    · rw [jsonItems, h1, writtenItems, Doc.written]
      simp [Out.ok_bind]
    · rw [meantItems, turnedItems, h3, Doc.meant, turned]
  | .bool false :: l =>
    obtain ⟨is, h1, h2, h3⟩ := json_items l hv.2 false
    refine ⟨([], .bool false, []) :: is, ?_, ⟨no_blanks, trivial, no_blanks, h2⟩, ?_⟩
    · rw [jsonItems, h1, writtenItems, Doc.written]
      simp [Out.ok_bind]
    · rw [meantItems, turnedItems, h3, Doc.meant, turned]
  | .num x unit :: l =>
    obtain ⟨⟨rfl, hx⟩, hl⟩ := hv
    obtain ⟨u, g1, g2, g3⟩ := hP x hx
    obtain ⟨is, h1, h2, h3⟩ := json_items l hl false
    refine ⟨([], .num u, []) :: is, ?_, ⟨no_blanks, ⟨g2, trivial⟩, no_blanks, h2⟩, ?_⟩
    · rw [jsonItems, h1, writtenItems, Doc.written, g1]
      simp [Out.ok_bind]
    · rw [meantItems, turnedItems, h3, Doc.meant, turned, g3]
  | .text t :: l =>
    obtain ⟨ht, hl⟩ := hv
    obtain ⟨is, h1, h2, h3⟩ := json_items l hl false
    refine ⟨([], .text (piecesIn t), []) :: is, ?_, ⟨no_blanks, fine_piecesIn t ht, no_blanks, h2⟩, ?_⟩
    · rw [jsonItems, h1, writtenItems, Doc.written, escape_in, quoted]
      simp [Out.ok_bind]
    · rw [meantItems, turnedItems, h3, Doc.meant, turned, meant_piecesIn]
  | .seq _ :: l => exact hv.1.elim
  | .map es :: l =>
    obtain ⟨⟨hk, hes⟩, hl⟩ := hv
    obtain ⟨t, ms, g1, g2, g3, g4⟩ := json_entries es hes hk true
    obtain ⟨is, h1, h2, h3⟩ := json_items l hl false
    refine ⟨([], .obj [] ms, []) :: is, ?_,
      ⟨no_blanks, ⟨no_blanks, g3⟩, no_blanks, h2⟩, ?_⟩
    · rw [jsonItems, h1, writtenItems, Doc.written, g1, g2]
      simp [Out.ok_bind]
    · rw [meantItems, turnedItems, h3, Doc.meant, turned, g4 [] (by intro k _ hk; cases hk), List.append_nil]
theorem json_entries (es : List (Text × V D)) (hv : PlainEntries P es) (hk : (es.map (·.1)).Nodup) (first : Bool) :
    ∃ t ms, jsonEntries fl sp es = .ok t ∧ writtenMembers first ms = (if first || es.isEmpty then [] else [44, 32]) ++ t ∧
    FineMembers (fun _ => True) ms ∧ ∀ acc : List (Text × V D), (∀ k ∈ es.map (·.1), k ∉ acc.map (·.1)) →
      meantMembers (fun t => fl.read (numberFromText sp t)) acc ms = (turnedEntries es).reverse ++ acc := by
  match es with
  | [] =>
    refine ⟨[], [], by rw [jsonEntries], by rw [writtenMembers]; simp, trivial, ?_⟩
    intro acc _
    rw [meantMembers, turnedEntries]
    rfl
  | (k, v) :: es =>
    obtain ⟨hsk, hv, hes⟩ := hv
    rw [List.map_cons, List.nodup_cons] at hk
    obtain ⟨d, g1, g2, g3⟩ := json_value v hv
    obtain ⟨t, ms, h1, h2, h3, h4⟩ := json_entries es hes hk.2 false
    refine ⟨quoted (piecesOf k) ++ [58] ++ d.written ++ ((if es.isEmpty then [] else [44, 32]) ++ t),
      (if first then [] else [32], piecesOf k, [], [], d, []) :: ms, ?_, ?_, ?_, ?_⟩
    · rw [jsonEntries, escape_text k hsk, Out.ok_bind, g1, Out.ok_bind, h1, Out.ok_bind, quoted]
      simp
    · rw [writtenMembers, h2]
      cases first <;> simp
    · refine ⟨?_, fine_piecesOf k hsk, no_blanks, no_blanks, g2, no_blanks, h3⟩
      cases first
      · intro c hc; simp at hc; rw [hc]; decide
      · intro c hc; cases hc
    · intro acc hacc
      rw [meantMembers, meant_piecesOf, g3, enter_new acc k _ (hacc k (by simp)), h4, turnedEntries]
      · simp
      · intro k' hk' hm
        rw [List.map_cons, List.mem_cons] at hm
        rcases hm with rfl | hm
        · exact hk.1 hk'
        · exact hacc k' (by simp at hk' ⊢; exact Or.inr hk') hm
end
omit hP

/-- Numbers as they are shown look like numbers to the tokenizer, if the separators that stand in them do. -/
theorem fine_shown {tho dec : UInt8} {sg ds r : Text} (hs : Spec.Num.Sign sg) (hd : Spec.Num.Digits ds)
    (ht : ds.length ≤ 3 ∨ Allowed tho) (hr : r = [] ∨ (Allowed dec ∧ ∃ g, r = dec :: g ∧ ∀ c ∈ g, 48 ≤ c.toNat ∧ c.toNat ≤ 57)) :
    FineNumber (sg ++ Spec.Num.group tho ds ++ r) := by
  have hdig : ∀ c : UInt8, 48 ≤ c.toNat ∧ c.toNat ≤ 57 → Allowed c := by
    intro c hc
    refine ⟨by omega, by omega, ?_⟩
    intro hm
    simp only [List.mem_cons, List.not_mem_nil, or_false] at hm
    rcases hm with rfl | rfl | rfl | rfl <;> revert hc <;> decide
  have hsg : ∀ c ∈ sg, Allowed c := by
    intro c hc
    rcases hs with rfl | rfl
    · cases hc
    · simp at hc; subst hc; exact ⟨by decide, by decide, by decide⟩
  have hgr : ∀ c ∈ Spec.Num.group tho ds, Allowed c := by
    intro c hc
    rcases ht with ht | ht
    · rw [Spec.Num.group, if_pos ht] at hc
      exact hdig c (hd.2 c hc)
    · rcases Verif.Model.Num.group_mem tho _ ds (Nat.le_refl _) c hc with h | rfl
      · exact hdig c (hd.2 c h)
      · exact ht
  have hfirst : ∀ r, ∃ c r', sg ++ Spec.Num.group tho ds ++ r = c :: r' ∧ (c = 45 ∨ (48 ≤ c.toNat ∧ c.toNat ≤ 57)) := by
    intro r
    rcases hs with rfl | rfl
    · have : ∀ (n : Nat) (l : Text), l.length ≤ n → Spec.Num.Digits l → ∃ c r', Spec.Num.group tho l = c :: r' ∧
          48 ≤ c.toNat ∧ c.toNat ≤ 57 := by
        intro n
        induction n with
        | zero => intro l hl hd; exact absurd (List.eq_nil_of_length_eq_zero (by omega)) hd.1
        | succ n ih =>
          intro l hl hd
          rw [Spec.Num.group]
          split
          · cases l with
            | nil => exact absurd rfl hd.1
            | cons c r => exact ⟨c, r, rfl, hd.2 c List.mem_cons_self⟩
          · obtain ⟨c, r, e, hc⟩ := ih (l.take (l.length - 3)) (by rw [List.length_take]; omega)
              ⟨by intro e; have := congrArg List.length e; rw [List.length_take] at this; simp at this; omega,
               fun c hc => hd.2 c (List.mem_of_mem_take hc)⟩
            rw [e]
            exact ⟨c, _, rfl, hc⟩
      obtain ⟨c, r', e, hc⟩ := this _ ds (Nat.le_refl _) hd
      rw [e]
      exact ⟨c, _, rfl, Or.inr hc⟩
    · exact ⟨45, _, rfl, Or.inl rfl⟩
  refine ⟨hfirst _, fun c hc => ?_⟩
  rcases List.mem_append.1 hc with hc | hc
  · rcases List.mem_append.1 hc with hc | hc
    · exact hsg c hc
    · exact hgr c hc
  · rcases hr with rfl | ⟨hdec, g, rfl, hg⟩
    · cases hc
    · rcases List.mem_cons.1 hc with rfl | hc
      · exact hdec
      · exact hdig c (hg c hc)

/-- The text of a number is a number for the tokenizer, and it is read as what was printed without the zeros at the end. -/
theorem number_text {tho dec : UInt8} (hsep : Spec.Num.Separators tho dec) {sg ds f : Text} (hs : Spec.Num.Sign sg)
    (hd : Spec.Num.Digits ds) (hf : Spec.Num.Digits f) (hlen : (sg ++ ds ++ 46 :: f).length + (ds.length - 1) / 3 ≤ 40)
    (ht : ds.length ≤ 3 ∨ Allowed tho) (hde : (∀ c ∈ f, c = 48) ∨ Allowed dec) :
    ∃ u, numberToString ⟨[tho], [dec]⟩ (sg ++ ds ++ 46 :: f) none = .ok u ∧ FineNumber u ∧
      ((numberFromText ⟨[tho], [dec]⟩ u = sg ++ ds ∧ ∀ c ∈ f, c = 48) ∨
       ∃ g z, f = g ++ z ∧ (∀ c ∈ z, c = 48) ∧ numberFromText ⟨[tho], [dec]⟩ u = sg ++ ds ++ 46 :: g) := by
  obtain ⟨u, z, h1, hz, h2⟩ := Props.Num.C31_number_partial hsep hs hd hf hlen
  refine ⟨u, h1, ?_⟩
  rcases h2 with ⟨e1, e2, e3⟩ | ⟨g, e1, hg, hgl, e2, e3⟩
  · refine ⟨?_, Or.inl ⟨e3, by rw [e1]; exact hz⟩⟩
    rw [e2]
    simpa using fine_shown (r := []) (dec := dec) hs hd ht (.inl rfl)
  · have hdec : Allowed dec := by
      rcases hde with h | h
      · exfalso
        obtain ⟨x, hx⟩ : ∃ x, g.getLast? = some x := ⟨g.getLast hg.1, List.getLast?_eq_some_getLast hg.1⟩
        have : x = 48 := h x (by rw [e1]; exact List.mem_append_left _ (List.mem_of_getLast? hx))
        exact hgl (this ▸ hx)
      · exact h
    refine ⟨?_, Or.inr ⟨g, z, e1, hz, e3⟩⟩
    rw [e2]
    exact fine_shown hs hd ht (.inr ⟨hdec, g, rfl, hg.2⟩)

end Verif.Lemmas.Json
