import Verif.Model.ReadBack
import Verif.Lemmas.LexerCode
import Verif.Lemmas.ParserFwd
import Verif.Lemmas.Num
import Verif.Lemmas.Nest

/-!
# The text of a value is read as the tree of the value
-/

namespace Verif.Model.ReadBack
open Verif.Spec (Dict encode)
open Verif.Spec.Lexer
open Verif.Spec.Parser
open Verif.Spec.ReadBack
open Verif.Spec.Num (group Digits Sign)
open Verif.Model.Lexer (pfx_iff pfx_false)

/-! ## Numbers -/

theorem digit_iff {c : UInt8} : digit c = true ↔ 48 ≤ c.toNat ∧ c.toNat ≤ 57 := by
  unfold digit
  simp only [decide_eq_true_eq, List.mem_cons, List.not_mem_nil, or_false, ← UInt8.toNat_inj]
  have e : (48 : UInt8).toNat = 48 ∧ (49 : UInt8).toNat = 49 ∧ (50 : UInt8).toNat = 50 ∧ (51 : UInt8).toNat = 51 ∧
    (52 : UInt8).toNat = 52 ∧ (53 : UInt8).toNat = 53 ∧ (54 : UInt8).toNat = 54 ∧ (55 : UInt8).toNat = 55 ∧
    (56 : UInt8).toNat = 56 ∧ (57 : UInt8).toNat = 57 := by decide
  omega

theorem digits_spec (n : Nat) : Digits (digits n) := by
  induction n using Nat.strongRecOn with
  | _ n ih =>
    rw [digits]
    split
    · refine ⟨by simp, ?_⟩
      intro c hc
      simp only [List.mem_singleton] at hc
      subst hc
      rw [UInt8.toNat_ofNat']
      omega
    · refine ⟨by simp, ?_⟩
      intro c hc
      rcases List.mem_append.1 hc with hc | hc
      · exact (ih (n / 10) (by omega)).2 c hc
      · simp only [List.mem_singleton] at hc
        subst hc
        rw [UInt8.toNat_ofNat']
        omega

theorem natOf_digits (n : Nat) : natOf (digits n) = n := by
  unfold natOf
  induction n using Nat.strongRecOn with
  | _ n ih =>
    rw [digits]
    split
    · simp only [List.foldl_cons, List.foldl_nil]
      rw [UInt8.toNat_ofNat']
      omega
    · rw [List.foldl_append, ih (n / 10) (by omega)]
      simp only [List.foldl_cons, List.foldl_nil]
      rw [UInt8.toNat_ofNat']
      omega

theorem intOf_decimal (n : Int) : intOf (decimal n) = n := by
  unfold decimal
  split
  · show - (natOf (digits n.natAbs) : Int) = n
    rw [natOf_digits]
    omega
  · rw [List.nil_append]
    have h := digits_spec n.natAbs
    have e := natOf_digits n.natAbs
    cases hd : digits n.natAbs with
    | nil => exact absurd hd h.1
    | cons c l =>
      rw [hd] at h e
      have hc := h.2 c (by simp)
      unfold intOf
      split
      · rename_i heq
        have : c = 45 := by injection heq
        rw [this] at hc
        exact absurd hc.1 (by decide)
      · rw [e]; omega

/-- The sign of a number. -/
def signOf (n : Int) : Text := if n < 0 then [45] else []

theorem decimal_eq (n : Int) : decimal n = signOf n ++ digits n.natAbs := rfl

theorem signOf_sign (n : Int) : Sign (signOf n) := by
  unfold signOf
  split
  · exact Or.inr rfl
  · exact Or.inl rfl

/-- The separator for thousands. -/
def tho (d : Dict) : UInt8 := d.tho.headD 0

/-- The text of a number. -/
def numText (d : Dict) (n : Int) : Text := signOf n ++ group (tho d) (digits n.natAbs)

theorem strip_zeros (sg ds : Text) (k : Nat) :
    Num.stripZeros (sg ++ ds ++ 46 :: List.replicate k 48) = .ok (sg ++ ds) := by
  unfold Num.stripZeros
  have : (sg ++ ds ++ 46 :: List.replicate k 48).reverse = List.replicate k 48 ++ 46 :: (sg ++ ds).reverse := by
    simp
  rw [this, List.dropWhile_append_of_pos (by simp), List.dropWhile_cons, if_neg (by decide)]
  simp

theorem numText_spec {d : Dict} {n : Int} (h1 : d.tho.length = 1) (h2 : d.dec.length = 1)
    (hl : (digits n.natAbs).length ≤ 21) :
    Num.numberToString ⟨d.tho, d.dec⟩ (printed n) none = .ok (numText d n) := by
  obtain ⟨a, ha⟩ := List.length_eq_one_iff.1 h1
  obtain ⟨b, hb⟩ := List.length_eq_one_iff.1 h2
  unfold numText tho
  rw [ha, hb]
  unfold Num.numberToString printed
  have hst := strip_zeros (signOf n) (digits n.natAbs) 10
  rw [← decimal_eq] at hst
  rw [hst]
  have hd := digits_spec n.natAbs
  have hs := signOf_sign n
  have hsl : (signOf n).length ≤ 1 := by unfold signOf; split <;> simp
  rw [Out.ok_bind]
  have := Num.international_plain a b 100 hs hd (fr := []) (Or.inl rfl)
  rw [List.append_nil] at this
  dsimp only
  rw [decimal_eq, this, if_pos (by simp only [List.length_append]; omega), Out.ok_bind]
  have e : Spec.Num.localFraction b [] = [] := rfl
  rw [e, List.append_nil, if_pos]
  · rfl
  · rw [List.length_append, Num.group_length a _ _ (Nat.le_refl _)]
    omega

/-! ## Layout -/

/-- What follows a value. -/
def After (rest : Text) : Prop := rest = [] ∨ ∃ c r, rest = c :: r ∧ (c = 32 ∨ c = 41)

theorem After.sp (r : Text) : After (32 :: r) := Or.inr ⟨32, r, rfl, Or.inl rfl⟩
theorem After.cl (r : Text) : After (41 :: r) := Or.inr ⟨41, r, rfl, Or.inr rfl⟩

theorem lay_sp {d : Dict} {ls : List Lexeme} {p : Text} {c : UInt8} (hc : blank c = true) (h : Lay d ls p) :
    Lay d ls (c :: p) := by
  cases h with
  | done g => exact Lay.done (Gap.blank hc g)
  | next g w l => exact Lay.next (Gap.blank hc g) w l

theorem lay_blanks {d : Dict} {ls : List Lexeme} {p g : Text} (hg : ∀ c ∈ g, blank c = true) (h : Lay d ls p) :
    Lay d ls (g ++ p) := by
  induction g with
  | nil => exact h
  | cons c g ih => exact lay_sp (hg c (by simp)) (ih fun c hc => hg c (by simp [hc]))

theorem lay_one {d : Dict} {l : Lexeme} {ls : List Lexeme} {b rest : Text} (hw : Written d l b rest) (h : Lay d ls rest) :
    Lay d (l :: ls) (b ++ rest) := Lay.next (g := []) (Gap.none _) hw h

/-- No symbol that is apart from every end of a word begins in the word. -/
theorem straddle {K w rest : Text} (h1 : K.isPrefixOf w = false) (h2 : w.isPrefixOf K = false) :
    K.isPrefixOf (w ++ rest) = false := by
  rw [pfx_false] at *
  intro h
  rcases Nat.le_total K.length w.length with hl | hl
  · exact h1 (List.prefix_of_prefix_length_le h (List.prefix_append _ _) hl)
  · exact h2 (List.prefix_of_prefix_length_le (List.prefix_append _ _) h hl)

theorem solid_word {d : Dict} {w rest : Text} (h : Solid d w) (hr : rest = [] ∨ ∃ c r, rest = c :: r ∧
    (c = 32 ∨ c = 41 ∨ c = d.param)) : Word d w rest := by
  obtain ⟨h1, h2, h3, h4, h5, h6, h7, h8⟩ := h
  refine ⟨h1, h2, h3, ?_, ?_, ?_, ?_, ?_, ?_⟩
  · intro c hc
    have := h4 c hc
    refine ⟨?_, this.2⟩
    intro hm
    exact this.1 (List.mem_cons_of_mem _ hm)
  · intro c hc
    have := h5 c hc
    exact ⟨fun hm => this.1 (List.mem_cons_of_mem _ hm), this.2⟩
  · intro e
    have := h5 45 (by rw [e]; simp)
    exact absurd this.1 (by simp)
  · intro i hi
    unfold startsNone
    rw [List.all_eq_true]
    intro K hK
    have := h6 i hi K hK
    rw [straddle this.1 this.2]
    rfl
  · unfold startsNone
    rw [List.all_cons, straddle h7 h8]
    rfl
  · unfold endsWord
    rcases hr with rfl | ⟨c, r, rfl, hc⟩
    · rfl
    · rcases hc with rfl | rfl | rfl
      · simp [blank]
      · simp
      · simp

theorem After.word {d : Dict} {rest : Text} (h : After rest) : rest = [] ∨ ∃ c r, rest = c :: r ∧
    (c = 32 ∨ c = 41 ∨ c = d.param) := by
  rcases h with rfl | ⟨c, r, e, h⟩
  · exact Or.inl rfl
  · exact Or.inr ⟨c, r, e, h.elim Or.inl (fun h => Or.inr (Or.inl h))⟩

theorem lay_word {d : Dict} {w rest : Text} {ls : List Lexeme} (h : Solid d w) (hr : After rest) (hl : Lay d ls rest) :
    Lay d (.word w :: ls) (w ++ rest) :=
  lay_one ⟨rfl, solid_word h hr.word⟩ hl

/-- A part of a keyword message. -/
theorem lay_part {d : Dict} {W : Names} {w rest : Text} {ls : List Lexeme} (hf : Fits d W) (h : Solid d w) {c : UInt8} {r : Text}
    (hr : rest = c :: r) (hc : c ∈ starts d W) (hl : Lay d ls rest) :
    Lay d (.word w :: .colon :: ls) (w ++ d.param :: rest) := by
  refine lay_one ⟨rfl, solid_word h (Or.inr ⟨_, _, rfl, Or.inr (Or.inr rfl)⟩)⟩ ?_
  refine lay_one (l := .colon) (b := [d.param]) ⟨rfl, ?_⟩ hl
  unfold startsNone
  rw [List.all_eq_true]
  intro K hK
  have := hf.2.1.2.2.1 K hK c hc
  subst hr
  have e : [d.param] ++ c :: r = [d.param, c] ++ r := rfl
  rw [e, straddle this.1 this.2]
  rfl

theorem plain_tail {d : Dict} {c : UInt8} {t : Text} (h : Plain d (c :: t)) : Plain d t := by
  obtain ⟨⟨h1, h2, h3, h4⟩, h5⟩ := h
  refine ⟨⟨?_, ?_, ?_, ?_⟩, ?_⟩
  · intro x hx; exact h1 x (by simp [hx])
  · intro i hi S hS
    have := h2 (i + 1) (by simp; omega) S hS
    rwa [List.drop_succ_cons] at this
  · intro i hi K hK hp
    have := h3 (i + 1) (by simp; omega) K hK
    rw [List.drop_succ_cons] at this
    exact this hp
  · intro i hi hq
    have := h4 (i + 1) (by simp; omega) (by unfold quoteAt at *; rwa [List.drop_succ_cons])
    omega
  · intro i hi
    have := h5 (i + 1) (by simp; omega)
    unfold quoteAt at *
    rwa [List.drop_succ_cons] at this

theorem pfx_self (t : Text) : t.isPrefixOf t = true := pfx_iff.2 (List.prefix_refl t)

theorem nested_plain {d : Dict} {t : Text} (h : Plain d t) (k : Text) : Nested d t (d.qc ++ k) := by
  induction t with
  | nil => exact Nested.nil _
  | cons c t ih =>
    refine Nested.byte (h.1.1 c (by simp)).2 ?_ (ih (plain_tail h))
    unfold startsNone
    rw [List.all_eq_true]
    intro K hK
    have hq := h.2 0 (by simp)
    unfold quoteAt at hq
    rw [List.drop_zero, Bool.or_eq_false_iff] at hq
    have hs := h.1.2.1 0 (by simp)
    have hp := h.1.2.2.1 0 (by simp)
    rw [List.drop_zero] at hs hp
    have : K.isPrefixOf (c :: t) = false ∧ (c :: t).isPrefixOf K = false := by
      simp only [List.mem_cons, List.not_mem_nil, or_false] at hK
      rcases hK with rfl | rfl | rfl | rfl
      · refine ⟨hq.1, ?_⟩
        cases he : (c :: t).isPrefixOf d.qo with
        | false => rfl
        | true =>
          have := hp d.qo (by simp) he
          have hh := hq.1
          rw [← this, pfx_self] at hh
          cases hh
      · refine ⟨hq.2, ?_⟩
        cases he : (c :: t).isPrefixOf d.qc with
        | false => rfl
        | true =>
          have := hp d.qc (by simp) he
          have hh := hq.2
          rw [← this, pfx_self] at hh
          cases hh
      · exact hs _ (by simp)
      · exact hs _ (by simp)
    rw [straddle this.1 this.2]
    rfl

theorem lay_text {d : Dict} {t rest : Text} {ls : List Lexeme} (h : Plain d t) (hl : Lay d ls rest) :
    Lay d (.lit t :: ls) (d.qo ++ t ++ d.qc ++ rest) :=
  lay_one (l := .lit t) ⟨rfl, nested_plain h _⟩ hl

/-! ## Numbers are written as numbers -/

/-- The groups of digits. -/
theorem groups (t : UInt8) (n : Nat) : ∀ l : Text, l.length ≤ n → Digits l → ∃ gs : List Text, gs ≠ [] ∧
    group t l = [t].intercalate gs ∧ gs.flatten = l ∧ ∀ g ∈ gs, g ≠ [] ∧ ∀ c ∈ g, digit c = true := by
  induction n with
  | zero =>
    intro l hl hd
    exact absurd (List.length_eq_zero_iff.1 (by omega)) hd.1
  | succ n ih =>
    intro l hl hd
    rw [group]
    split
    · refine ⟨[l], by simp, by simp [List.intercalate], by simp, ?_⟩
      intro g hg
      simp only [List.mem_singleton] at hg
      subst hg
      exact ⟨hd.1, fun c hc => digit_iff.2 (hd.2 c hc)⟩
    · rename_i h3
      obtain ⟨gs, h1, h2, h4, h5⟩ := ih (l.take (l.length - 3)) (by rw [List.length_take]; omega)
        ⟨by intro e; have := congrArg List.length e; rw [List.length_take] at this; simp at this; omega,
          fun c hc => hd.2 c (List.mem_of_mem_take hc)⟩
      refine ⟨gs ++ [l.drop (l.length - 3)], by simp, ?_, ?_, ?_⟩
      · rw [h2, intercalate_snoc _ _ h1]
      · rw [List.flatten_append, h4]
        simp
      · intro g hg
        rcases List.mem_append.1 hg with hg | hg
        · exact h5 g hg
        · simp only [List.mem_singleton] at hg
          subst hg
          refine ⟨?_, fun c hc => digit_iff.2 (hd.2 c (List.mem_of_mem_drop hc))⟩
          intro e
          have := congrArg List.length e
          rw [List.length_drop] at this
          simp at this
          omega
where
  intercalate_snoc (t : UInt8) (x : Text) : ∀ {gs : List Text}, gs ≠ [] →
      [t].intercalate (gs ++ [x]) = [t].intercalate gs ++ t :: x
    | [g], _ => by simp [List.intercalate]
    | g :: h :: gs, _ => by
      have := intercalate_snoc t x (gs := h :: gs) (by simp)
      simp only [List.intercalate, List.cons_append, List.intersperse_cons_cons, List.flatten_cons] at this ⊢
      rw [this]
      simp

theorem number_starts (d : Dict) (n : Int) : ∃ c r, numText d n = c :: r ∧
    (c = 45 ∨ digit c = true) := by
  unfold numText signOf
  split
  · exact ⟨45, _, rfl, Or.inl rfl⟩
  · rw [List.nil_append]
    obtain ⟨gs, h1, h2, h3, h4⟩ := groups (tho d) _ _ (Nat.le_refl _) (digits_spec n.natAbs)
    rw [h2]
    match gs, h1 with
    | (g :: gs), _ =>
      have := h4 g (by simp)
      match g, this with
      | (c :: g), this =>
        refine ⟨c, ([tho d].intercalate ((c :: g) :: gs)).tail, ?_, Or.inr (this.2 c (by simp))⟩
        cases gs <;> simp [List.intercalate]

theorem lay_number {d : Dict} {W : Names} {n : Int} {rest : Text} {ls : List Lexeme} (hf : Fits d W)
    (hn : (digits n.natAbs).length ≤ 21) (hr : After rest) (hl : Lay d ls rest) :
    Lay d (.num (decimal n) :: ls) (numText d n ++ rest) := by
  refine lay_one ?_ hl
  obtain ⟨gs, h1, h2, h3, h4⟩ := groups (tho d) _ _ (Nat.le_refl _) (digits_spec n.natAbs)
  obtain ⟨a, ha⟩ := List.length_eq_one_iff.1 hf.2.1.2.2.2.1.1
  obtain ⟨b, hb⟩ := List.length_eq_one_iff.1 hf.2.1.2.2.2.1.2.1
  have hsep := hf.2.1.2.2.2.1.2.2.2
  have hnd : startsDigit rest = false := by
    rcases hr with rfl | ⟨c, r, rfl, rfl | rfl⟩ <;> rfl
  have hsl : (signOf n).length ≤ 1 := by unfold signOf; split <;> simp
  refine ⟨signOf n, gs, [], ?_, ?_, ?_, h1, h4, by simp, ?_, ?_, ?_⟩
  · unfold numText
    rw [h2]
    unfold tho
    rw [ha]
    simp [fraction]
  · rw [h3]
    simp [fraction, decimal_eq]
  · rcases signOf_sign n with h | h
    · exact Or.inl h
    · exact Or.inr h
  · rw [decimal_eq, List.length_append]
    omega
  · unfold endsNumber
    rw [hnd, ha, hb]
    have ha' := (hsep a (by rw [ha]; simp)).2.2.2
    have hb' := (hsep b (by rw [hb]; simp)).2.2.2
    rcases hr with rfl | ⟨c, r, rfl, hc⟩
    · rfl
    · have : ∀ x : UInt8, x ∉ ([32, 41] : List UInt8) → [x].isPrefixOf (c :: r) = false := by
        intro x hx
        rw [pfx_false]
        rintro ⟨t, ht⟩
        injection ht with h _
        rcases hc with rfl | rfl <;> (rw [h] at hx; simp at hx)
      simp [this a ha', this b hb']
  · obtain ⟨c, r, e, hc⟩ := number_starts d n
    unfold startsNone
    rw [List.all_eq_true]
    intro K hK
    have hd := hf.1
    have hne : K ≠ [] := by
      obtain ⟨u1, u2, u3, u4, u5, u6⟩ := hd.1
      simp only [List.mem_cons, List.not_mem_nil, or_false] at hK
      rcases hK with rfl | rfl | rfl | rfl | rfl | rfl
      · exact u1
      · exact u2
      · intro h; rw [h] at u3; simp at u3
      · simp
      · simp
      · exact u5
    have hK' : ∀ x ∈ K.take 1, x ≠ 45 ∧ digit x = false := by
      have hh := hf.2.1.2.1
      simp only [List.mem_cons, List.not_mem_nil, or_false] at hK
      rcases hK with rfl | rfl | rfl | rfl | rfl | rfl
      · exact hh _ (by simp)
      · exact hh _ (by simp)
      · exact hh _ (by simp)
      · exact hh _ (by simp)
      · have := hh d.ret (by simp)
        rwa [List.take_append_of_le_length (by
          have := hd.1.2.2.2.1
          cases hr : d.ret with
          | nil => exact absurd hr this
          | cons a l => simp)]
      · exact hh _ (by simp)
    rw [e]
    match K, hne, hK' with
    | k :: K, _, hK' =>
      have := hK' k (by simp)
      have hkc : k ≠ c := by
        rintro rfl
        rcases hc with rfl | hc
        · exact this.1 rfl
        · rw [this.2] at hc; cases hc
      have : (k :: K).isPrefixOf (c :: r ++ rest) = false := by
        rw [pfx_false]
        rintro ⟨t, ht⟩
        injection ht with h _
        exact hkc h
      rw [this]
      rfl

/-! ## Trees and texts of values -/

mutual
/-- The tree of a value. -/
def node (W : Names) : V → Spec.Node
  | .nil => .ref 0 W.none
  | .bool b => .ref 0 (if b then W.true else W.false)
  | .num n => .num (decimal n)
  | .text t => .str t
  | .seq [] => .nested (.msg (.ref 0 W.seq) [.una W.new])
  | .seq (v :: l) => .nested (.msg (.ref 0 W.seq) (.bin W.arrow (node W v) :: pushes W l))
  | .map [] => .nested (.nested (.msg (.ref 0 W.list) [.una W.new]))
  | .map ((k, v) :: es) => .nested (.msg (.nested (.msg (.ref 0 W.list) [.una W.new]))
      (.kw [W.put, W.at] [node W v, .str k] :: puts W es))
/-- Further items. -/
def pushes (W : Names) : List V → List Spec.Node
  | [] => []
  | v :: l => .bin semicolon (node W v) :: pushes W l
/-- Further entries. -/
def puts (W : Names) : List (List UInt8 × V) → List Spec.Node
  | [] => []
  | (k, v) :: es => .kw [W.put, W.at] [node W v, .str k] :: puts W es
end

mutual
/-- The text of a value. -/
def textOf (d : Dict) (W : Names) : V → Text
  | .nil => W.none
  | .bool b => if b then W.true else W.false
  | .num n => numText d n
  | .text t => d.qo ++ t ++ d.qc
  | .seq [] => 40 :: ((wordsOf d W).seqNew ++ [41])
  | .seq (v :: l) => 40 :: ((wordsOf d W).seqPush ++ (textOf d W v ++ (pushText d W l ++ [41])))
  | .map [] => 40 :: ((wordsOf d W).mapNew ++ [41])
  | .map ((k, v) :: es) => 40 :: ((wordsOf d W).mapNew ++ (W.put ++ d.param :: (textOf d W v ++ 32 :: (W.at ++ d.param ::
      (d.qo ++ k ++ d.qc ++ (putText d W es ++ [41]))))))
/-- Further items. -/
def pushText (d : Dict) (W : Names) : List V → Text
  | [] => []
  | v :: l => 32 :: 59 :: 32 :: (textOf d W v ++ pushText d W l)
/-- Further entries. -/
def putText (d : Dict) (W : Names) : List (List UInt8 × V) → Text
  | [] => []
  | (k, v) :: es => 44 :: 32 :: (W.put ++ d.param :: (textOf d W v ++ 32 :: (W.at ++ d.param ::
      (d.qo ++ k ++ d.qc ++ putText d W es))))
end

theorem textOf_starts {d : Dict} {W : Names} (hf : Fits d W) (v : V) : ∃ c r, textOf d W v = c :: r ∧ c ∈ starts d W := by
  have hw : ∀ w ∈ [W.none, W.true, W.false], ∃ c r, w = c :: r ∧ c ∈ starts d W := by
    intro w hw
    have hs := (hf.2.2.1 w (by
      simp only [List.mem_cons, List.not_mem_nil, or_false] at hw ⊢
      rcases hw with h | h | h <;> simp [h])).1
    match w, hs with
    | c :: r, _ =>
      refine ⟨c, r, rfl, ?_⟩
      unfold starts
      simp only [List.mem_cons, List.not_mem_nil, or_false] at hw
      rcases hw with h | h | h <;> rw [← h] <;> simp
  match v with
  | .nil => unfold textOf; exact hw _ (by simp)
  | .bool b => unfold textOf; cases b <;> exact hw _ (by simp)
  | .num n =>
    unfold textOf
    obtain ⟨c, r, e, hc⟩ := number_starts d n
    refine ⟨c, r, e, ?_⟩
    unfold starts
    rcases hc with rfl | hc
    · simp
    · unfold digit at hc
      simp only [decide_eq_true_eq] at hc
      simp only [List.mem_append]
      refine Or.inl (Or.inl (Or.inl (Or.inl ?_)))
      exact List.mem_cons_of_mem _ (List.mem_cons_of_mem _ hc)
  | .text t =>
    unfold textOf
    have := hf.1.1.2.2.2.2.1
    match hq : d.qo, this with
    | c :: r, _ =>
      refine ⟨c, _, rfl, ?_⟩
      unfold starts
      rw [hq]
      simp
  | .seq [] => unfold textOf; exact ⟨_, _, rfl, by simp [starts]⟩
  | .seq (_ :: _) => unfold textOf; exact ⟨_, _, rfl, by simp [starts]⟩
  | .map [] => unfold textOf; exact ⟨_, _, rfl, by simp [starts]⟩
  | .map ((_, _) :: _) => unfold textOf; exact ⟨_, _, rfl, by simp [starts]⟩

/-- The text starts with a blank, a comma or a closing parenthesis, or is empty. -/
theorem starts_qo {d : Dict} {W : Names} (hf : Fits d W) (r : Text) : ∃ c r', d.qo ++ r = c :: r' ∧ c ∈ starts d W := by
  have := hf.1.1.2.2.2.2.1
  match hq : d.qo, this with
  | c :: s, _ =>
    refine ⟨c, _, rfl, ?_⟩
    unfold starts
    rw [hq]
    simp

section
variable {d : Dict} {W : Names} (hf : Fits d W)
include hf

theorem fits_solid (w : Text) (h : w ∈ [W.seq, W.new, W.arrow, W.list, W.put, W.at, W.none, W.true, W.false, semicolon]) :
    Solid d w := hf.2.2.1 w h

omit hf in
theorem after_gap {g : Text} (hg : ∀ c ∈ g, c = 32) (r : Text) : After (g ++ 41 :: r) := by
  cases g with
  | nil => exact After.cl r
  | cons c g => rw [hg c (by simp)]; exact After.sp _

omit hf in
theorem lay_gap {g p : Text} {ls : List Lexeme} (hg : ∀ c ∈ g, c = 32) (hl : Lay d ls p) : Lay d ls (g ++ p) :=
  lay_blanks (fun c hc => by rw [hg c hc]; decide) hl

theorem gap1_sp : ∀ c ∈ W.gap1, c = 32 := fun c hc => hf.2.2.2.2.2.2.2 c (List.mem_append_left _ hc)
theorem gap2_sp : ∀ c ∈ W.gap2, c = 32 := fun c hc => hf.2.2.2.2.2.2.2 c (List.mem_append_right _ hc)

/-- The text of an empty list. -/
theorem lay_list {ls : List Lexeme} {rest : Text} (hl : Lay d ls rest) :
    Lay d (lexemes d (.nested (.msg (.ref 0 W.list) [.una W.new])) ++ ls) ((wordsOf d W).mapNew ++ rest) := by
  unfold wordsOf
  have e1 : lexemes d (.nested (.msg (.ref 0 W.list) [.una W.new])) ++ ls =
      .popen :: .word W.list :: .word W.new :: .pclose :: ls := by
    simp [lexemes, lexMsgs]
  have e2 : (40 :: W.list ++ 32 :: W.new ++ 41 :: W.gap2) ++ rest =
      [40] ++ (W.list ++ 32 :: (W.new ++ (41 :: (W.gap2 ++ rest)))) := by simp
  rw [e1]
  dsimp only
  rw [e2]
  refine lay_one (l := .popen) rfl (lay_word (fits_solid hf _ (by simp)) (After.sp _) (lay_sp (by decide) ?_))
  exact lay_word (fits_solid hf _ (by simp)) (After.cl _) (lay_one (l := .pclose) (b := [41]) rfl (lay_gap (gap2_sp hf) hl))

/-- An entry. -/
theorem lay_entry {k : Text} {v : V} {ls : List Lexeme} {rest : Text} (hk : Plain d k) (hl : Lay d ls rest)
    (hv : ∀ ls rest, After rest → Lay d ls rest → Lay d (lexemes d (node W v) ++ ls) (textOf d W v ++ rest)) :
    Lay d (lexemes d (.kw [W.put, W.at] [node W v, .str k]) ++ ls) (W.put ++ d.param :: (textOf d W v ++ 32 :: (W.at ++ d.param ::
      (d.qo ++ k ++ d.qc ++ rest)))) := by
  have e1 : lexemes d (.kw [W.put, W.at] [node W v, .str k]) ++ ls =
      .word W.put :: .colon :: (lexemes d (node W v) ++ (.word W.at :: .colon :: .lit k :: ls)) := by
    simp [lexemes, lexArgs]
  rw [e1]
  obtain ⟨c, r, e, hc⟩ := textOf_starts hf v
  obtain ⟨c', r', e', hc'⟩ := starts_qo hf (k ++ d.qc ++ rest)
  refine lay_part hf (fits_solid hf _ (by simp)) (c := c) (by rw [e]; rfl) hc (hv _ _ (After.sp _) (lay_sp (by decide) ?_))
  refine lay_part hf (fits_solid hf _ (by simp)) (c := c') (r := r') (by rw [← e']; simp) hc' (lay_text hk hl)

mutual
/-- The text of a value, followed by something that may follow it, consists of the lexemes of its tree. -/
theorem lay_value (v : V) (h : Fine d v) (ls : List Lexeme) (rest : Text) (hr : After rest) (hl : Lay d ls rest) :
    Lay d (lexemes d (node W v) ++ ls) (textOf d W v ++ rest) := by
  match v with
  | .nil =>
    unfold node textOf lexemes
    exact lay_word (fits_solid hf _ (by simp)) hr hl
  | .bool b =>
    unfold node textOf lexemes
    cases b <;> exact lay_word (fits_solid hf _ (by simp)) hr hl
  | .num n =>
    unfold node textOf lexemes
    unfold Fine at h
    exact lay_number hf h hr hl
  | .text t =>
    unfold node textOf lexemes
    unfold Fine at h
    exact lay_text h hl
  | .seq [] =>
    unfold node textOf wordsOf
    have e1 : lexemes d (.nested (.msg (.ref 0 W.seq) [.una W.new])) ++ ls =
        .popen :: .word W.seq :: .word W.new :: .pclose :: ls := by
      simp [lexemes, lexMsgs]
    have e2 : 40 :: ((W.seq ++ 32 :: W.new ++ W.gap1) ++ [41]) ++ rest =
        [40] ++ (W.seq ++ 32 :: (W.new ++ (W.gap1 ++ (41 :: rest)))) := by simp
    rw [e1]
    dsimp only
    rw [e2]
    refine lay_one (l := .popen) rfl (lay_word (fits_solid hf _ (by simp)) (After.sp _) (lay_sp (by decide) ?_))
    exact lay_word (fits_solid hf _ (by simp)) (after_gap (gap1_sp hf) _)
      (lay_gap (gap1_sp hf) (lay_one (l := .pclose) (b := [41]) rfl hl))
  | .seq (v :: l) =>
    unfold Fine FineAll at h
    unfold node textOf wordsOf
    have e1 : lexemes d (.nested (.msg (.ref 0 W.seq) (.bin W.arrow (node W v) :: pushes W l))) ++ ls =
        .popen :: .word W.seq :: .word W.arrow :: (lexemes d (node W v) ++ (lexMsgs d false (pushes W l) ++ (.pclose :: ls))) := by
      simp [lexemes, lexMsgs, isKw]
    have e2 : 40 :: ((W.seq ++ 32 :: W.arrow ++ [32]) ++ (textOf d W v ++ (pushText d W l ++ [41]))) ++ rest =
        [40] ++ (W.seq ++ 32 :: (W.arrow ++ 32 :: (textOf d W v ++ (pushText d W l ++ (41 :: rest))))) := by simp
    rw [e1]
    dsimp only
    rw [e2]
    obtain ⟨l1, l2⟩ := lay_pushes l h.2 (.pclose :: ls) (41 :: rest) (After.cl _) (lay_one (l := .pclose) (b := [41]) rfl hl)
    refine lay_one (l := .popen) rfl (lay_word (fits_solid hf _ (by simp)) (After.sp _) (lay_sp (by decide) ?_))
    exact lay_word (fits_solid hf _ (by simp)) (After.sp _) (lay_sp (by decide) (lay_value v h.1 _ _ l2 l1))
  | .map [] =>
    unfold node textOf
    have e1 : lexemes d (.nested (.nested (.msg (.ref 0 W.list) [.una W.new]))) ++ ls =
        .popen :: (lexemes d (.nested (.msg (.ref 0 W.list) [.una W.new])) ++ .pclose :: ls) := by
      conv => lhs; rw [lexemes]
      simp
    have e2 : 40 :: ((wordsOf d W).mapNew ++ [41]) ++ rest = [40] ++ ((wordsOf d W).mapNew ++ (41 :: rest)) := by simp
    rw [e1, e2]
    exact lay_one (l := .popen) rfl (lay_list hf (lay_one (l := .pclose) (b := [41]) rfl hl))
  | .map ((k, v) :: es) =>
    unfold Fine FinePairs at h
    unfold node textOf
    have e1 : lexemes d (.nested (.msg (.nested (.msg (.ref 0 W.list) [.una W.new]))
        (.kw [W.put, W.at] [node W v, .str k] :: puts W es))) ++ ls =
        .popen :: (lexemes d (.nested (.msg (.ref 0 W.list) [.una W.new])) ++ (lexemes d (.kw [W.put, W.at] [node W v, .str k]) ++
          (lexMsgs d true (puts W es) ++ .pclose :: ls))) := by
      conv => lhs; rw [lexemes, lexemes, lexMsgs]
      simp [isKw]
    rw [e1]
    rw [show ∀ a b c e r, (40 :: (a ++ (b ++ d.param :: (c ++ 32 :: (e ++ d.param ::
      (d.qo ++ k ++ d.qc ++ (putText d W es ++ [41]))))))) ++ r = [40] ++ (a ++ (b ++ d.param :: (c ++ 32 :: (e ++ d.param ::
      (d.qo ++ k ++ d.qc ++ (putText d W es ++ (41 :: r))))))) from by intros; simp]
    refine lay_one (l := .popen) rfl (lay_list hf (lay_entry hf h.2.1 ?_ ?_))
    · exact lay_puts es h.2.2.2 _ _ (lay_one (l := .pclose) (b := [41]) rfl hl)
    · exact fun ls rest => lay_value v h.2.2.1 ls rest

/-- Further items. -/
theorem lay_pushes (l : List V) (h : FineAll d l) (ls : List Lexeme) (rest : Text) (hr : After rest) (hl : Lay d ls rest) :
    Lay d (lexMsgs d false (pushes W l) ++ ls) (pushText d W l ++ rest) ∧ After (pushText d W l ++ rest) := by
  match l with
  | [] =>
    unfold pushes pushText lexMsgs
    exact ⟨hl, hr⟩
  | v :: l =>
    unfold FineAll at h
    unfold pushes pushText lexMsgs
    refine ⟨?_, After.sp _⟩
    have e1 : (if false = true then [Lexeme.chain] else []) ++ lexemes d (.bin semicolon (node W v)) ++
        lexMsgs d (isKw (.bin semicolon (node W v))) (pushes W l) ++ ls =
        .word semicolon :: (lexemes d (node W v) ++ (lexMsgs d false (pushes W l) ++ ls)) := by
      simp [lexemes, isKw]
    have e2 : 32 :: 59 :: 32 :: (textOf d W v ++ pushText d W l) ++ rest =
        32 :: (semicolon ++ 32 :: (textOf d W v ++ (pushText d W l ++ rest))) := by simp [semicolon]
    rw [e1, e2]
    obtain ⟨l1, l2⟩ := lay_pushes l h.2 ls rest hr hl
    refine lay_sp (by decide) (lay_word (fits_solid hf _ (by simp)) (After.sp _) (lay_sp (by decide) ?_))
    exact lay_value v h.1 _ _ l2 l1

/-- Further entries. -/
theorem lay_puts (es : List (List UInt8 × V)) (h : FinePairs d es) (ls : List Lexeme) (rest : Text) (hl : Lay d ls rest) :
    Lay d (lexMsgs d true (puts W es) ++ ls) (putText d W es ++ rest) := by
  match es with
  | [] =>
    unfold puts putText lexMsgs
    exact hl
  | (k, v) :: es =>
    unfold FinePairs at h
    unfold puts putText lexMsgs
    have e1 : (if true = true then [Lexeme.chain] else []) ++ lexemes d (.kw [W.put, W.at] [node W v, .str k]) ++
        lexMsgs d (isKw (.kw [W.put, W.at] [node W v, .str k])) (puts W es) ++ ls =
        .chain :: (lexemes d (.kw [W.put, W.at] [node W v, .str k]) ++ (lexMsgs d true (puts W es) ++ ls)) := by
      simp [isKw]
    rw [e1]
    rw [show ∀ b c e r, (44 :: 32 :: (b ++ d.param :: (c ++ 32 :: (e ++ d.param ::
      (d.qo ++ k ++ d.qc ++ putText d W es))))) ++ r = [44] ++ (32 :: (b ++ d.param :: (c ++ 32 :: (e ++ d.param ::
      (d.qo ++ k ++ d.qc ++ (putText d W es ++ r)))))) from by intros; simp]
    refine lay_one (l := .chain) hf.2.1.1.symm (lay_sp (by decide) (lay_entry hf h.1 ?_ ?_))
    · exact lay_puts es h.2.2 ls rest hl
    · exact fun ls rest => lay_value v h.2.1 ls rest
end

/-! ## The tree conforms to the grammar -/

mutual
theorem gram_node (v : V) (k : Nat) : gram d k (node W v) = true := by
  have hn : ∀ w ∈ [W.seq, W.list, W.none, W.true, W.false], gram d 0 (.ref 0 w) = true := by
    intro w hw
    have := hf.2.2.2.1 w hw
    unfold gram
    simp only [Nat.zero_le, decide_true, Bool.true_and, decide_eq_true_eq]
    exact this
  have hnew : charCount W.new ≠ 1 := by
    have := hf.2.2.2.2.2.1
    unfold oneChar at this
    simpa using this
  have harr : charCount W.arrow = 1 := by
    have := hf.2.2.2.2.1
    unfold oneChar at this
    simpa using this
  have hlist : gram d 0 (.nested (.msg (.ref 0 W.list) [.una W.new])) = true := by
    rw [gram, gram, hn _ (by simp), gramMsgs, gramMsgs]
    simp [prim, hnew]
  match v with
  | .nil =>
    unfold node
    rw [Parser.gram_prim k rfl]
    exact hn _ (by simp)
  | .bool b =>
    unfold node
    rw [Parser.gram_prim k rfl]
    cases b <;> exact hn _ (by simp)
  | .num n => unfold node gram; rfl
  | .text t => unfold node gram; rfl
  | .seq [] =>
    unfold node
    rw [gram, gram, hn _ (by simp), gramMsgs, gramMsgs]
    simp [prim, hnew]
  | .seq (v :: l) =>
    unfold node
    rw [gram, gram, hn _ (by simp), gramMsgs, gram_node v 2, gram_pushes l true]
    simp [prim, harr]
  | .map [] =>
    unfold node
    rw [gram]
    exact hlist
  | .map ((k', v) :: es) =>
    unfold node
    have hlen := hf.2.2.2.2.2.2.1
    rw [gram, gram, hlist, gramMsgs, gramArgs, gramArgs, gramArgs, gram_node v 1, gram_puts es false]
    simp [prim, gram]
    omega
theorem gram_pushes (l : List V) (b : Bool) : gramMsgs d 0 b (pushes W l) = true := by
  match l with
  | [] => unfold pushes gramMsgs; rfl
  | v :: l =>
    unfold pushes
    rw [gramMsgs, gram_node v 2, gram_pushes l true]
    decide
theorem gram_puts (es : List (List UInt8 × V)) (b : Bool) : gramMsgs d 0 b (puts W es) = true := by
  match es with
  | [] => unfold puts gramMsgs; rfl
  | (k, v) :: es =>
    unfold puts
    have hlen := hf.2.2.2.2.2.2.1
    rw [gramMsgs, gramArgs, gramArgs, gramArgs, gram_node v 1, gram_puts es false]
    simp [gram]
    omega
end

/-! ## No zero bytes -/

omit hf in
theorem nz_app {a b : Text} (ha : ∀ c ∈ a, c ≠ 0) (hb : ∀ c ∈ b, c ≠ 0) : ∀ c ∈ a ++ b, c ≠ 0 := by
  intro c hc
  rcases List.mem_append.1 hc with h | h
  · exact ha c h
  · exact hb c h

omit hf in
theorem nz_cons {x : UInt8} {b : Text} (ha : x ≠ 0) (hb : ∀ c ∈ b, c ≠ 0) : ∀ c ∈ x :: b, c ≠ 0 := by
  intro c hc
  rcases List.mem_cons.1 hc with h | h
  · rwa [h]
  · exact hb c h

omit hf in
theorem nz_nil : ∀ c ∈ ([] : Text), c ≠ 0 := by simp

theorem nz_word (w : Text) (hw : w ∈ [W.seq, W.new, W.arrow, W.list, W.put, W.at, W.none, W.true, W.false, semicolon]) :
    ∀ c ∈ w, c ≠ 0 := by
  intro c hc h0
  have := ((fits_solid hf w hw).2.2.2.1 c hc).1
  rw [h0] at this
  simp at this

theorem nz_quotes : (∀ c ∈ d.qo, c ≠ 0) ∧ (∀ c ∈ d.qc, c ≠ 0) :=
  ⟨fun c hc => (hf.1.2.1.1 c (List.mem_append_left _ hc)).2, fun c hc => (hf.1.2.1.1 c (List.mem_append_right _ hc)).2⟩

theorem nz_number (n : Int) : ∀ c ∈ numText d n, c ≠ 0 := by
  unfold numText signOf
  refine nz_app ?_ ?_
  · split
    · exact nz_cons (by decide) nz_nil
    · exact nz_nil
  · intro c hc
    rcases Num.group_mem (tho d) _ _ (Nat.le_refl _) c hc with h | h
    · have := (digits_spec n.natAbs).2 c h
      rintro rfl
      exact absurd this.1 (by decide)
    · subst h
      unfold tho
      have h1 := hf.2.1.2.2.2.1.1
      have h2 := hf.2.1.2.2.2.1.2.2.2
      obtain ⟨a, ha⟩ := List.length_eq_one_iff.1 h1
      rw [ha] at h2 ⊢
      exact (h2 a (by simp)).1

theorem nz_gap1 : ∀ c ∈ W.gap1, c ≠ 0 := fun c hc => by rw [gap1_sp hf c hc]; decide
theorem nz_gap2 : ∀ c ∈ W.gap2, c ≠ 0 := fun c hc => by rw [gap2_sp hf c hc]; decide

theorem nz_list : ∀ c ∈ (wordsOf d W).mapNew, c ≠ 0 :=
  nz_app (nz_app (nz_cons (by decide) (nz_word hf _ (by simp))) (nz_cons (by decide) (nz_word hf _ (by simp))))
    (nz_cons (by decide) (nz_gap2 hf))

omit hf in
theorem nz_plain {t : Text} (h : Plain d t) : ∀ c ∈ t, c ≠ 0 := fun c hc => (h.1.1 c hc).1

mutual
theorem textOf_nonzero (v : V) (h : Fine d v) : ∀ c ∈ textOf d W v, c ≠ 0 := by
  match v with
  | .nil => unfold textOf; exact nz_word hf _ (by simp)
  | .bool b => unfold textOf; cases b <;> exact nz_word hf _ (by simp)
  | .num n => unfold textOf; exact nz_number hf n
  | .text t =>
    unfold textOf
    unfold Fine at h
    exact nz_app (nz_app (nz_quotes hf).1 (nz_plain h)) (nz_quotes hf).2
  | .seq [] =>
    unfold textOf
    refine nz_cons (by decide) (nz_app ?_ (nz_cons (by decide) nz_nil))
    exact nz_app (nz_app (nz_word hf _ (by simp)) (nz_cons (by decide) (nz_word hf _ (by simp)))) (nz_gap1 hf)
  | .seq (v :: l) =>
    unfold Fine FineAll at h
    unfold textOf
    refine nz_cons (by decide) (nz_app ?_ (nz_app (textOf_nonzero v h.1) (nz_app (pushText_nonzero l h.2)
      (nz_cons (by decide) nz_nil))))
    exact nz_app (nz_app (nz_word hf _ (by simp)) (nz_cons (by decide) (nz_word hf _ (by simp)))) (nz_cons (by decide) nz_nil)
  | .map [] =>
    unfold textOf
    exact nz_cons (by decide) (nz_app (nz_list hf) (nz_cons (by decide) nz_nil))
  | .map ((k, v) :: es) =>
    unfold Fine FinePairs at h
    unfold textOf
    exact nz_cons (by decide) (nz_app (nz_list hf) (nz_app (nz_word hf _ (by simp)) (nz_cons hf.2.1.2.2.2.2 (nz_app
      (textOf_nonzero v h.2.2.1) (nz_cons (by decide) (nz_app (nz_word hf _ (by simp)) (nz_cons hf.2.1.2.2.2.2 (nz_app
      (nz_app (nz_app (nz_quotes hf).1 (nz_plain h.2.1)) (nz_quotes hf).2) (nz_app (putText_nonzero es h.2.2.2)
      (nz_cons (by decide) nz_nil))))))))))
theorem pushText_nonzero (l : List V) (h : FineAll d l) : ∀ c ∈ pushText d W l, c ≠ 0 := by
  match l with
  | [] => unfold pushText; exact nz_nil
  | v :: l =>
    unfold FineAll at h
    unfold pushText
    exact nz_cons (by decide) (nz_cons (by decide) (nz_cons (by decide) (nz_app (textOf_nonzero v h.1) (pushText_nonzero l h.2))))
theorem putText_nonzero (es : List (List UInt8 × V)) (h : FinePairs d es) : ∀ c ∈ putText d W es, c ≠ 0 := by
  match es with
  | [] => unfold putText; exact nz_nil
  | (k, v) :: es =>
    unfold FinePairs at h
    unfold putText
    exact nz_cons (by decide) (nz_cons (by decide) (nz_app (nz_word hf _ (by simp)) (nz_cons hf.2.1.2.2.2.2 (nz_app
      (textOf_nonzero v h.2.1) (nz_cons (by decide) (nz_app (nz_word hf _ (by simp)) (nz_cons hf.2.1.2.2.2.2 (nz_app
      (nz_app (nz_app (nz_quotes hf).1 (nz_plain h.1)) (nz_quotes hf).2) (putText_nonzero es h.2.2)))))))))
end

/-! ## Reading -/

omit hf in
theorem expr_mono {n k : Nat} {s : Parser.PS} (h : Parser.expr d n k s ≠ .more) (m : Nat) :
    Parser.expr d (n + m) k s = Parser.expr d n k s := by
  induction m with
  | zero => rfl
  | succ m ih =>
    rcases (Parser.mono (d := d) (n + m)).expr k s with h1 | h1
    · rw [ih] at h1
      exact absurd h1 h
    · rw [← ih, h1]
      rfl

theorem readTree_textOf (v : V) (h : Fine d v) : readTree d (textOf d W v) = some (node W v) := by
  have hz := textOf_nonzero hf v h
  unfold readTree
  dsimp only
  rw [Lexer.takeWhile_all (by simpa using hz)]
  have hlay : Lay d (lexemes d (node W v) ++ []) (textOf d W v) := by
    have := lay_value hf v h [] [] (Or.inl rfl) (Lay.done (Gap.none _))
    rwa [List.append_nil (textOf d W v)] at this
  obtain ⟨s', h1, h2, N, hN⟩ := Parser.expr_ok hf.1 _ (node W v) 0 [] ⟨Lexer.load (textOf d W v), false⟩ (Nat.le_refl _)
    (gram_node hf v 0) (by omega) (Or.inl rfl) hlay
  have hne : Parser.expr d (4 * (textOf d W v).length + 8) 0 ⟨Lexer.load (textOf d W v), false⟩ ≠ .more :=
    ((Parser.allFine hf.1.1 _).expr 0 _ (by show 4 * (textOf d W v).length + 2 ≤ _; omega)).ne_more
  have e := expr_mono (d := d) hne N
  have hN' := hN (4 * (textOf d W v).length + 8 + N) (by omega)
  dsimp only at hN'
  rw [← e, hN']
  dsimp only
  rw [if_neg (by rw [h2]; simp)]

/-! ## The text shown -/

omit hf in
theorem enc_plain {t : Text} (h : Plain d t) : Lexer.enc d t = t := by
  induction t with
  | nil => rfl
  | cons c t ih =>
    rw [Lexer.enc_cons, ih (plain_tail h), if_neg]
    have hq := h.2 0 (by simp)
    unfold quoteAt at hq
    rw [List.drop_zero] at hq
    intro hq'
    unfold Lexer.qAt at hq'
    rw [hq] at hq'
    cases hq'

theorem plain_code {t : Text} (h : Plain d t) : Lexer.toCode d t = .ok (d.qo ++ t ++ d.qc) := by
  rw [Lexer.toCode_eq d hf.1.2.1 h.1, enc_plain h]

/-- The text of an entry. -/
def entryText (d : Dict) (W : Names) (p : List UInt8 × V) : Text :=
  W.put ++ d.param :: (textOf d W p.2 ++ 32 :: (W.at ++ d.param :: (d.qo ++ p.1 ++ d.qc)))

open Verif.Spec.Nest (joined)

omit hf in
theorem joined_items (t : Text) (l : List V) :
    joined [32, 59, 32] (t :: l.map (textOf d W)) = t ++ pushText d W l := by
  induction l generalizing t with
  | nil => unfold pushText; simp [joined]
  | cons v l ih =>
    rw [Verif.Lemmas.Nest.joined_cons, List.map_cons, ih]
    conv => rhs; rw [pushText]
    simp

omit hf in
theorem joined_entries (t : Text) (es : List (List UInt8 × V)) :
    joined [44, 32] (t :: es.map (entryText d W)) = t ++ putText d W es := by
  induction es generalizing t with
  | nil => unfold putText; simp [joined]
  | cons p es ih =>
    obtain ⟨k, v⟩ := p
    rw [Verif.Lemmas.Nest.joined_cons, List.map_cons, ih]
    conv => rhs; rw [putText]
    simp [entryText]

open Verif.Spec.Nest (Shows ShowsAll ShowsPairs Store)

mutual
/-- The text of the object that stands for a value. -/
theorem shows_text {σ : Store} (v : V) (h : Fine d v) {i : Nat} {t : Text} (hs : Stands d W σ i v)
    (ht : Shows (wordsOf d W) σ i t) : t = textOf d W v := by
  match v with
  | .nil =>
    unfold Stands at hs
    unfold textOf
    cases ht <;> simp_all
  | .bool b =>
    unfold Stands at hs
    unfold textOf
    cases ht <;> simp_all
  | .num n =>
    unfold Stands at hs
    unfold Fine at h
    unfold textOf
    obtain ⟨c, h1, h2⟩ := hs
    rw [numText_spec hf.2.1.2.2.2.1.1 hf.2.1.2.2.2.1.2.1 h] at h1
    cases h1
    cases ht <;> simp_all
  | .text k =>
    unfold Stands at hs
    unfold Fine at h
    unfold textOf
    obtain ⟨c, h1, h2⟩ := hs
    rw [plain_code hf h] at h1
    cases h1
    cases ht <;> simp_all
  | .seq l =>
    unfold Stands at hs
    unfold Fine at h
    obtain ⟨xs, h1, h2⟩ := hs
    cases ht with
    | leaf e => rw [h1] at e; cases e
    | map e _ => rw [h1] at e; cases e
    | none e =>
      rw [h1] at e
      cases e
      match l with
      | [] => conv => rhs; rw [textOf]
              simp [wordsOf]
      | v :: l => unfold StandsAll at h2; obtain ⟨_, _, e, _⟩ := h2; cases e
    | seq e hne ha =>
      rw [h1] at e
      cases e
      have := showsAll_text l h h2 ha
      match l with
      | [] => unfold StandsAll at h2; exact absurd h2 hne
      | v :: l =>
        rw [this, List.map_cons, joined_items]
        conv => rhs; rw [textOf]
        simp [wordsOf]
  | .map es =>
    unfold Stands at hs
    unfold Fine at h
    obtain ⟨ps, h1, h2⟩ := hs
    cases ht with
    | leaf e => rw [h1] at e; cases e
    | none e => rw [h1] at e; cases e
    | seq e _ _ => rw [h1] at e; cases e
    | map e ha =>
      rw [h1] at e
      cases e
      have := showsPairs_text es h.2 h2 ha
      match es with
      | [] =>
        rw [this]
        conv => rhs; rw [textOf]
        simp [wordsOf, joined]
      | (k, v) :: es =>
        rw [this, List.map_cons, joined_entries]
        conv => rhs; rw [textOf]
        simp [wordsOf, entryText]
theorem showsAll_text {σ : Store} (l : List V) (h : FineAll d l) {xs : List Nat} {ts : List Text} (hs : StandsAll d W σ xs l)
    (ht : ShowsAll (wordsOf d W) σ xs ts) : ts = l.map (textOf d W) := by
  match l with
  | [] =>
    unfold StandsAll at hs
    subst hs
    cases ht
    rfl
  | v :: l =>
    unfold StandsAll at hs
    unfold FineAll at h
    obtain ⟨x, xs', rfl, h1, h2⟩ := hs
    cases ht with
    | cons a b => rw [List.map_cons, shows_text v h.1 h1 a, showsAll_text l h.2 h2 b]
theorem showsPairs_text {σ : Store} (es : List (List UInt8 × V)) (h : FinePairs d es) {ps : List (Nat × Text)} {ts : List Text}
    (hs : StandsPairs d W σ ps es) (ht : ShowsPairs (wordsOf d W) σ ps ts) : ts = es.map (entryText d W) := by
  match es with
  | [] =>
    unfold StandsPairs at hs
    subst hs
    cases ht
    rfl
  | (k, v) :: es =>
    unfold StandsPairs at hs
    unfold FinePairs at h
    obtain ⟨x, c, ps', rfl, h0, h1, h2⟩ := hs
    rw [plain_code hf h.1] at h0
    cases h0
    cases ht with
    | cons a b =>
      rw [List.map_cons, shows_text v h.2.1 h1 a, showsPairs_text es h.2.2 h2 b]
      simp [wordsOf, entryText]
end
end

end Verif.Model.ReadBack
