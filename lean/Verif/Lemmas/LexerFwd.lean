import Verif.Lemmas.LexerTok
import Verif.Lemmas.Text
import Verif.Spec.Parser

/-!
# Lemmas: how written lexemes are read
-/

namespace Verif.Model.Lexer
open Verif.Spec (Dict)
open Verif.Spec.Lexer Verif.Spec.Parser

theorem skip_comment {b : Text} (hb : ∀ c ∈ b, c ≠ 10) (r : Text) : skip true (b ++ 10 :: r) = skip false r := by
  induction b with
  | nil => rfl
  | cons c b ih =>
    have : ¬ (c == 10) = true := by simpa using hb c List.mem_cons_self
    show skip true (c :: (b ++ 10 :: r)) = _
    conv => lhs; unfold skip
    rw [if_neg this]
    exact ih (fun x hx => hb x (List.mem_cons_of_mem _ hx))

theorem skip_comment_end {b : Text} (hb : ∀ c ∈ b, c ≠ 10) : skip true b = [] := by
  induction b with
  | nil => rfl
  | cons c b ih =>
    have : ¬ (c == 10) = true := by simpa using hb c List.mem_cons_self
    unfold skip
    rw [if_neg this]
    exact ih (fun x hx => hb x (List.mem_cons_of_mem _ hx))

/-- The bytes do not start with a blank or a comment. -/
def Solid (code : Text) : Prop := ∀ c ∈ code.take 1, blank c = false ∧ c ≠ 35

theorem skip_solid {code : Text} (h : Solid code) : skip false code = code := by
  cases code with
  | nil => rfl
  | cons c r =>
    obtain ⟨h1, h2⟩ := h c (by simp)
    unfold skip
    rw [isSpace_eq, h1, if_neg (by simp), if_neg (by simpa using h2)]

theorem skip_over {g after : Text} (h : Gap g after) (hs : Solid after) : skip false (g ++ after) = after := by
  induction h with
  | none => exact skip_solid hs
  | @blank c pre after hc _ ih =>
    show skip false (c :: (pre ++ after)) = _
    unfold skip
    rw [isSpace_eq, hc, if_pos rfl]
    exact ih hs
  | @comment b pre after hb _ ih =>
    have e : 35 :: b ++ 10 :: pre ++ after = 35 :: (b ++ 10 :: (pre ++ after)) := by simp
    rw [e]
    unfold skip
    rw [if_neg (by decide), if_pos (by decide), skip_comment hb]
    exact ih hs
  | @last b hb =>
    rw [List.append_nil]
    unfold skip
    rw [if_neg (by decide), if_pos (by decide), skip_comment_end hb]

/-! ## Symbols -/

theorem apart_pfx {A B : Text} (h : apart A B = true) (m : Text) : A.isPrefixOf (B ++ m) = false := by
  unfold apart at h
  simp only [Bool.and_eq_true, Bool.not_eq_true'] at h
  exact apart_append h.1 h.2

theorem apart_symm {A B : Text} (h : apart A B = true) : apart B A = true := by
  unfold apart at *
  rw [Bool.and_comm]; exact h

theorem pfx_self (A m : Text) : A.isPrefixOf (A ++ m) = true := pfx_iff.2 (List.prefix_append _ _)

theorem drop_self (A m : Text) : (A ++ m).drop A.length = m := by
  rw [List.drop_left']; rfl

theorem ite_f {α : Type} {b : Bool} {x y : α} (h : b = false) : (if b = true then x else y) = y := by rw [h]; rfl
theorem ite_t {α : Type} {b : Bool} {x y : α} (h : b = true) : (if b = true then x else y) = x := by rw [h]; rfl

theorem startsNone_mem {Ks : List Text} {code : Text} (h : startsNone Ks code = true) {K : Text} (hK : K ∈ Ks) :
    K.isPrefixOf code = false := by
  unfold startsNone at h
  rw [List.all_eq_true] at h
  simpa using h K hK

/-- First byte of a symbol: none of the single-byte cases. -/
structure Head (c : UInt8) : Prop where
  h35 : c ≠ 35
  h40 : (c == 40) = false
  h41 : (c == 41) = false
  h123 : (c == 123) = false
  h125 : (c == 125) = false
  bl : blank c = false

theorem head_of {c : UInt8} (h : c ∉ ([35, 40, 41, 123, 125] : List UInt8) ∧ blank c = false) : Head c := by
  obtain ⟨h, hb⟩ := h
  simp only [List.mem_cons, List.not_mem_nil, or_false, not_or] at h
  obtain ⟨h1, h2, h3, h4, h5⟩ := h
  exact ⟨h1, by simpa using h2, by simpa using h3, by simpa using h4, by simpa using h5, hb⟩

/-- Beginning of `scan` for a symbol. -/
theorem scan_head {d : Dict} {c : UInt8} {r : Text} (h : Head c) : scan d (c :: r) =
    (if d.eol.isPrefixOf (c :: r) then .ok (.dot, [], (c :: r).drop d.eol.length)
    else if d.chain.isPrefixOf (c :: r) then .ok (.chain, [], (c :: r).drop d.chain.length)
    else if d.assign.isPrefixOf (c :: r) then .ok (.assign, [], (c :: r).drop d.assign.length)
    else if ([58, 61] : Text).isPrefixOf (c :: r) then .ok (.assign, [], (c :: r).drop 2)
    else if c == d.param then .ok (.colon, [], r)
    else if d.ret.isPrefixOf (c :: r) && ((c :: r).drop d.ret.length).head? == some 32 then
      .ok (.ret, [], (c :: r).drop d.ret.length)
    else if d.qo.isPrefixOf (c :: r) then .ok (.quote, [], (c :: r).drop d.qo.length)
    else if (c == 45 && digitAt r) || isDigit c then do
      let (v, rest) ← number d (c :: r)
      .ok (.number, v, rest)
    else do
      let (v, rest) ← refLoop d [] (c :: r)
      .ok (.ref, v, rest)) := by
  unfold scan
  dsimp only
  rw [ite_f h.h40, ite_f h.h41, ite_f h.h123, ite_f h.h125]

/-! ## Words -/

theorem isDelim_ends {d : Dict} {rest : Text} (h : endsWord d rest = true) (hne : rest ≠ []) :
    isDelim d rest = true := by
  unfold endsWord at h
  simp only [Bool.or_eq_true, decide_eq_true_eq] at h
  unfold isDelim
  rcases h with (h | h) | h
  · exact absurd h hne
  · simp only [List.any_cons, List.any_nil, Bool.or_false, Bool.or_eq_true] at h
    rcases h with h | h | h | h <;> simp [h]
  · cases rest with
    | nil => exact absurd rfl hne
    | cons c r =>
      simp only [List.head?_cons, Option.any_some, Bool.or_eq_true, decide_eq_true_eq, List.mem_cons, List.not_mem_nil,
        or_false] at h
      rw [← isSpace_eq] at h
      rcases h with (h | h | h) | h <;> simp [h]

theorem refLoop_fwd {d : Dict} (hd : 2 ≤ d.assign.length) {acc w rest : Text} (hacc : acc.length + w.length ≤ 255)
    (h1 : ∀ c ∈ w, c ∉ [35, 40, 41, d.param] ∧ blank c = false)
    (h2 : ∀ i < w.length, startsNone [d.eol, d.qo, d.assign, d.chain, [58, 61]] (w.drop i ++ rest) = true)
    (h3 : endsWord d rest = true) : refLoop d acc (w ++ rest) = .ok (acc ++ w, rest) := by
  induction w generalizing acc with
  | nil =>
    rw [List.nil_append, List.append_nil]
    cases rest with
    | nil => rfl
    | cons c r =>
      unfold refLoop
      rw [if_pos (isDelim_ends h3 (by simp))]
  | cons c w ih =>
    rw [List.length_cons] at hacc
    have h0 := h2 0 (by simp)
    rw [List.drop_zero] at h0
    obtain ⟨hc1, hc2⟩ := h1 c List.mem_cons_self
    simp only [List.mem_cons, List.not_mem_nil, or_false, not_or] at hc1
    obtain ⟨c35, c40, c41, cp⟩ := hc1
    have hdel : isDelim d (c :: (w ++ rest)) = false := by
      refine isDelim_false hd (by rw [isSpace_eq]; exact hc2) (by simpa using c40) (by simpa using c41) ?_ ?_ ?_ ?_
        (by simpa using cp) ?_
      all_goals (rw [Bool.not_eq_true]; exact startsNone_mem h0 (by simp))
    show refLoop d acc (c :: (w ++ rest)) = _
    unfold refLoop
    rw [if_neg (by rw [hdel]; simp), put_eq c (by omega), Out.ok_bind]
    dsimp only
    have e : (c == 35 && decide (acc.length > 0)) = false := by
      have : (c == 35) = false := by simpa using c35
      rw [this]; rfl
    rw [ite_f e, if_neg (by unfold bflmt; rw [List.length_append, List.length_singleton]; omega)]
    rw [ih (by rw [List.length_append, List.length_singleton]; omega) (fun x hx => h1 x (List.mem_cons_of_mem _ hx))
      (fun i hi => by
        have := h2 (i + 1) (by rw [List.length_cons]; omega)
        rwa [List.drop_succ_cons] at this)]
    rw [List.append_assoc]
    rfl

/-! ## Numbers -/

theorem digitAt_starts (code : Text) : digitAt code = startsDigit code := by
  cases code with
  | nil => rfl
  | cons c r => exact isDigit_eq c

theorem digitAt_cons {c : UInt8} (r : Text) : digitAt (c :: r) = digit c := isDigit_eq c

theorem intPart_digit {d : Dict} {acc r : Text} {c : UInt8} (hc : digit c = true) (ha : acc.length < 255) :
    intPart d 0 acc (c :: r) = intPart d 0 (acc ++ [c])
      (r.drop (if d.tho.isPrefixOf r ∧ d.tho.length + 1 ≤ r.length ∧ digitAt (r.drop d.tho.length) = true
        then d.tho.length else 0)) := by
  conv => lhs; unfold intPart
  rw [if_pos (by rw [isDigit_eq]; exact hc), put_eq c ha, Out.ok_bind, intPart_skip]

/-- A group of digits that is not followed by a digit nor by a separator and a digit. -/
theorem intPart_group {d : Dict} (ht : ∀ c ∈ d.tho, digit c = false) {acc g t : Text} (hg : g ≠ [])
    (hdig : ∀ c ∈ g, digit c = true) (ha : acc.length + g.length ≤ 255) :
    intPart d 0 acc (g ++ t) = intPart d 0 (acc ++ g)
      (t.drop (if d.tho.isPrefixOf t ∧ d.tho.length + 1 ≤ t.length ∧ digitAt (t.drop d.tho.length) = true
        then d.tho.length else 0)) := by
  induction g generalizing acc with
  | nil => exact absurd rfl hg
  | cons c g ih =>
    rw [List.length_cons] at ha
    show intPart d 0 acc (c :: (g ++ t)) = _
    rw [intPart_digit (hdig c List.mem_cons_self) (by omega)]
    cases g with
    | nil => rfl
    | cons c2 g =>
      have hc2 : digit c2 = true := hdig c2 (by simp)
      have e : (if d.tho.isPrefixOf (c2 :: g ++ t) ∧ d.tho.length + 1 ≤ (c2 :: g ++ t).length ∧
          digitAt ((c2 :: g ++ t).drop d.tho.length) = true then d.tho.length else 0) = 0 := by
        split
        · rename_i h
          cases htho : d.tho with
          | nil => rfl
          | cons k K =>
            have h1 := pfx_iff.1 h.1
            rw [htho] at h1
            have := (List.cons_prefix_cons.1 h1).1
            have h2 := ht k (by rw [htho]; exact List.mem_cons_self)
            rw [this, hc2] at h2
            cases h2
        · rfl
      rw [e, List.drop_zero, ih (by simp) (fun x hx => hdig x (List.mem_cons_of_mem _ hx))
        (by rw [List.length_append, List.length_singleton]; omega)]
      rw [List.append_assoc]
      rfl

theorem intPart_fwd {d : Dict} (ht : ∀ c ∈ d.tho, digit c = false) {gs : List Text} {acc t : Text} (hgs : gs ≠ [])
    (hg : ∀ g ∈ gs, g ≠ [] ∧ ∀ c ∈ g, digit c = true) (ha : acc.length + gs.flatten.length ≤ 255)
    (hnd : startsDigit t = false) (hnt : (d.tho.isPrefixOf t && startsDigit (t.drop d.tho.length)) = false) :
    intPart d 0 acc (d.tho.intercalate gs ++ t) = .ok (acc ++ gs.flatten, t) := by
  induction gs generalizing acc with
  | nil => exact absurd rfl hgs
  | cons g gs ih =>
    obtain ⟨hg0, hgd⟩ := hg g List.mem_cons_self
    rw [List.flatten_cons, List.length_append] at ha
    cases gs with
    | nil =>
      have e : d.tho.intercalate [g] = g := by simp
      rw [e, intPart_group ht hg0 hgd (by omega)]
      have : (if d.tho.isPrefixOf t ∧ d.tho.length + 1 ≤ t.length ∧ digitAt (t.drop d.tho.length) = true
          then d.tho.length else 0) = 0 := by
        split
        · rename_i h
          rw [h.1, ← digitAt_starts, h.2.2] at hnt
          cases hnt
        · rfl
      rw [this, List.drop_zero, intPart_nodigit d (by rw [digitAt_starts]; exact hnd)]
      simp
    | cons g2 gs =>
      have e : d.tho.intercalate (g :: g2 :: gs) ++ t = g ++ (d.tho ++ (d.tho.intercalate (g2 :: gs) ++ t)) := by
        simp [List.intercalate]
      have hg2 := hg g2 (by simp)
      obtain ⟨c2, g2', hg2'⟩ : ∃ c2 g2', g2 = c2 :: g2' := by
        cases g2 with
        | nil => exact absurd rfl hg2.1
        | cons a b => exact ⟨a, b, rfl⟩
      have hc2 : digit c2 = true := hg2.2 c2 (by rw [hg2']; exact List.mem_cons_self)
      obtain ⟨z, hz⟩ : ∃ z, d.tho.intercalate (g2 :: gs) ++ t = c2 :: z := by
        rw [hg2']
        cases gs with
        | nil => exact ⟨g2' ++ t, by simp⟩
        | cons a b => exact ⟨g2' ++ (d.tho ++ (d.tho.intercalate (a :: b) ++ t)), by simp [List.intercalate]⟩
      have ih' := ih (acc := acc ++ g) (by simp) (fun x hx => hg x (List.mem_cons_of_mem _ hx))
        (by rw [List.length_append]; omega)
      rw [e, hz]
      rw [hz] at ih'
      have hcond : d.tho.isPrefixOf (d.tho ++ c2 :: z) = true ∧ d.tho.length + 1 ≤ (d.tho ++ c2 :: z).length ∧
          digitAt ((d.tho ++ c2 :: z).drop d.tho.length) = true := by
        refine ⟨pfx_self _ _, ?_, ?_⟩
        · rw [List.length_append, List.length_cons]; omega
        · rw [drop_self, digitAt_cons]; exact hc2
      rw [intPart_group ht hg0 hgd (by omega), if_pos hcond, drop_self, ih', List.append_assoc]
      rfl

theorem fracPart_fwd {acc f t : Text} (hf : ∀ c ∈ f, digit c = true) (ha : acc.length + f.length ≤ 255)
    (hnd : startsDigit t = false) : fracPart acc (f ++ t) = .ok (acc ++ f, t) := by
  induction f generalizing acc with
  | nil =>
    rw [List.nil_append, List.append_nil]
    cases t with
    | nil => rfl
    | cons c r =>
      unfold fracPart
      rw [ite_f (by rw [isDigit_eq]; exact hnd)]
  | cons c f ih =>
    rw [List.length_cons] at ha
    show fracPart acc (c :: (f ++ t)) = _
    unfold fracPart
    rw [if_pos (by rw [isDigit_eq]; exact hf c List.mem_cons_self), put_eq c (by omega), Out.ok_bind,
      ih (fun x hx => hf x (List.mem_cons_of_mem _ hx)) (by rw [List.length_append, List.length_singleton]; omega),
      List.append_assoc]
    rfl

theorem afterInt_fwd {d : Dict} (hdec : d.dec.length = 1) (hee : d.eol ≠ []) (he : ∀ c ∈ d.eol, digit c = false) {acc f t : Text}
    (hf : ∀ c ∈ f, digit c = true) (ha : acc.length + (fraction [46] f).length ≤ 255) (hnd : startsDigit t = false)
    (hdt : (d.dec.isPrefixOf t && startsDigit (t.drop d.dec.length)) = false) :
    afterInt d acc (fraction d.dec f ++ t) = .ok (acc ++ fraction [46] f, t) := by
  unfold afterInt
  cases f with
  | nil =>
    have e1 : fraction d.dec [] = [] := rfl
    have e2 : fraction [46] ([] : Text) = [] := rfl
    rw [e1, e2, List.nil_append, List.append_nil]
    split
    · rfl
    · rw [if_neg]
      · exact (fracPart_fwd (f := []) hf (by simpa [e2] using ha) hnd).trans (by rw [List.append_nil])
      · rintro ⟨_, h2, h3⟩
        rw [h3, ← digitAt_starts, h2] at hdt
        cases hdt
  | cons c f =>
    obtain ⟨x, hx⟩ : ∃ x, d.dec = [x] := List.length_eq_one_iff.1 hdec
    have hc : digit c = true := hf c List.mem_cons_self
    have e1 : fraction d.dec (c :: f) ++ t = x :: (c :: f ++ t) := by unfold fraction; rw [if_neg (by simp), hx]; rfl
    have e2 : fraction [46] (c :: f) = 46 :: c :: f := rfl
    rw [e2] at ha
    simp only [List.length_cons] at ha
    rw [e1, e2, if_neg, if_pos]
    · rw [put_eq 46 (by omega), Out.ok_bind]
      show fracPart (acc ++ [46]) (c :: f ++ t) = _
      rw [fracPart_fwd hf (by rw [List.length_append, List.length_singleton, List.length_cons]; omega) hnd,
        List.append_assoc]
      rfl
    · rw [hx]
      refine ⟨by simp, ?_, ?_⟩
      · show digitAt (c :: f ++ t) = true
        exact (digitAt_cons (f ++ t)).trans hc
      · exact pfx_self [x] _
    · rintro ⟨h1, h2⟩
      cases hE : d.eol with
      | nil => exact hee hE
      | cons a E =>
        rw [hE] at h1 h2
        have h3 := List.cons_prefix_cons.1 (pfx_iff.1 h1)
        cases E with
        | nil =>
          have : digitAt (c :: f ++ t) = false := h2
          rw [show digitAt (c :: f ++ t) = digit c from digitAt_cons (f ++ t), hc] at this
          cases this
        | cons b E =>
          have h4 := (List.cons_prefix_cons.1 h3.2).1
          have := he b (by rw [hE]; simp)
          rw [h4, hc] at this
          cases this

theorem number_fwd {d : Dict} (hdec : d.dec.length = 1) (hee : d.eol ≠ []) (htd : d.tho ≠ d.dec)
    (hall : ∀ c ∈ d.tho ++ d.dec ++ d.eol, digit c = false) {sign f rest : Text} {gs : List Text}
    (hs : sign = [] ∨ sign = [45]) (hgs : gs ≠ []) (hg : ∀ g ∈ gs, g ≠ [] ∧ ∀ c ∈ g, digit c = true)
    (hf : ∀ c ∈ f, digit c = true) (hl : (sign ++ gs.flatten ++ fraction [46] f).length ≤ 255)
    (he : endsNumber d rest = true) :
    number d (sign ++ d.tho.intercalate gs ++ fraction d.dec f ++ rest) =
      .ok (sign ++ gs.flatten ++ fraction [46] f, rest) ∧
    ∃ c r, sign ++ d.tho.intercalate gs ++ fraction d.dec f ++ rest = c :: r ∧
      ((c == 45 && digitAt r) || isDigit c) = true ∧ (digit c = true ∨ c = 45) := by
  have ht : ∀ c ∈ d.tho, digit c = false := fun c hc => hall c (by simp [hc])
  have heol : ∀ c ∈ d.eol, digit c = false := fun c hc => hall c (by simp [hc])
  have hdd : ∀ c ∈ d.dec, digit c = false := fun c hc => hall c (by simp [hc])
  unfold endsNumber at he
  simp only [List.all_cons, List.all_nil, Bool.and_true, Bool.and_eq_true, Bool.not_eq_true'] at he
  obtain ⟨he1, he2, he3⟩ := he
  obtain ⟨x, hx⟩ : ∃ x, d.dec = [x] := List.length_eq_one_iff.1 hdec
  have hxd : digit x = false := hdd x (by rw [hx]; simp)
  -- what follows the groups
  have hnd : startsDigit (fraction d.dec f ++ rest) = false := by
    unfold fraction
    split
    · exact he1
    · rw [hx]; unfold startsDigit; simpa using hxd
  have hnt : (d.tho.isPrefixOf (fraction d.dec f ++ rest) &&
      startsDigit ((fraction d.dec f ++ rest).drop d.tho.length)) = false := by
    by_cases hfe : f = []
    · subst hfe; exact he2
    · rw [Bool.and_eq_false_iff]
      cases hT : d.tho with
      | nil => exact Or.inr hnd
      | cons k K =>
        refine Or.inl ?_
        rw [pfx_false]
        intro hp
        unfold fraction at hp
        rw [if_neg hfe, hx] at hp
        obtain ⟨hk, hp⟩ := List.cons_prefix_cons.1 hp
        cases K with
        | nil => exact htd (by rw [hT, hx, hk])
        | cons k2 K =>
          cases f with
          | nil => exact hfe rfl
          | cons c f =>
            have := (List.cons_prefix_cons.1 hp).1
            have h2 := ht k2 (by rw [hT]; simp)
            rw [this, hf c List.mem_cons_self] at h2
            cases h2
  simp only [List.length_append] at hl
  -- the first digit
  obtain ⟨c, z, hz, hc⟩ : ∃ c z, d.tho.intercalate gs ++ (fraction d.dec f ++ rest) = c :: z ∧ digit c = true := by
    cases gs with
    | nil => exact absurd rfl hgs
    | cons g gs =>
      obtain ⟨h1, h2⟩ := hg g List.mem_cons_self
      cases g with
      | nil => exact absurd rfl h1
      | cons c g =>
        refine ⟨c, ?_⟩
        cases gs with
        | nil => exact ⟨g ++ (fraction d.dec f ++ rest), by simp, h2 c List.mem_cons_self⟩
        | cons a b =>
          exact ⟨g ++ (d.tho ++ (d.tho.intercalate (a :: b) ++ (fraction d.dec f ++ rest))), by simp [List.intercalate],
            h2 c List.mem_cons_self⟩
  have hrun : ∀ acc : Text, acc.length = sign.length →
      (intPart d 0 acc (c :: z) >>= fun p => afterInt d p.1 p.2) = .ok (acc ++ gs.flatten ++ fraction [46] f, rest) := by
    intro acc ha
    rw [← hz, intPart_fwd ht hgs hg (by omega) hnd hnt, Out.ok_bind]
    rw [afterInt_fwd hdec hee heol hf (by rw [List.length_append]; omega) he1 he3]
  have hnum : ∀ r : Text, number d (45 :: r) = (put [] 45 >>= fun acc => intPart d 0 acc r >>= fun p => afterInt d p.1 p.2) := by
    intro r; rfl
  rcases hs with rfl | rfl
  · simp only [List.nil_append, List.append_assoc] at *
    rw [hz]
    refine ⟨?_, c, z, rfl, by rw [isDigit_eq, hc]; simp, Or.inl hc⟩
    have h45 : c ≠ 45 := by rintro rfl; revert hc; decide
    have : number d (c :: z) = (intPart d 0 [] (c :: z) >>= fun p => afterInt d p.1 p.2) := by
      unfold number
      split
      · rename_i h; exact absurd (List.cons.inj h).1 h45
      · rfl
    rw [this]
    simpa using hrun [] rfl
  · have e : [45] ++ d.tho.intercalate gs ++ fraction d.dec f ++ rest = 45 :: c :: z := by
      rw [← hz]; simp
    rw [e]
    refine ⟨?_, 45, c :: z, rfl, by rw [digitAt_cons, hc]; rfl, Or.inr rfl⟩
    rw [hnum, put_eq 45 (by simp), Out.ok_bind]
    exact hrun [45] rfl

/-! ## Lexemes -/

/-- The token a lexeme is read as. -/
def kind : Lexeme → Tok
  | .word _ => .ref
  | .num _ => .number
  | .lit _ => .quote
  | .popen => .parOpen
  | .pclose => .parClose
  | .bopen => .blockOpen
  | .bclose => .blockClose
  | .eol => .dot
  | .chain => .chain
  | .assign => .assign
  | .colon => .colon
  | .ret => .ret

/-- The value of that token. -/
def value : Lexeme → Text
  | .word w => w
  | .num v => v
  | _ => []

/-- A lexeme that is read by one token. -/
def whole : Lexeme → Bool
  | .lit _ => false
  | _ => true

theorem ret_false {K code : Text} (h8 : (K ++ [32]).isPrefixOf code = false) :
    (K.isPrefixOf code && (code.drop K.length).head? == some 32) = false := by
  rw [pfx_false] at h8
  rw [Bool.and_eq_false_iff]
  by_cases hp : K <+: code
  · refine Or.inr ?_
    obtain ⟨z, hz⟩ := hp
    rw [← hz, drop_self]
    cases z with
    | nil => rfl
    | cons y z =>
      rw [beq_eq_false_iff_ne]
      intro hy
      simp only [List.head?_cons, Option.some.injEq] at hy
      subst hy
      exact h8 ⟨z, by rw [← hz]; simp⟩
  · exact Or.inl (pfx_false.2 hp)

theorem written_scan {d : Dict} (hd : GoodDict d) {l : Lexeme} {b rest : Text} (h : Written d l b rest) :
    Solid (b ++ rest) ∧ (whole l = true → scan d (b ++ rest) = .ok (kind l, value l, rest)) := by
  obtain ⟨hu, hq, ha, hh, a1, a2, a3, a4, a5, a6, p1, p2, _, a7, a8, a9⟩ := hd
  obtain ⟨u1, u2, u3, u4, u5, u6⟩ := hu
  simp only [List.all_cons, List.all_nil, Bool.and_true, Bool.and_eq_true] at a1 a2
  -- a symbol as a nonempty list with a good first byte
  have sym : ∀ K : Text, K ∈ [d.eol, d.chain, d.assign, d.ret, [d.param]] → K ≠ [] → ∃ c r, K = c :: r ∧ Head c := by
    intro K hK hne
    cases hKe : K with
    | nil => exact absurd hKe hne
    | cons c r => exact ⟨c, r, rfl, head_of (hh K hK c (by rw [hKe]; simp))⟩
  have solid : ∀ {c : UInt8} {r : Text}, Head c → Solid (c :: r ++ rest) := by
    intro c r hc x hx
    simp only [List.cons_append, List.take_succ_cons, List.take_zero, List.mem_singleton] at hx
    subst hx
    exact ⟨hc.bl, hc.h35⟩
  cases l with
  | popen =>
    subst h
    exact ⟨fun x hx => by simp at hx; subst hx; decide, fun _ => rfl⟩
  | pclose =>
    subst h
    exact ⟨fun x hx => by simp at hx; subst hx; decide, fun _ => rfl⟩
  | bopen =>
    subst h
    exact ⟨fun x hx => by simp at hx; subst hx; decide, fun _ => rfl⟩
  | bclose =>
    subst h
    exact ⟨fun x hx => by simp at hx; subst hx; decide, fun _ => rfl⟩
  | eol =>
    subst h
    obtain ⟨c, r, hK, hc⟩ := sym d.eol (by simp) u1
    refine ⟨by rw [hK]; exact solid hc, fun _ => ?_⟩
    have : d.eol ++ rest = c :: (r ++ rest) := by rw [hK]; rfl
    rw [this, scan_head hc, ← this, ite_t (pfx_self _ _), drop_self]
    rfl
  | chain =>
    subst h
    obtain ⟨c, r, hK, hc⟩ := sym d.chain (by simp) u2
    refine ⟨by rw [hK]; exact solid hc, fun _ => ?_⟩
    have : d.chain ++ rest = c :: (r ++ rest) := by rw [hK]; rfl
    rw [this, scan_head hc, ← this, ite_f (apart_pfx a1.1 _), ite_t (pfx_self _ _), drop_self]
    rfl
  | assign =>
    have has : d.assign ≠ [] := by intro h; rw [h] at u3; simp at u3
    have key : b = d.assign → Solid (b ++ rest) ∧ scan d (b ++ rest) = .ok (.assign, [], rest) := by
      rintro rfl
      obtain ⟨c, r, hK, hc⟩ := sym d.assign (by simp) has
      refine ⟨by rw [hK]; exact solid hc, ?_⟩
      have : d.assign ++ rest = c :: (r ++ rest) := by rw [hK]; rfl
      rw [this, scan_head hc, ← this, ite_f (apart_pfx a1.2.1 _), ite_f (apart_pfx a2.1 _), ite_t (pfx_self _ _), drop_self]
    rcases h with h | h
    · exact ⟨(key h).1, fun _ => (key h).2⟩
    · rcases a5 with a5 | a5
      · exact ⟨(key (by rw [a5]; exact h)).1, fun _ => (key (by rw [a5]; exact h)).2⟩
      · subst h
        have hc : Head 58 := ⟨by decide, by decide, by decide, by decide, by decide, by decide⟩
        refine ⟨solid hc, fun _ => ?_⟩
        show scan d (58 :: (61 :: rest)) = _
        rw [scan_head hc]
        have e1 : d.eol.isPrefixOf (58 :: 61 :: rest) = false := apart_pfx a1.2.2.1 rest
        have e2 : d.chain.isPrefixOf (58 :: 61 :: rest) = false := apart_pfx a2.2.1 rest
        have e3 : d.assign.isPrefixOf (58 :: 61 :: rest) = false := apart_pfx a5 rest
        rw [ite_f e1, ite_f e2, ite_f e3, ite_t (show ([58, 61] : Text).isPrefixOf (58 :: 61 :: rest) = true from pfx_self [58, 61] rest)]
        rfl
  | colon =>
    obtain ⟨rfl, h⟩ := h
    obtain ⟨c, r, hK, hc⟩ := sym [d.param] (by simp) (by simp)
    simp only [List.cons.injEq] at hK
    obtain ⟨rfl, rfl⟩ := hK
    refine ⟨solid hc, fun _ => ?_⟩
    show scan d (d.param :: rest) = _
    have h' : startsNone [d.eol, d.chain, d.assign, [58, 61]] (d.param :: rest) = true := h
    rw [scan_head hc, ite_f (startsNone_mem h' (by simp)), ite_f (startsNone_mem h' (by simp)),
      ite_f (startsNone_mem h' (by simp)), ite_f (startsNone_mem h' (by simp)), ite_t (by simp)]
    rfl
  | ret =>
    obtain ⟨rfl, h⟩ := h
    obtain ⟨c, r, hK, hc⟩ := sym d.ret (by simp) u4
    refine ⟨by rw [hK]; exact solid hc, fun _ => ?_⟩
    have : d.ret ++ rest = c :: (r ++ rest) := by rw [hK]; rfl
    have hcp : (c == d.param) = false := by
      rw [hK] at a6
      simp only [List.take_succ_cons, List.take_zero, List.mem_singleton] at a6
      rw [beq_eq_false_iff_ne]
      exact fun e => a6 e.symm
    rw [this, scan_head hc, ← this, ite_f (apart_pfx a1.2.2.2 _), ite_f (apart_pfx a2.2.2 _), ite_f (apart_pfx a3 _),
      ite_f (apart_pfx a4 _), ite_f hcp, ite_t (by rw [drop_self, pfx_self, h]; rfl), drop_self]
    rfl
  | lit t =>
    obtain ⟨rfl, h⟩ := h
    refine ⟨?_, fun h => by cases h⟩
    intro x hx
    have hx' : x ∈ d.qo.take 1 := by
      cases hQ : d.qo with
      | nil => exact absurd hQ u5
      | cons c r => rw [hQ] at hx; simpa using hx
    obtain ⟨h1, h2⟩ := hq.2.2.1 x hx'
    refine ⟨h1, ?_⟩
    rintro rfl
    exact h2 (by simp)
  | word w =>
    obtain ⟨rfl, w1, w2, w3, w4, w5, w6, w7, w8, w9⟩ := h
    cases b with
    | nil => exact absurd rfl w1
    | cons c r =>
      obtain ⟨b1, b2⟩ := w4 c List.mem_cons_self
      obtain ⟨b3, b4⟩ := w5 c (by simp)
      simp only [List.mem_cons, List.not_mem_nil, or_false, not_or] at b1 b3
      have hc : Head c := ⟨b1.1, by simpa using b1.2.1, by simpa using b1.2.2.1, by simpa using b3.1, by simpa using b3.2, b2⟩
      refine ⟨solid hc, fun _ => ?_⟩
      have h0 := w7 0 (by simp)
      rw [List.drop_zero] at h0
      have hr : (d.ret.isPrefixOf (c :: r ++ rest) && ((c :: r ++ rest).drop d.ret.length).head? == some 32) = false := by
        exact ret_false (startsNone_mem w8 (by simp))
      have hn : ((c == 45 && digitAt (r ++ rest)) || isDigit c) = false := by
        rw [isDigit_eq, b4, Bool.or_false, Bool.and_eq_false_iff]
        by_cases h45 : c = 45
        · refine Or.inr ?_
          have h6 := w6 (by rw [h45]; rfl)
          rw [digitAt_starts]; exact h6
        · exact Or.inl (by simpa using h45)
      show scan d (c :: (r ++ rest)) = _
      rw [scan_head hc]
      have hr' := hr
      simp only [List.cons_append] at hr' h0
      rw [ite_f (startsNone_mem h0 (by simp)), ite_f (startsNone_mem h0 (by simp)), ite_f (startsNone_mem h0 (by simp)),
        ite_f (startsNone_mem h0 (by simp)), ite_f (by simpa using b1.2.2.2), ite_f hr', ite_f (startsNone_mem h0 (by simp)),
        ite_f hn]
      have := refLoop_fwd u3 (acc := []) (w := c :: r) (rest := rest) (by simpa using w2) w4 w7 w9
      simp only [List.cons_append] at this
      rw [this]
      rfl
  | num v =>
    obtain ⟨sign, gs, f, rfl, rfl, n1, n2, n3, n4, n5, n6, n7⟩ := h
    obtain ⟨k1, c, r, k2, k3, k4⟩ := number_fwd a7 u1 a8 a9 n1 n2 n3 n4 n5 n6
    have hc : Head c := by
      rcases k4 with k4 | k4
      · have hall : ∀ n : Fin 256, digit (UInt8.ofNat n.val) = true →
            (UInt8.ofNat n.val) ∉ ([35, 40, 41, 123, 125] : List UInt8) ∧ blank (UInt8.ofNat n.val) = false := by
          decide +kernel
        have := hall ⟨c.toNat, c.toNat_lt⟩
        simp only [UInt8.ofNat_toNat] at this
        exact head_of (this k4)
      · subst k4
        exact ⟨by decide, by decide, by decide, by decide, by decide, by decide⟩
    rw [k2] at k1 n7 ⊢
    refine ⟨?_, fun _ => ?_⟩
    · intro x hx
      simp only [List.take_succ_cons, List.take_zero, List.mem_singleton] at hx
      subst hx
      exact ⟨hc.bl, hc.h35⟩
    · have hp : (c == d.param) = false := by
        rw [beq_eq_false_iff_ne]
        rintro rfl
        rcases k4 with k4 | k4
        · rw [p1] at k4; cases k4
        · exact p2 k4
      have hr : (d.ret.isPrefixOf (c :: r) && ((c :: r).drop d.ret.length).head? == some 32) = false :=
        ret_false (startsNone_mem n7 (by simp))
      rw [scan_head hc, ite_f (startsNone_mem n7 (by simp)), ite_f (startsNone_mem n7 (by simp)),
        ite_f (startsNone_mem n7 (by simp)), ite_f (startsNone_mem n7 (by simp)), ite_f hp, ite_f hr,
        ite_f (startsNone_mem n7 (by simp)), ite_t k3, k1]
      rfl

/-- Reading the first lexeme of a layout. -/
theorem tok_lay {d : Dict} (hd : GoodDict d) {l : Lexeme} {ls : List Lexeme} {s : LS} (h : Lay d (l :: ls) s.code) :
    ∃ s', tok d s = .ok (kind l, s') ∧ s'.old = s.code ∧ s'.older = s.old ∧
      (whole l = true → s'.val = value l ∧ Lay d ls s'.code) ∧
      (∀ t, l = .lit t → ∃ rest, readstr d false s'.code = .ok (t, rest) ∧ Lay d ls rest) := by
  generalize hcode : s.code = code at h
  cases h with
  | @next _ _ g b rest hg hw hl =>
    obtain ⟨h1, h2⟩ := written_scan hd hw
    have hsk : skip false s.code = b ++ rest := by rw [hcode, List.append_assoc]; exact skip_over hg h1
    by_cases hwh : whole l = true
    · refine ⟨⟨rest, s.code, s.old, value l⟩, ?_, hcode, rfl, fun _ => ⟨rfl, hl⟩, ?_⟩
      · unfold tok
        rw [hsk, h2 hwh]
        rfl
      · rintro t rfl; cases hwh
    · cases l with
      | lit t =>
        obtain ⟨rfl, hn⟩ := hw
        obtain ⟨hu, hq, ha, _⟩ := hd
        refine ⟨⟨t ++ (d.qc ++ rest), s.code, s.old, []⟩, ?_, hcode, rfl, fun h => absurd h hwh, ?_⟩
        · unfold tok
          have e : d.qo ++ t ++ d.qc ++ rest = d.qo ++ (t ++ (d.qc ++ rest)) := by simp
          have := scan_quote d hu.2.2.2.2.1 hq (t ++ (d.qc ++ rest))
          rw [← e, skip_solid h1] at this
          rw [hsk, this]
          rfl
        · rintro t' ht
          cases ht
          exact ⟨rest, readstr_nested d hu.2.2.2.2 hq ha hn, hl⟩
      | _ => exact absurd rfl hwh

theorem tok_lay_nil {d : Dict} {s : LS} (h : Lay d [] s.code) :
    ∃ s', tok d s = .ok (.fin, s') ∧ s'.old = s.code ∧ s'.older = s.old ∧ Lay d [] s'.code := by
  generalize hcode : s.code = code at h
  cases h with
  | done hg =>
    have hsk : skip false s.code = [] := by
      rw [hcode]
      have := skip_over hg (by intro c hc; cases hc)
      rwa [List.append_nil] at this
    refine ⟨⟨[], s.code, s.old, []⟩, ?_, hcode, rfl, .done (.none _)⟩
    unfold tok
    rw [hsk]
    rfl

end Verif.Model.Lexer
