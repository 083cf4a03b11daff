import Verif.Lemmas.JsonTok

/-!
# The tokenizer on JSON texts: lemmas
-/

namespace Verif.Lemmas.Json
open Verif Verif.Spec.Json Verif.Model.Json
open Verif.Model (Text)

/-- One more child. -/
def grow (t : Tok) : Tok := { t with size := t.size + 1 }

/-- One more child for the parent. -/
def bumpO : Option Nat → List Tok → List Tok
  | none, l => l
  | some c, l =>
    match l[c]? with
    | some t => l.set c (grow t)
    | none => l

theorem bumpO_append {par : Option Nat} {a b : List Tok} (h : ∀ c, par = some c → c < a.length) :
    bumpO par (a ++ b) = bumpO par a ++ b := by
  cases par with
  | none => rfl
  | some c =>
    have hc := h c rfl
    simp only [bumpO]
    rw [List.getElem?_append_left hc, List.getElem?_eq_getElem hc]
    dsimp only
    rw [List.set_append_left _ _ hc]

theorem bumpO_length (par : Option Nat) (a : List Tok) : (bumpO par a).length = a.length := by
  cases par with
  | none => rfl
  | some c =>
    simp only [bumpO]
    split <;> simp

theorem bumpO_mid (A B : List Tok) (o : Tok) : bumpO (some A.length) (A ++ o :: B) = A ++ grow o :: B := by
  simp [bumpO]

theorem bumpSuper_eq {k : Nat} {s : St} (h : ∀ c, s.super = some c → c < s.toks.length) :
    bumpSuper (some k) s = .ok { s with toks := bumpO s.super s.toks } := by
  unfold bumpSuper
  cases hs : s.super with
  | none => simp [bumpO, ← hs]
  | some c =>
    have hc := h c hs
    dsimp only
    unfold bump
    simp only [bumpO]
    rw [List.getElem?_eq_getElem hc]
    simp [grow, hs]

theorem Run.cast {cap : Option Nat} {js : Text} {s a b : St} (h : Run cap js s a) (e : a = b) : Run cap js s b := e ▸ h

/-- A value may follow: the parent is a sequence, or a key without a value, or there is none. -/
def Accepts (par : Option Nat) (toks : List Tok) : Prop :=
  ∀ c, par = some c → ∃ t, toks[c]? = some t ∧ (t.kind = .arr ∨ (t.kind = .str ∧ t.size = 0))

theorem Accepts.lt {par : Option Nat} {toks : List Tok} (h : Accepts par toks) : ∀ c, par = some c → c < toks.length := by
  intro c hc
  obtain ⟨t, ht, _⟩ := h c hc
  exact (List.getElem?_eq_some_iff.1 ht).1

/-- A text in quotes. -/
theorem run_string {k : Nat} {js rest : Text} {s : St} {ps : List Piece} (hp : FinePieces ps)
    (h : js.drop s.pos = quoted ps ++ rest) (hs : ∀ c, s.super = some c → c < s.toks.length) (hk : s.toks.length < k) :
    Run (some k) js s { pos := s.pos + (quoted ps).length
                        toks := bumpO s.super s.toks ++
                          [⟨.str, s.pos + 1, some (s.pos + 1 + (ps.flatMap Piece.written).length), 0, s.super⟩]
                        super := s.super
                        count := s.count + 1 } := by
  have hq : quoted ps ++ rest = 34 :: (ps.flatMap Piece.written ++ 34 :: rest) := by simp [quoted]
  rw [hq] at h
  have hr : round (some k) 34 (34 :: (ps.flatMap Piece.written ++ 34 :: rest)) s = .ok (some
      { pos := s.pos + 1 + (ps.flatMap Piece.written).length
        toks := bumpO s.super s.toks ++
          [⟨.str, s.pos + 1, some (s.pos + 1 + (ps.flatMap Piece.written).length), 0, s.super⟩]
        super := s.super
        count := s.count + 1 }) := by
    unfold round
    rw [if_neg (by decide), if_neg (by decide), if_pos rfl]
    unfold parseString
    rw [List.drop_one, List.tail_cons, stringLength_pieces ps hp]
    dsimp only
    unfold alloc
    rw [if_neg (by omega)]
    dsimp only [Option.map_some]
    rw [bumpSuper_eq]
    · rw [Out.ok_bind]
      dsimp only
      rw [bumpO_append hs]
    · intro c hc
      have := hs c hc
      simp
      omega
  refine (Run.one h hr (by dsimp only; omega)).cast ?_
  simp [quoted]
  omega

/-- A primitive. -/
theorem run_prim {k : Nat} {js rest t : Text} {s : St} {c : UInt8} {r : Text} (ht : t = c :: r)
    (hc : c = 45 ∨ (48 ≤ c.toNat ∧ c.toNat ≤ 57) ∨ c = 116 ∨ c = 102 ∨ c = 110)
    (hf : ∀ c ∈ t, 32 < c.toNat ∧ c.toNat < 127 ∧ c ∉ ([44, 58, 93, 125] : List UInt8)) (hr : Ends rest)
    (h : js.drop s.pos = t ++ rest) (hs : Accepts s.super s.toks) (hk : s.toks.length < k) :
    Run (some k) js s { pos := s.pos + t.length
                        toks := bumpO s.super s.toks ++ [⟨.prim, s.pos, some (s.pos + t.length), 0, s.super⟩]
                        super := s.super
                        count := s.count + 1 } := by
  have hne : ∀ x : UInt8, (x.toNat < 45 ∨ 57 < x.toNat) → x ≠ 116 → x ≠ 102 → x ≠ 110 → c ≠ x := by
    rintro x hx h1 h2 h3 rfl
    rcases hc with rfl | hc | hc | hc | hc
    · simp at hx
    · omega
    · exact h1 hc
    · exact h2 hc
    · exact h3 hc
  have h' : js.drop s.pos = c :: (r ++ rest) := by rw [h, ht]; rfl
  have hl : primLength (c :: (r ++ rest)) = some t.length := by
    have := primLength_eq t rest hf hr
    rw [ht] at this ⊢
    exact this
  have hpos : 1 ≤ t.length := by rw [ht]; simp
  have hr : round (some k) c (c :: (r ++ rest)) s = .ok (some
      { pos := s.pos + t.length - 1
        toks := bumpO s.super s.toks ++ [⟨.prim, s.pos, some (s.pos + t.length), 0, s.super⟩]
        super := s.super
        count := s.count + 1 }) := by
    unfold round
    have n1 := hne 123 (by decide) (by decide) (by decide) (by decide)
    have n2 := hne 91 (by decide) (by decide) (by decide) (by decide)
    have n3 := hne 125 (by decide) (by decide) (by decide) (by decide)
    have n4 := hne 93 (by decide) (by decide) (by decide) (by decide)
    have n5 := hne 34 (by decide) (by decide) (by decide) (by decide)
    have n6 := hne 9 (by decide) (by decide) (by decide) (by decide)
    have n7 := hne 13 (by decide) (by decide) (by decide) (by decide)
    have n8 := hne 10 (by decide) (by decide) (by decide) (by decide)
    have n9 := hne 32 (by decide) (by decide) (by decide) (by decide)
    have n10 := hne 58 (by decide) (by decide) (by decide) (by decide)
    have n11 := hne 44 (by decide) (by decide) (by decide) (by decide)
    rw [if_neg (by simp [n1, n2]), if_neg (by simp [n3, n4]), if_neg n5, if_neg (by simp [n6, n7, n8, n9]), if_neg n10,
      if_neg n11, if_pos hc]
    have hbad : misplaced (some k) s = .ok false := by
      unfold misplaced
      cases hsup : s.super with
      | none => rfl
      | some i =>
        obtain ⟨t, h1, h2⟩ := hs i hsup
        dsimp only
        rw [h1]
        dsimp only
        congr 1
        rcases h2 with h2 | ⟨h2, h3⟩
        · simp [h2]
        · simp [h2, h3]
    rw [hbad, Out.ok_bind]
    rw [if_neg (by decide)]
    unfold parsePrimitive
    rw [hl]
    dsimp only
    unfold alloc
    rw [if_neg (by omega)]
    dsimp only [Option.map_some]
    rw [bumpSuper_eq]
    · rw [Out.ok_bind]
      dsimp only
      rw [bumpO_append hs.lt]
    · intro c hc
      have := hs.lt c hc
      simp
      omega
  refine (Run.one h' hr (by dsimp only; omega)).cast ?_
  dsimp only
  rw [show s.pos + t.length - 1 + 1 = s.pos + t.length by omega]

/-- An opening bracket. -/
theorem run_open {k : Nat} {js rest : Text} {s : St} {c : UInt8} (hc : c = 123 ∨ c = 91) (h : js.drop s.pos = c :: rest)
    (hs : ∀ c, s.super = some c → c < s.toks.length) (hk : s.toks.length < k) :
    Run (some k) js s { pos := s.pos + 1
                        toks := bumpO s.super s.toks ++ [⟨if c = 123 then .obj else .arr, s.pos, none, 0, s.super⟩]
                        super := some s.toks.length
                        count := s.count + 1 } := by
  have hr : round (some k) c (c :: rest) s = .ok (some
      { pos := s.pos
        toks := bumpO s.super s.toks ++ [⟨if c = 123 then .obj else .arr, s.pos, none, 0, s.super⟩]
        super := some s.toks.length
        count := s.count + 1 }) := by
    unfold round
    rw [if_pos hc]
    dsimp only
    unfold alloc
    dsimp only
    rw [if_neg (by omega)]
    dsimp only
    rw [bumpSuper_eq]
    · rw [Out.ok_bind]
      dsimp only
      rw [bumpO_append hs]
      simp [bumpO_length]
    · intro c hc
      have := hs c hc
      simp
      omega
  exact Run.one h hr (Nat.le_refl _)

/-- A closing bracket. -/
theorem run_close {k : Nat} {js rest : Text} {s : St} {c : UInt8} (hc : c = 125 ∨ c = 93) {A B : List Tok} {o : Tok}
    (hs : s.toks = A ++ o :: B) (ho : o.fin = none) (hk : o.kind = if c = 125 then .obj else .arr)
    (hB : Under A.length (A.length + 1) B) (h : js.drop s.pos = c :: rest) :
    Run (some k) js s { s with pos := s.pos + 1
                               toks := A ++ { o with fin := some (s.pos + 1) } :: B
                               super := o.parent } := by
  have hl : s.toks.length = A.length + 1 + B.length := by rw [hs]; simp; omega
  have hr : round (some k) c (c :: rest) s = .ok (some { s with toks := A ++ { o with fin := some (s.pos + 1) } :: B
                                                                super := o.parent }) := by
    unfold round
    rw [if_neg (by rcases hc with rfl | rfl <;> decide), if_pos hc]
    dsimp only
    rw [if_neg (by omega), close_spec hs ho hk hB _ _ (by omega) (by omega) (by omega)]
  exact Run.one h hr (Nat.le_refl _)

theorem ends_blanks {b rest : Text} (hb : Blanks b) (h : Ends rest) : Ends (b ++ rest) := by
  cases b with
  | nil => exact h
  | cons c b =>
    refine ⟨c, b ++ rest, rfl, ?_⟩
    have := hb c List.mem_cons_self
    simp only [List.mem_cons, List.not_mem_nil, or_false] at this ⊢
    grind

theorem ends_items (is : List (Text × Doc × Text)) (rest : Text) : Ends (writtenItems false is ++ 93 :: rest) := by
  cases is with
  | nil => exact ⟨93, rest, by simp [writtenItems], by decide⟩
  | cons i is =>
    obtain ⟨a, v, b⟩ := i
    exact ⟨44, _, by simp [writtenItems]; rfl, by decide⟩

theorem ends_members (ms : List (Text × List Piece × Text × Text × Doc × Text)) (rest : Text) :
    Ends (writtenMembers false ms ++ 125 :: rest) := by
  cases ms with
  | nil => exact ⟨125, rest, by simp [writtenMembers], by decide⟩
  | cons m ms =>
    obtain ⟨a, k, b, c, v, e⟩ := m
    exact ⟨44, _, by simp [writtenMembers]; rfl, by decide⟩

/-- Before a member of a list: the list is the parent, or the last key is. -/
def Member (first : Bool) (toks : List Tok) (n : Nat) (sup : Option Nat) : Prop :=
  match first with
  | true => sup = some n
  | false => ∃ j t, sup = some j ∧ toks[j]? = some t ∧ t.kind = .str ∧ t.parent = some n

theorem run_comma_arr {k : Nat} {js rest : Text} {s : St} {A B : List Tok} {o : Tok} (hs : s.toks = A ++ o :: B)
    (hk : o.kind = .arr) (hp : s.super = some A.length) (h : js.drop s.pos = 44 :: rest) :
    Run (some k) js s { s with pos := s.pos + 1 } := by
  have hr : round (some k) 44 (44 :: rest) s = .ok (some s) := by
    unfold round
    rw [if_neg (by decide), if_neg (by decide), if_neg (by decide), if_neg (by decide), if_neg (by decide), if_pos rfl, hp]
    dsimp only
    have : s.toks[A.length]? = some o := by rw [hs]; simp
    rw [this]
    dsimp only
    rw [if_neg (by simp [hk])]
  exact Run.one h hr (Nat.le_refl _)

theorem run_comma_obj {k : Nat} {js rest : Text} {s : St} {n : Nat} (hm : Member false s.toks n s.super)
    (h : js.drop s.pos = 44 :: rest) : Run (some k) js s { s with pos := s.pos + 1, super := some n } := by
  obtain ⟨j, t, h1, h2, h3, h4⟩ := hm
  have hr : round (some k) 44 (44 :: rest) s = .ok (some { s with super := some n }) := by
    unfold round
    rw [if_neg (by decide), if_neg (by decide), if_neg (by decide), if_neg (by decide), if_neg (by decide), if_pos rfl, h1]
    dsimp only
    rw [h2]
    dsimp only
    rw [if_pos (by simp [h3]), h4]
  exact Run.one h hr (Nat.le_refl _)

theorem run_colon {k : Nat} {js rest : Text} {s : St} (hs : 0 < s.toks.length) (h : js.drop s.pos = 58 :: rest) :
    Run (some k) js s { s with pos := s.pos + 1, super := some (s.toks.length - 1) } := by
  have hr : round (some k) 58 (58 :: rest) s = .ok (some { s with super := some (s.toks.length - 1) }) := by
    unfold round
    rw [if_neg (by decide), if_neg (by decide), if_neg (by decide), if_neg (by decide), if_pos rfl, if_neg (by omega)]
  exact Run.one h hr (Nat.le_refl _)

mutual
/-- The tokens of a JSON text. -/
theorem run_value (k : Nat) (js : Text) (v : Doc) (N : Text → Prop) (hv : Fine N v) (s : St) (rest : Text)
    (h : js.drop s.pos = v.written ++ rest) (hr : Ends rest ∨ ∃ w ms, v = .obj w ms) (hs : Accepts s.super s.toks)
    (hk : s.toks.length + ntoks v ≤ k) :
    Run (some k) js s { pos := s.pos + v.written.length
                        toks := bumpO s.super s.toks ++ toksOf s.pos s.toks.length s.super v
                        super := s.super
                        count := s.count + ntoks v } := by
  match v with
  | .null =>
    rw [ntoks] at hk
    rw [Doc.written] at h
    have hr : Ends rest := hr.resolve_right (by rintro ⟨_, _, h⟩; cases h)
    have := run_prim (k := k) (s := s) (c := 110) (r := [117, 108, 108]) rfl (by decide) (by decide) hr h hs (by omega)
    rw [toksOf, Doc.written, ntoks]
    exact this
  | .bool true =>
    rw [ntoks] at hk
    rw [Doc.written] at h
    have hr : Ends rest := hr.resolve_right (by rintro ⟨_, _, h⟩; cases h)
    have := run_prim (k := k) (s := s) (c := 116) (r := [114, 117, 101]) rfl (by decide) (by decide) hr h hs (by omega)
    rw [toksOf, Doc.written, ntoks]
    exact this
  | .bool false =>
    rw [ntoks] at hk
    rw [Doc.written] at h
    have hr : Ends rest := hr.resolve_right (by rintro ⟨_, _, h⟩; cases h)
    have := run_prim (k := k) (s := s) (c := 102) (r := [97, 108, 115, 101]) rfl (by decide) (by decide) hr h hs (by omega)
    rw [toksOf, Doc.written, ntoks]
    exact this
  | .num t =>
    rw [ntoks] at hk
    rw [Doc.written] at h
    have hr : Ends rest := hr.resolve_right (by rintro ⟨_, _, h⟩; cases h)
    obtain ⟨⟨⟨c, r, ht, hc⟩, hf⟩, _⟩ := hv
    have := run_prim (k := k) (s := s) ht (by rcases hc with hc | hc <;> simp [hc]) hf hr h hs (by omega)
    rw [toksOf, Doc.written, ntoks]
    exact this
  | .text ps =>
    rw [ntoks] at hk
    rw [Doc.written] at h
    have := run_string (k := k) (s := s) hv h hs.lt (by omega)
    rw [toksOf, Doc.written, ntoks]
    exact this
  | .arr w is =>
    rw [ntoks] at hk
    rw [Doc.written] at h
    obtain ⟨hw, his⟩ := hv
    have hw' : Blanks (if is.isEmpty then w else []) := by
      split
      · exact hw
      · intro c hc; simp at hc
    generalize hwe : (if is.isEmpty then w else []) = w' at *
    have h1 := run_open (k := k) (js := js) (s := s) (c := 91) (Or.inr rfl) (rest := w' ++ writtenItems true is ++ 93 :: rest)
      (by rw [h]; simp) hs.lt (by omega)
    have d1 : js.drop (s.pos + 1) = w' ++ (writtenItems true is ++ 93 :: rest) := drop_add (a := [91]) (by rw [h]; simp)
    have h2 := run_blanks (cap := some k) (js := js) w' hw'
      { pos := s.pos + 1
        toks := bumpO s.super s.toks ++ [⟨.arr, s.pos, none, 0, s.super⟩]
        super := some s.toks.length
        count := s.count + 1 } _ d1
    have d2 := drop_add d1
    have hpos : is ≠ [] → w' = [] := by
      intro hne
      rw [← hwe, if_neg (by simpa using hne)]
    have h3 := run_items k js is N his true
      { pos := s.pos + 1 + w'.length
        toks := bumpO s.super s.toks ++ [⟨.arr, s.pos, none, 0, s.super⟩]
        super := some s.toks.length
        count := s.count + 1 }
      rest (bumpO s.super s.toks) [] ⟨.arr, s.pos, none, 0, s.super⟩ d2 rfl rfl (by rw [bumpO_length])
      (by simp [bumpO_length]; omega)
    have d3 := drop_add d2
    have h4 := run_close (k := k) (js := js) (c := 93) (Or.inr rfl)
      (s := { pos := s.pos + 1 + w'.length + (writtenItems true is).length
              toks := bumpO s.super s.toks ++ (⟨.arr, s.pos, none, 0 + is.length, s.super⟩ : Tok) ::
                ([] ++ toksItems true (s.pos + 1 + w'.length) (bumpO s.super s.toks).length
                  (bumpO s.super s.toks ++ [(⟨.arr, s.pos, none, 0, s.super⟩ : Tok)]).length is)
              super := some s.toks.length
              count := s.count + 1 + ntoksItems is })
      rfl rfl rfl (by
        rw [List.nil_append, List.length_append]
        exact under_toksItems is _ _ _ _ (by simp)) d3
    refine (((h1.trans h2).trans h3).trans h4).cast ?_
    have hlen : (Doc.arr w is).written.length = 1 + w'.length + (writtenItems true is).length + 1 := by
      rw [Doc.written, hwe]; simp; omega
    have hp' : toksItems true (s.pos + 1 + w'.length) s.toks.length (s.toks.length + 1) is =
        toksItems true (s.pos + 1) s.toks.length (s.toks.length + 1) is := by
      cases is with
      | nil => simp [toksItems]
      | cons i is => rw [hpos (by simp)]; rfl
    rw [toksOf, ntoks, hlen]
    simp only [List.length_append, bumpO_length, List.length_cons, List.length_nil, Nat.zero_add, List.nil_append, hp']
    congr 1
    · omega
    · congr 4
      omega
    · omega
  | .obj w ms =>
    rw [ntoks] at hk
    rw [Doc.written] at h
    obtain ⟨hw, hms⟩ := hv
    have hw' : Blanks (if ms.isEmpty then w else []) := by
      split
      · exact hw
      · intro c hc; simp at hc
    generalize hwe : (if ms.isEmpty then w else []) = w' at *
    have h1 := run_open (k := k) (js := js) (s := s) (c := 123) (Or.inl rfl) (rest := w' ++ writtenMembers true ms ++ 125 :: rest)
      (by rw [h]; simp) hs.lt (by omega)
    have d1 : js.drop (s.pos + 1) = w' ++ (writtenMembers true ms ++ 125 :: rest) := drop_add (a := [123]) (by rw [h]; simp)
    have h2 := run_blanks (cap := some k) (js := js) w' hw'
      { pos := s.pos + 1
        toks := bumpO s.super s.toks ++ [⟨.obj, s.pos, none, 0, s.super⟩]
        super := some s.toks.length
        count := s.count + 1 } _ d1
    have d2 := drop_add d1
    have hpos : ms ≠ [] → w' = [] := by
      intro hne
      rw [← hwe, if_neg (by simpa using hne)]
    obtain ⟨sup, h3⟩ := run_members k js ms N hms true
      { pos := s.pos + 1 + w'.length
        toks := bumpO s.super s.toks ++ [⟨.obj, s.pos, none, 0, s.super⟩]
        super := some s.toks.length
        count := s.count + 1 }
      rest (bumpO s.super s.toks) [] ⟨.obj, s.pos, none, 0, s.super⟩ d2 rfl rfl (by rw [bumpO_length]; rfl)
      (by simp [bumpO_length]; omega)
    have d3 := drop_add d2
    have h4 := run_close (k := k) (js := js) (c := 125) (Or.inl rfl)
      (s := { pos := s.pos + 1 + w'.length + (writtenMembers true ms).length
              toks := bumpO s.super s.toks ++ (⟨.obj, s.pos, none, 0 + ms.length, s.super⟩ : Tok) ::
                ([] ++ toksMembers true (s.pos + 1 + w'.length) (bumpO s.super s.toks).length
                  (bumpO s.super s.toks ++ [(⟨.obj, s.pos, none, 0, s.super⟩ : Tok)]).length ms)
              super := sup
              count := s.count + 1 + ntoksMembers ms })
      rfl rfl rfl (by
        rw [List.nil_append, List.length_append]
        exact under_toksMembers ms _ _ _ _ (by simp)) d3
    refine (((h1.trans h2).trans h3).trans h4).cast ?_
    have hlen : (Doc.obj w ms).written.length = 1 + w'.length + (writtenMembers true ms).length + 1 := by
      rw [Doc.written, hwe]; simp; omega
    have hp' : toksMembers true (s.pos + 1 + w'.length) s.toks.length (s.toks.length + 1) ms =
        toksMembers true (s.pos + 1) s.toks.length (s.toks.length + 1) ms := by
      cases ms with
      | nil => simp [toksMembers]
      | cons i is => rw [hpos (by simp)]; rfl
    rw [toksOf, ntoks, hlen]
    simp only [List.length_append, bumpO_length, List.length_cons, List.length_nil, Nat.zero_add, List.nil_append, hp']
    congr 1
    · omega
    · congr 4
      omega
    · omega
/-- The tokens of items. -/
theorem run_items (k : Nat) (js : Text) (is : List (Text × Doc × Text)) (N : Text → Prop) (hv : FineItems N is) (first : Bool)
    (s : St) (rest : Text) (A B : List Tok) (o : Tok) (h : js.drop s.pos = writtenItems first is ++ 93 :: rest)
    (hs : s.toks = A ++ o :: B) (ho : o.kind = .arr) (hp : s.super = some A.length) (hk : s.toks.length + ntoksItems is ≤ k) :
    Run (some k) js s { pos := s.pos + (writtenItems first is).length
                        toks := A ++ { o with size := o.size + is.length } ::
                          (B ++ toksItems first s.pos A.length s.toks.length is)
                        super := s.super
                        count := s.count + ntoksItems is } := by
  match is with
  | [] =>
    refine (Run.refl s).cast ?_
    simp [writtenItems, toksItems, ntoksItems, ← hs]
  | (a, v, b) :: is =>
    rw [ntoksItems] at hk
    rw [writtenItems] at h
    obtain ⟨ha, hv, hb, his⟩ := hv
    have d0 : js.drop s.pos = (if first then [] else [44]) ++ (a ++ (v.written ++ (b ++ (writtenItems false is ++ 93 :: rest)))) := by
      rw [h]; simp
    have h0 : Run (some k) js s { s with pos := s.pos + (if first then 0 else 1) } := by
      cases first with
      | true => exact Run.refl s
      | false => exact run_comma_arr hs ho hp d0
    have d1 : js.drop (s.pos + (if first then 0 else 1)) = a ++ (v.written ++ (b ++ (writtenItems false is ++ 93 :: rest))) := by
      have := drop_add d0
      cases first <;> exact this
    have h1 := run_blanks (cap := some k) (js := js) a ha { s with pos := s.pos + (if first then 0 else 1) } _ d1
    have d2 := drop_add d1
    have h2 := run_value k js v N hv { s with pos := s.pos + (if first then 0 else 1) + a.length } _ d2
      (Or.inl (ends_blanks hb (ends_items is rest)))
      (by
        intro c hc
        dsimp only at hc ⊢
        rw [hp] at hc
        injection hc with hc
        exact ⟨o, by rw [hs, ← hc]; simp, Or.inl ho⟩) (by dsimp only; omega)
    have d3 := drop_add d2
    have h3 := run_blanks (cap := some k) (js := js) b hb
      { pos := s.pos + (if first then 0 else 1) + a.length + v.written.length
        toks := A ++ grow o :: (B ++ toksOf (s.pos + (if first then 0 else 1) + a.length) s.toks.length (some A.length) v)
        super := s.super
        count := s.count + ntoks v } _ d3
    have d4 := drop_add d3
    have h4 := run_items k js is N his false
      { pos := s.pos + (if first then 0 else 1) + a.length + v.written.length + b.length
        toks := A ++ grow o :: (B ++ toksOf (s.pos + (if first then 0 else 1) + a.length) s.toks.length (some A.length) v)
        super := s.super
        count := s.count + ntoks v } rest A
      (B ++ toksOf (s.pos + (if first then 0 else 1) + a.length) s.toks.length (some A.length) v) (grow o) d4 rfl ho hp (by
        have : s.toks.length = A.length + B.length + 1 := by rw [hs]; simp; omega
        simp [toksOf_length]; omega)
    refine ((((h0.trans h1).trans (h2.cast ?_)).trans h3).trans h4).cast ?_
    · dsimp only
      rw [hp, hs, bumpO_mid]
      simp
    · rw [writtenItems, toksItems, ntoksItems]
      have : s.toks.length = A.length + B.length + 1 := by rw [hs]; simp; omega
      congr 1
      · cases first <;> simp <;> omega
      · dsimp only
        have e : (A ++ grow o :: (B ++ toksOf (s.pos + (if first then 0 else 1) + a.length) s.toks.length (some A.length) v)).length
            = s.toks.length + ntoks v := by simp [toksOf_length]; omega
        rw [e]
        simp only [grow, List.length_cons, List.append_assoc]
        rw [show o.size + 1 + is.length = o.size + (is.length + 1) by omega]
      · dsimp only; omega
/-- The tokens of members. -/
theorem run_members (k : Nat) (js : Text) (ms : List (Text × List Piece × Text × Text × Doc × Text)) (N : Text → Prop)
    (hv : FineMembers N ms) (first : Bool)
    (s : St) (rest : Text) (A B : List Tok) (o : Tok) (h : js.drop s.pos = writtenMembers first ms ++ 125 :: rest)
    (hs : s.toks = A ++ o :: B) (ho : o.kind = .obj) (hp : Member first s.toks A.length s.super)
    (hk : s.toks.length + ntoksMembers ms ≤ k) : ∃ sup,
    Run (some k) js s { pos := s.pos + (writtenMembers first ms).length
                        toks := A ++ { o with size := o.size + ms.length } ::
                          (B ++ toksMembers first s.pos A.length s.toks.length ms)
                        super := sup
                        count := s.count + ntoksMembers ms } := by
  match ms with
  | [] =>
    refine ⟨s.super, (Run.refl s).cast ?_⟩
    simp [writtenMembers, toksMembers, ntoksMembers, ← hs]
  | (a, key, b, c, v, e) :: ms =>
    rw [ntoksMembers] at hk
    rw [writtenMembers] at h
    obtain ⟨ha, hkey, hb, hc, hv, he, hms⟩ := hv
    have hsl : s.toks.length = A.length + B.length + 1 := by rw [hs]; simp; omega
    have d0 : js.drop s.pos = (if first then [] else [44]) ++ (a ++ (quoted key ++ (b ++ ([58] ++ (c ++ (v.written ++ (e ++
        (writtenMembers false ms ++ 125 :: rest)))))))) := by
      rw [h]; simp
    have h0 : Run (some k) js s { s with pos := s.pos + (if first then 0 else 1), super := some A.length } := by
      cases first with
      | true => exact (Run.refl s).cast (by rw [← hp]; rfl)
      | false => exact run_comma_obj hp d0
    have d1 : js.drop (s.pos + (if first then 0 else 1)) = a ++ (quoted key ++ (b ++ ([58] ++ (c ++ (v.written ++ (e ++
        (writtenMembers false ms ++ 125 :: rest))))))) := by
      have := drop_add d0
      cases first <;> exact this
    generalize hp0 : s.pos + (if first then 0 else 1) = p0 at h0 d1
    have h1 := run_blanks (cap := some k) (js := js) a ha { s with pos := p0, super := some A.length } _ d1
    have d2 := drop_add d1
    have h2 := run_string (k := k) (s := { s with pos := p0 + a.length, super := some A.length }) hkey d2
      (by intro x hx; injection hx with hx; dsimp only; omega) (by dsimp only; omega)
    have d3 := drop_add d2
    let key0 : Tok := ⟨.str, p0 + a.length + 1, some (p0 + a.length + 1 + (key.flatMap Piece.written).length), 0, some A.length⟩
    have h3 := run_blanks (cap := some k) (js := js) b hb
      { pos := p0 + a.length + (quoted key).length
        toks := A ++ grow o :: (B ++ [key0])
        super := some A.length
        count := s.count + 1 } _ d3
    have d4 := drop_add d3
    have hl0 : (A ++ grow o :: (B ++ [key0])).length = s.toks.length + 1 := by simp; omega
    have h4 := run_colon (k := k) (js := js) (s :=
      { pos := p0 + a.length + (quoted key).length + b.length
        toks := A ++ grow o :: (B ++ [key0])
        super := some A.length
        count := s.count + 1 }) (by dsimp only; omega) d4
    have d5 : js.drop (p0 + a.length + (quoted key).length + b.length + 1) = c ++ (v.written ++ (e ++
        (writtenMembers false ms ++ 125 :: rest))) := drop_add (a := [58]) d4
    have h5 := run_blanks (cap := some k) (js := js) c hc
      { pos := p0 + a.length + (quoted key).length + b.length + 1
        toks := A ++ grow o :: (B ++ [key0])
        super := some s.toks.length
        count := s.count + 1 } _ d5
    have d6 := drop_add d5
    have hmid : A ++ grow o :: (B ++ [key0]) = (A ++ grow o :: B) ++ key0 :: [] := by simp
    have hml : (A ++ grow o :: B).length = s.toks.length := by simp; omega
    have h6 := run_value k js v N hv
      { pos := p0 + a.length + (quoted key).length + b.length + 1 + c.length
        toks := A ++ grow o :: (B ++ [key0])
        super := some s.toks.length
        count := s.count + 1 } _ d6 (Or.inl (ends_blanks he (ends_members ms rest)))
      (by
        intro x hx
        injection hx with hx
        refine ⟨key0, ?_, Or.inr ⟨rfl, rfl⟩⟩
        dsimp only
        rw [hmid, ← hx, ← hml]
        simp) (by dsimp only; omega)
    have d7 := drop_add d6
    generalize hq : p0 + a.length + (quoted key).length + b.length + 1 + c.length = q at h6 d7
    have h7 := run_blanks (cap := some k) (js := js) e he
      { pos := q + v.written.length
        toks := A ++ grow o :: (B ++ grow key0 :: toksOf q (s.toks.length + 1) (some s.toks.length) v)
        super := some s.toks.length
        count := s.count + 1 + ntoks v } _ d7
    have d8 := drop_add d7
    have hl8 : (A ++ grow o :: (B ++ grow key0 :: toksOf q (s.toks.length + 1) (some s.toks.length) v)).length =
        s.toks.length + 1 + ntoks v := by simp [toksOf_length]; omega
    obtain ⟨sup, h8⟩ := run_members k js ms N hms false
      { pos := q + v.written.length + e.length
        toks := A ++ grow o :: (B ++ grow key0 :: toksOf q (s.toks.length + 1) (some s.toks.length) v)
        super := some s.toks.length
        count := s.count + 1 + ntoks v } rest A
      (B ++ grow key0 :: toksOf q (s.toks.length + 1) (some s.toks.length) v) (grow o) d8 rfl ho
      ⟨s.toks.length, grow key0, rfl, by
        dsimp only
        rw [show A ++ grow o :: (B ++ grow key0 :: toksOf q (s.toks.length + 1) (some s.toks.length) v) =
          (A ++ grow o :: B) ++ grow key0 :: toksOf q (s.toks.length + 1) (some s.toks.length) v by simp, ← hml]
        simp, rfl, rfl⟩ (by dsimp only; omega)
    refine ⟨sup, ((((((((h0.trans h1).trans (h2.cast ?_)).trans h3).trans (h4.cast ?_)).trans (h5.cast ?_)).trans
      (h6.cast ?_)).trans h7).trans h8).cast ?_⟩
    · dsimp only
      rw [hs, bumpO_mid]
      simp [key0]
    · dsimp only
      rw [hl0]
      rfl
    · rw [hq]
    · dsimp only
      rw [hl0]
      congr 1
      rw [hmid, ← hml, bumpO_mid]
      simp
    · rw [writtenMembers, toksMembers, ntoksMembers]
      dsimp only
      rw [hl8]
      congr 1
      · rw [← hq, ← hp0]
        cases first <;> simp <;> omega
      · rw [hp0, hq]
        simp only [grow, List.length_cons, List.append_assoc, List.cons_append, key0]
        rw [show o.size + 1 + ms.length = o.size + (ms.length + 1) by omega]
      · omega
end

end Verif.Lemmas.Json
