import Verif.Lemmas.JsonLock

/-!
# From tokens to values: lemmas
-/

namespace Verif.Lemmas.Json
open Verif Verif.Spec.Json Verif.Model.Json
open Verif.Model (Text)
open Verif.Model.Num (Seps)

variable {D : Type} (fl : Floats D) (sp : Seps) (other : V D → Out Text) (data : Text) (T : List Tok) (N : Text → Prop)
  (read : Text → D) (hN : ∀ t, N t → fl.read (Model.Num.numberFromText sp t) = read t)

omit hN in
theorem take_drop {a b : Text} {p : Nat} (h : data.drop p = a ++ b) : (data.drop p).take (p + a.length - p) = a := by
  rw [h, Nat.add_sub_cancel_left, List.take_left]

omit hN in
theorem drop_length {a b : Text} {p : Nat} (h : data.drop p = a ++ b) (ha : a ++ b ≠ []) :
    p < data.length ∧ p + a.length ≤ data.length := by
  have h1 := congrArg List.length h
  have h2 : (a ++ b).length ≠ 0 := by simpa using ha
  rw [List.length_append] at h1 h2
  rw [List.length_drop] at h1
  omega

omit hN in
theorem getD_drop {c : UInt8} {b : Text} {p : Nat} (h : data.drop p = c :: b) : data.getD p 0 = c := by
  have : (data.drop p)[0]? = some c := by rw [h]; rfl
  rw [List.getElem?_drop, Nat.add_zero] at this
  rw [List.getD_eq_getElem?_getD, this]
  rfl

omit hN in
theorem tokAt_drop {i : Nat} {t : Tok} {more : List Tok} (h : T.drop i = t :: more) : tokAt T.length T i = .ok t := by
  have : (T.drop i)[0]? = some t := by rw [h]; rfl
  rw [List.getElem?_drop, Nat.add_zero] at this
  have hi : i < T.length := by
    rcases Nat.lt_or_ge i T.length with h | h
    · exact h
    · rw [List.getElem?_eq_none h] at this; cases this
  unfold tokAt
  rw [if_pos hi, List.getD_eq_getElem?_getD, this]
  rfl

omit hN in
theorem toks_drop {a b : List Tok} {i : Nat} (h : T.drop i = a ++ b) : T.drop (i + a.length) = b := by
  rw [← List.drop_drop, h, List.drop_left]

omit hN in
/-- A text in quotes. -/
theorem dump_string {ps : List Piece} (hp : FinePieces ps) {p i sz : Nat} {par : Option Nat} {rest : Text} {more : List Tok}
    (h : data.drop p = quoted ps ++ rest)
    (ht : T.drop i = ⟨.str, p + 1, some (p + 1 + (ps.flatMap Piece.written).length), sz, par⟩ :: more) (fuel : Nat) :
    dump fl sp other data T.length T (fuel + 1) i false = .ok (.text (ps.map Piece.meant), i + 1, false) := by
  have h1 : data.drop (p + 1) = ps.flatMap Piece.written ++ (34 :: rest) := drop_add (a := [34]) (by rw [h]; simp [quoted])
  obtain ⟨h2, h3⟩ := drop_length data h1 (by simp)
  unfold dump
  rw [if_neg (by decide), tokAt_drop T ht, Out.ok_bind]
  dsimp only
  rw [if_neg (by omega), take_drop data h1, unescape_pieces ps hp]
  rfl

omit hN in
/-- A primitive. -/
theorem dump_prim {c : UInt8} {r rest : Text} {p i : Nat} {par : Option Nat} {more : List Tok} {e : Nat}
    (h : data.drop p = (c :: r) ++ rest) (he : e = p + (c :: r).length)
    (ht : T.drop i = ⟨.prim, p, some e, 0, par⟩ :: more) (fuel : Nat) :
    dump fl sp other data T.length T (fuel + 1) i false =
      if c = 116 then .ok (.bool true, i + 1, false)
      else if c = 102 then .ok (.bool false, i + 1, false)
      else if c = 110 then .ok (.nil, i + 1, false)
      else if c = 45 ∨ (48 ≤ c.toNat ∧ c.toNat ≤ 57) then
        .ok (.num (fl.read (Model.Num.numberFromText sp (c :: r))) none, i + 1, false)
      else .ok (.nil, i + 1, false) := by
  obtain ⟨h2, h3⟩ := drop_length data h (by simp)
  unfold dump
  rw [if_neg (by decide), tokAt_drop T ht, Out.ok_bind]
  subst he
  dsimp only
  rw [if_neg (by omega), take_drop data h, getD_drop data (c := c) h]

omit hN in
theorem ntoks_pos (v : Doc) : 1 ≤ ntoks v := by
  cases v <;> simp only [ntoks] <;> omega

set_option linter.unusedSectionVars false
include hN
mutual
/-- The value of a JSON text. -/
theorem dump_value (v : Doc) (hv : Fine N v) (p i base : Nat) (par : Option Nat) (rest : Text) (more : List Tok)
    (h : data.drop p = v.written ++ rest) (ht : T.drop i = toksOf p base par v ++ more) (fuel : Nat) (hf : ntoks v ≤ fuel) :
    dump fl sp other data T.length T fuel i false = .ok (v.meant read, i + ntoks v, false) := by
  obtain ⟨fuel, rfl⟩ : ∃ f, fuel = f + 1 := ⟨fuel - 1, by have := ntoks_pos v; omega⟩
  match v with
  | .null =>
    rw [toksOf] at ht
    rw [Doc.written] at h
    rw [dump_prim fl sp other data T h rfl ht fuel, Doc.meant, ntoks]
    rfl
  | .bool true =>
    rw [toksOf] at ht
    rw [Doc.written] at h
    rw [dump_prim fl sp other data T h rfl ht fuel, Doc.meant, ntoks]
    rfl
  | .bool false =>
    rw [toksOf] at ht
    rw [Doc.written] at h
    rw [dump_prim fl sp other data T h rfl ht fuel, Doc.meant, ntoks]
    rfl
  | .num t =>
    rw [toksOf] at ht
    rw [Doc.written] at h
    obtain ⟨⟨⟨c, r, rfl, hc⟩, hf⟩, hn⟩ := hv
    rw [dump_prim fl sp other data T h rfl ht fuel, Doc.meant, ntoks, ← hN _ hn]
    have h1 : c ≠ 116 := by rintro rfl; revert hc; decide
    have h2 : c ≠ 102 := by rintro rfl; revert hc; decide
    have h3 : c ≠ 110 := by rintro rfl; revert hc; decide
    rw [if_neg h1, if_neg h2, if_neg h3, if_pos hc]
  | .text ps =>
    rw [toksOf] at ht
    rw [Doc.written] at h
    rw [dump_string fl sp other data T hv h ht fuel, Doc.meant, ntoks]
  | .arr w is =>
    rw [toksOf] at ht
    rw [ntoks] at hf
    obtain ⟨h2, h3⟩ := drop_length data h (by rw [Doc.written]; simp)
    rw [Doc.written] at h
    obtain ⟨hw, his⟩ := hv
    have d1 : data.drop (p + 1) = (if is.isEmpty then w else []) ++ (writtenItems true is ++ 93 :: rest) :=
      drop_add (a := [91]) (by rw [h]; simp)
    have hi := dump_items is his true (p + 1) (i + 1) base (base + 1) (93 :: rest) more (by
      intro hne
      rw [d1, if_neg (by simpa using hne), List.nil_append]) (toks_drop T (a := [_]) ht) fuel (by omega) []
    unfold dump
    rw [if_neg (by decide), tokAt_drop T ht, Out.ok_bind]
    dsimp only
    rw [if_neg (by omega), hi, Out.ok_bind, Doc.meant, ntoks]
    dsimp only
    rw [List.nil_append, Nat.add_assoc]
  | .obj w ms =>
    rw [toksOf] at ht
    rw [ntoks] at hf
    obtain ⟨h2, h3⟩ := drop_length data h (by rw [Doc.written]; simp)
    rw [Doc.written] at h
    obtain ⟨hw, hms⟩ := hv
    have d1 : data.drop (p + 1) = (if ms.isEmpty then w else []) ++ (writtenMembers true ms ++ 125 :: rest) :=
      drop_add (a := [123]) (by rw [h]; simp)
    have hi := dump_members ms hms true (p + 1) (i + 1) base (base + 1) (125 :: rest) more (by
      intro hne
      rw [d1, if_neg (by simpa using hne), List.nil_append]) (toks_drop T (a := [_]) ht) fuel (by omega) []
    unfold dump
    rw [if_neg (by decide), tokAt_drop T ht, Out.ok_bind]
    dsimp only
    rw [if_neg (by omega), hi, Out.ok_bind, Doc.meant, ntoks]
    dsimp only
    rw [Nat.add_assoc]
/-- The items of a sequence. -/
theorem dump_items (is : List (Text × Doc × Text)) (hv : FineItems N is) (first : Bool) (p i c base : Nat) (rest : Text)
    (more : List Tok) (h : is ≠ [] → data.drop p = writtenItems first is ++ rest)
    (ht : T.drop i = toksItems first p c base is ++ more) (fuel : Nat) (hf : ntoksItems is ≤ fuel) (acc : List (V D)) :
    dumpItems (dump fl sp other data T.length T fuel) is.length i false acc =
      .ok (acc ++ meantItems read is, i + ntoksItems is, false) := by
  match is with
  | [] => rw [meantItems, ntoksItems, List.append_nil]; rfl
  | (a, v, b) :: is =>
    have h := h (by simp)
    rw [ntoksItems] at hf
    rw [writtenItems] at h
    rw [toksItems] at ht
    obtain ⟨ha, hv, hb, his⟩ := hv
    have d0 : data.drop p = (if first then [] else [44]) ++ (a ++ (v.written ++ (b ++ (writtenItems false is ++ rest)))) := by
      rw [h]; simp
    have d1 : data.drop (p + (if first then 0 else 1)) = a ++ (v.written ++ (b ++ (writtenItems false is ++ rest))) := by
      have := drop_add d0
      cases first <;> exact this
    have d2 := drop_add d1
    have d4 := drop_add (drop_add d2)
    rw [List.append_assoc] at ht
    have h1 := dump_value v hv _ i base (some c) _ _ d2 ht fuel (by omega)
    have t2 := toks_drop T ht
    rw [toksOf_length] at t2
    have h2 := dump_items is his false _ _ c _ rest more (fun _ => d4) t2 fuel (by omega) (acc ++ [v.meant read])
    rw [List.length_cons]
    unfold dumpItems
    rw [h1, Out.ok_bind]
    dsimp only
    rw [h2, meantItems, ntoksItems]
    simp [Nat.add_assoc]
/-- The entries of a list. -/
theorem dump_members (ms : List (Text × List Piece × Text × Text × Doc × Text)) (hv : FineMembers N ms) (first : Bool)
    (p i c base : Nat) (rest : Text) (more : List Tok) (h : ms ≠ [] → data.drop p = writtenMembers first ms ++ rest)
    (ht : T.drop i = toksMembers first p c base ms ++ more) (fuel : Nat) (hf : ntoksMembers ms ≤ fuel)
    (acc : List (Text × V D)) :
    dumpEntries (keyOf other) (dump fl sp other data T.length T fuel) ms.length i false acc =
      .ok (meantMembers read acc ms, i + ntoksMembers ms, false) := by
  match ms with
  | [] => rw [meantMembers, ntoksMembers]; rfl
  | (a, k, b, c', v, e) :: ms =>
    have h := h (by simp)
    rw [ntoksMembers] at hf
    rw [writtenMembers] at h
    rw [toksMembers, List.cons_append, List.append_assoc] at ht
    obtain ⟨ha, hk, hb, hc, hv, he, hms⟩ := hv
    have d0 : data.drop p = (if first then [] else [44]) ++ (a ++ (quoted k ++ (b ++ ([58] ++ (c' ++ (v.written ++ (e ++
        (writtenMembers false ms ++ rest)))))))) := by
      rw [h]; simp
    have d1 : data.drop (p + (if first then 0 else 1)) = a ++ (quoted k ++ (b ++ ([58] ++ (c' ++ (v.written ++ (e ++
        (writtenMembers false ms ++ rest))))))) := by
      have := drop_add d0
      cases first <;> exact this
    have d2 := drop_add d1
    have d6 := drop_add (drop_add (drop_add (drop_add d2)))
    have d8 := drop_add (drop_add d6)
    obtain ⟨f', rfl⟩ : ∃ f, fuel = f + 1 := ⟨fuel - 1, by omega⟩
    have h1 := dump_string fl sp other data T hk d2 ht f'
    have t1 := toks_drop T (a := [_]) ht
    have h2 := dump_value v hv _ _ _ _ _ _ d6 t1 (f' + 1) (by omega)
    have t2 := toks_drop T t1
    rw [toksOf_length] at t2
    have h3 := dump_members ms hms false _ _ c _ rest more (fun _ => d8) t2 (f' + 1) (by omega)
      (enter acc (k.map Piece.meant) (v.meant read))
    rw [List.length_cons]
    unfold dumpEntries
    rw [h1, Out.ok_bind]
    dsimp only
    have h2' : dump fl sp other data T.length T (f' + 1) (i + 1) false = .ok (v.meant read, i + 1 + ntoks v, false) := h2
    rw [h2', Out.ok_bind]
    dsimp only
    rw [if_neg (by decide)]
    have hkey : keyOf other (V.text (k.map Piece.meant)) = .ok (k.map Piece.meant) := rfl
    rw [hkey, Out.ok_bind]
    rw [meantMembers, ntoksMembers]
    have h3' : dumpEntries (keyOf other) (dump fl sp other data T.length T (f' + 1)) ms.length (i + 1 + ntoks v) false
      (enter acc (k.map Piece.meant) (v.meant read)) = _ := h3
    rw [h3']
    congr 3
    simp
    omega
end

omit hN

/-! ## No zero byte -/

theorem pieces_nonzero (ps : List Piece) (h : FinePieces ps) : ∀ c ∈ quoted ps, c ≠ 0 := by
  have h1 : ∀ c ∈ ps.flatMap Piece.written, c ≠ 0 := by
    induction ps with
    | nil => intro c hc; simp at hc
    | cons p ps ih =>
      cases p with
      | byte x =>
        obtain ⟨h1, h2⟩ := h
        intro c hc
        simp only [List.flatMap_cons, Piece.written, List.cons_append, List.nil_append, List.mem_cons] at hc
        rcases hc with rfl | hc
        · rintro rfl; exact h1 (by decide)
        · exact ih h2 c hc
      | esc x =>
        obtain ⟨h1, _, h2⟩ := h
        intro c hc
        simp only [List.flatMap_cons, Piece.written, List.cons_append, List.nil_append, List.mem_cons] at hc
        rcases hc with rfl | rfl | hc
        · decide
        · rintro rfl; revert h1; decide
        · exact ih h2 c hc
      | uni => exact h.elim
  intro c hc
  simp only [quoted, List.cons_append, List.mem_cons, List.mem_append] at hc
  rcases hc with rfl | hc | rfl | hc
  · decide
  · exact h1 c hc
  · decide
  · cases hc

theorem blanks_nonzero {w : Text} (h : Blanks w) : ∀ c ∈ w, c ≠ 0 := by
  intro c hc
  have := h c hc
  rintro rfl
  revert this
  decide

mutual
theorem written_nonzero (v : Doc) (N : Text → Prop) (h : Fine N v) : ∀ c ∈ v.written, c ≠ 0 := by
  match v with
  | .null => rw [Doc.written]; decide
  | .bool true => rw [Doc.written]; decide
  | .bool false => rw [Doc.written]; decide
  | .num t =>
    rw [Doc.written]
    intro c hc
    have := (h.1.2 c hc).1
    rintro rfl
    simp at this
  | .text ps => rw [Doc.written]; exact pieces_nonzero ps h
  | .arr w is =>
    rw [Doc.written]
    intro c hc
    simp only [List.cons_append, List.mem_cons, List.mem_append, List.append_assoc] at hc
    rcases hc with rfl | hc | hc | rfl | hc
    · decide
    · split at hc
      · exact blanks_nonzero h.1 c hc
      · cases hc
    · exact items_nonzero is N h.2 _ c hc
    · decide
    · cases hc
  | .obj w ms =>
    rw [Doc.written]
    intro c hc
    simp only [List.cons_append, List.mem_cons, List.mem_append, List.append_assoc] at hc
    rcases hc with rfl | hc | hc | rfl | hc
    · decide
    · split at hc
      · exact blanks_nonzero h.1 c hc
      · cases hc
    · exact members_nonzero ms N h.2 _ c hc
    · decide
    · cases hc
theorem items_nonzero (is : List (Text × Doc × Text)) (N : Text → Prop) (h : FineItems N is) (first : Bool) :
    ∀ c ∈ writtenItems first is, c ≠ 0 := by
  match is with
  | [] => rw [writtenItems]; intro c hc; cases hc
  | (a, v, b) :: is =>
    obtain ⟨ha, hv, hb, his⟩ := h
    rw [writtenItems]
    intro c hc
    simp only [List.mem_append] at hc
    rcases hc with (((hc | hc) | hc) | hc) | hc
    · cases first
      · simp at hc; rw [hc]; decide
      · simp at hc
    · exact blanks_nonzero ha c hc
    · exact written_nonzero v N hv c hc
    · exact blanks_nonzero hb c hc
    · exact items_nonzero is N his _ c hc
theorem members_nonzero (ms : List (Text × List Piece × Text × Text × Doc × Text)) (N : Text → Prop) (h : FineMembers N ms)
    (first : Bool) : ∀ c ∈ writtenMembers first ms, c ≠ 0 := by
  match ms with
  | [] => rw [writtenMembers]; intro c hc; cases hc
  | (a, k, b, c', v, e) :: ms =>
    obtain ⟨ha, hk, hb, hc', hv, he, hms⟩ := h
    rw [writtenMembers]
    intro c hc
    simp only [List.mem_append, List.mem_cons] at hc
    rcases hc with (((((((hc | hc) | hc) | hc) | hc | hc) | hc) | hc) | hc)
    · cases first
      · simp at hc; rw [hc]; decide
      · simp at hc
    · exact blanks_nonzero ha c hc
    · exact pieces_nonzero k hk c hc
    · exact blanks_nonzero hb c hc
    · rw [hc]; decide
    · exact blanks_nonzero hc' c hc
    · exact written_nonzero v N hv c hc
    · exact blanks_nonzero he c hc
    · exact members_nonzero ms N hms _ c hc
end

mutual
theorem fine_nonzero (v : Doc) (N : Text → Prop) (h : Fine N v) : Fine (fun t => N t ∧ ∀ c ∈ t, c ≠ 0) v := by
  match v with
  | .null => trivial
  | .bool _ => trivial
  | .num t =>
    have := written_nonzero (.num t) N h
    rw [Doc.written] at this
    exact ⟨h.1, h.2, this⟩
  | .text ps => exact h
  | .arr w is => exact ⟨h.1, fine_items is N h.2⟩
  | .obj w ms => exact ⟨h.1, fine_members ms N h.2⟩
theorem fine_items (is : List (Text × Doc × Text)) (N : Text → Prop) (h : FineItems N is) :
    FineItems (fun t => N t ∧ ∀ c ∈ t, c ≠ 0) is := by
  match is with
  | [] => trivial
  | (a, v, b) :: is => exact ⟨h.1, fine_nonzero v N h.2.1, h.2.2.1, fine_items is N h.2.2.2⟩
theorem fine_members (ms : List (Text × List Piece × Text × Text × Doc × Text)) (N : Text → Prop) (h : FineMembers N ms) :
    FineMembers (fun t => N t ∧ ∀ c ∈ t, c ≠ 0) ms := by
  match ms with
  | [] => trivial
  | (a, k, b, c, v, e) :: ms =>
    obtain ⟨h1, h2, h3, h4, h5, h6, h7⟩ := h
    exact ⟨h1, h2, h3, h4, fine_nonzero v N h5, h6, fine_members ms N h7⟩
end

include hN in
/-- Reading a whole text. -/
theorem parse_doc {w : Text} {ms : List (Text × List Piece × Text × Text × Doc × Text)} (hv : Fine N (.obj w ms)) {a b : Text}
    (ha : Blanks a) (hb : Blanks b) (hlen : (a ++ (Doc.obj w ms).written ++ b).length < 2 ^ 31) :
    parse fl sp other (a ++ (Doc.obj w ms).written ++ b) = .ok ((Doc.obj w ms).meant read, false) := by
  generalize hv0 : Doc.obj w ms = v at *
  have hnz : (a ++ v.written ++ b).filter (· ≠ 0) = a ++ v.written ++ b := by
    rw [List.filter_eq_self]
    intro c hc
    simp only [List.mem_append] at hc
    have : c ≠ 0 := by
      rcases hc with (hc | hc) | hc
      · exact blanks_nonzero ha c hc
      · exact written_nonzero v N hv c hc
      · exact blanks_nonzero hb c hc
    simpa using this
  generalize hjs : a ++ v.written ++ b = js at *
  have d0 : js.drop Model.Json.start.pos = a ++ (v.written ++ b) := by rw [← hjs]; simp [Model.Json.start]
  have r1 := run_blanks (cap := some (ntoks v)) (js := js) a ha Model.Json.start _ d0
  have d1 := drop_add d0
  have r2 := run_value (ntoks v) js v N hv { Model.Json.start with pos := Model.Json.start.pos + a.length } b d1
    (Or.inr ⟨w, ms, hv0.symm⟩) (by intro c hc; cases hc) (by simp [Model.Json.start])
  have d2 := drop_add d1
  have r3 := run_blanks (cap := some (ntoks v)) (js := js) b hb
    { pos := a.length + v.written.length
      toks := toksOf a.length 0 none v
      super := none
      count := ntoks v } [] (by rw [List.append_nil]; rw [Model.Json.start, Nat.zero_add] at d2; exact d2)
  have e2 : St.mk (Model.Json.start.pos + a.length + v.written.length)
      (bumpO Model.Json.start.super Model.Json.start.toks ++
        toksOf (Model.Json.start.pos + a.length) Model.Json.start.toks.length Model.Json.start.super v) Model.Json.start.super
      (Model.Json.start.count + ntoks v) = St.mk (a.length + v.written.length) (toksOf a.length 0 none v) none (ntoks v) := by
    rw [Model.Json.start]; simp [bumpO]
  have r := (r1.trans (r2.cast e2)).trans r3
  obtain ⟨n, hn, hr⟩ := r
  have hend : a.length + v.written.length + b.length = js.length := by rw [← hjs, List.length_append, List.length_append]
  have hn' : n ≤ js.length := by
    have : Model.Json.start.pos = 0 := rfl
    rw [this] at hn
    dsimp only at hn
    omega
  have hall : (toksOf a.length 0 none v).all (fun t => t.fin ≠ none) = true := by
    subst hv0
    rw [toksOf, List.all_cons]
    have := under_toksMembers ms true (a.length + 1) 0 1 (by omega)
    simp only [Bool.and_eq_true, List.all_eq_true]
    refine ⟨by simp, ?_⟩
    intro t ht
    obtain ⟨j, hj⟩ := List.getElem?_of_mem ht
    have := (this j t hj).1
    simpa using this
  have pass2 : Model.Json.tokenize (some (ntoks v)) js (js.length + 1) Model.Json.start =
      .ok (⟨js.length, toksOf a.length 0 none v, none, ntoks v⟩, true) := by
    have := hr (js.length - n + 1)
    rw [show js.length - n + 1 + n = js.length + 1 by omega] at this
    rw [this, hend]
    unfold Model.Json.tokenize
    rw [List.drop_length]
    dsimp only
    rw [hall]
    rfl
  have pass1 : Model.Json.tokenize none js (js.length + 1) Model.Json.start = .ok (⟨js.length, [], none, ntoks v⟩, true) := by
    obtain ⟨s', good, e1, e2, e3⟩ := Inv.tokenize (k := ntoks v) (js.length + 1) Model.Json.start (Inv.begin js _)
    rw [pass2] at e1
    injection e1 with e1
    injection e1 with e1 e4
    subst e1
    exact e3 e4.symm
  have hlenT : (toksOf a.length 0 none v).length = ntoks v := toksOf_length v _ _ _
  have hd := dump_value fl sp other js (toksOf a.length 0 none v) N read hN v hv a.length 0 0 none b []
    (by simpa [Model.Json.start] using d1) (by simp) (ntoks v + 1) (by omega)
  have hpos := ntoks_pos v
  have hkind : ((toksOf a.length 0 none v).getD 0 .fresh).kind = .obj := by subst hv0; rw [toksOf]; rfl
  unfold parse
  rw [hnz]
  dsimp only
  rw [if_neg (by omega), pass1, Out.ok_bind]
  dsimp only
  rw [if_neg (by simp; omega), pass2, Out.ok_bind]
  dsimp only
  rw [hlenT] at hd
  rw [if_neg (by rw [hkind]; simp), hd]
  rfl

end Verif.Lemmas.Json
