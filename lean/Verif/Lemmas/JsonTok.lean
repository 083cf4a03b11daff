import Verif.Lemmas.JsonText

/-!
# The tokens of a JSON text: lemmas
-/

namespace Verif.Lemmas.Json
open Verif Verif.Spec.Json Verif.Model.Json
open Verif.Model (Text)

/-! ## Running the tokenizer -/

/-- The tokenizer gets from one state to the other. -/
def Run (cap : Option Nat) (js : Text) (s s' : St) : Prop :=
  ∃ n, s.pos + n ≤ s'.pos ∧ ∀ f, tokenize cap js (f + n) s = tokenize cap js f s'

theorem Run.refl {cap : Option Nat} {js : Text} (s : St) : Run cap js s s := ⟨0, Nat.le_refl _, fun _ => rfl⟩

theorem Run.trans {cap : Option Nat} {js : Text} {a b c : St} (h1 : Run cap js a b) (h2 : Run cap js b c) : Run cap js a c := by
  obtain ⟨n, hn, e1⟩ := h1
  obtain ⟨m, hm, e2⟩ := h2
  refine ⟨m + n, by omega, fun f => ?_⟩
  rw [← Nat.add_assoc, e1, e2]

theorem Run.one {cap : Option Nat} {js rest : Text} {s s1 : St} {c : UInt8} (h : js.drop s.pos = c :: rest)
    (hr : round cap c (c :: rest) s = .ok (some s1)) (hp : s.pos ≤ s1.pos) : Run cap js s { s1 with pos := s1.pos + 1 } := by
  refine ⟨1, by dsimp only; omega, fun f => ?_⟩
  conv => lhs; unfold tokenize
  rw [h]
  dsimp only
  rw [hr]
  rfl

theorem drop_add {js a b : Text} {p : Nat} (h : js.drop p = a ++ b) : js.drop (p + a.length) = b := by
  rw [← List.drop_drop, h, List.drop_left]

/-- Blanks are skipped. -/
theorem run_blanks {cap : Option Nat} {js : Text} (w : Text) (hw : Blanks w) : ∀ (s : St) (rest : Text),
    js.drop s.pos = w ++ rest → Run cap js s { s with pos := s.pos + w.length } := by
  induction w with
  | nil => intro s rest _; exact Run.refl _
  | cons c w ih =>
    intro s rest h
    have hc : c ∈ ([9, 10, 13, 32] : List UInt8) := hw c List.mem_cons_self
    have hr : round cap c (c :: (w ++ rest)) s = .ok (some s) := by
      have : c = 9 ∨ c = 10 ∨ c = 13 ∨ c = 32 := by simpa using hc
      rcases this with rfl | rfl | rfl | rfl <;> rfl
    have h1 := Run.one (cap := cap) h hr (Nat.le_refl _)
    have h2 := ih (fun x hx => hw x (List.mem_cons_of_mem _ hx)) { s with pos := s.pos + 1 } rest
      (drop_add (a := [c]) h)
    have := h1.trans h2
    rw [List.length_cons]
    have e : s.pos + (w.length + 1) = s.pos + 1 + w.length := by omega
    rw [e]
    exact this

/-! ## Lengths of texts in quotes and primitives -/

theorem stringLength_pieces (ps : List Piece) (h : FinePieces ps) (rest : Text) :
    stringLength 0 (ps.flatMap Piece.written ++ 34 :: rest) = some (ps.flatMap Piece.written).length := by
  induction ps with
  | nil =>
    show stringLength 0 (34 :: rest) = some 0
    unfold stringLength
    rw [if_pos rfl]
  | cons p ps ih =>
    cases p with
    | byte c =>
      obtain ⟨h1, h2⟩ := h
      have hc : c ≠ 92 ∧ c ≠ 34 := ⟨fun e => h1 (by simp [e]), fun e => h1 (by simp [e])⟩
      simp only [List.flatMap_cons, Piece.written, List.cons_append, List.nil_append, List.length_cons]
      unfold stringLength
      rw [if_neg hc.2, if_neg hc.1, ih h2]
      rfl
    | esc c =>
      obtain ⟨h1, _, h2⟩ := h
      simp only [List.flatMap_cons, Piece.written, List.cons_append, List.nil_append, List.length_cons]
      unfold stringLength
      rw [if_neg (by decide), if_pos rfl]
      dsimp only
      rw [if_pos, ih h2]
      · rfl
      · have : c = 34 ∨ c = 92 ∨ c = 98 ∨ c = 110 ∨ c = 114 ∨ c = 116 := by simpa [usual] using h1
        rcases this with rfl | rfl | rfl | rfl | rfl | rfl <;> decide
    | uni a b c d => exact h.elim

/-- What may follow a primitive. -/
def Ends (rest : Text) : Prop := ∃ c r, rest = c :: r ∧ c ∈ ([9, 13, 10, 32, 44, 93, 125] : List UInt8)

theorem primLength_eq (t rest : Text) (h : ∀ c ∈ t, 32 < c.toNat ∧ c.toNat < 127 ∧ c ∉ ([44, 58, 93, 125] : List UInt8))
    (hr : Ends rest) : primLength (t ++ rest) = some t.length := by
  induction t with
  | nil =>
    obtain ⟨c, r, rfl, hc⟩ := hr
    unfold primLength
    rw [List.nil_append]
    dsimp only
    rw [if_pos hc]
    rfl
  | cons c t ih =>
    obtain ⟨h1, h2, h3⟩ := h c List.mem_cons_self
    rw [List.cons_append]
    unfold primLength
    rw [if_neg, if_neg (by omega), ih fun x hx => h x (List.mem_cons_of_mem _ hx)]
    · rfl
    · intro hc
      simp only [List.mem_cons, List.not_mem_nil, or_false] at hc h3
      rcases hc with rfl | rfl | rfl | rfl | rfl | rfl | rfl <;> simp at h1 h3

/-! ## The tokens -/

mutual
/-- The number of tokens. -/
def ntoks : Doc → Nat
  | .null => 1
  | .bool _ => 1
  | .num _ => 1
  | .text _ => 1
  | .arr _ is => 1 + ntoksItems is
  | .obj _ ms => 1 + ntoksMembers ms
/-- For items. -/
def ntoksItems : List (Text × Doc × Text) → Nat
  | [] => 0
  | (_, v, _) :: is => ntoks v + ntoksItems is
/-- For members. -/
def ntoksMembers : List (Text × List Piece × Text × Text × Doc × Text) → Nat
  | [] => 0
  | (_, _, _, _, v, _) :: ms => 1 + ntoks v + ntoksMembers ms
end

mutual
/-- The tokens of a JSON text at a position; `base` is the index of the first one. -/
def toksOf (pos base : Nat) (par : Option Nat) : Doc → List Tok
  | .null => [⟨.prim, pos, some (pos + 4), 0, par⟩]
  | .bool true => [⟨.prim, pos, some (pos + 4), 0, par⟩]
  | .bool false => [⟨.prim, pos, some (pos + 5), 0, par⟩]
  | .num t => [⟨.prim, pos, some (pos + t.length), 0, par⟩]
  | .text ps => [⟨.str, pos + 1, some (pos + 1 + (ps.flatMap Piece.written).length), 0, par⟩]
  | .arr w is => ⟨.arr, pos, some (pos + (Doc.arr w is).written.length), is.length, par⟩ ::
    toksItems true (pos + 1) base (base + 1) is
  | .obj w ms => ⟨.obj, pos, some (pos + (Doc.obj w ms).written.length), ms.length, par⟩ ::
    toksMembers true (pos + 1) base (base + 1) ms
/-- The tokens of items; `c` is the index of the sequence. -/
def toksItems (first : Bool) (pos c base : Nat) : List (Text × Doc × Text) → List Tok
  | [] => []
  | (a, v, b) :: is =>
    let p := pos + (if first then 0 else 1) + a.length
    toksOf p base (some c) v ++ toksItems false (p + v.written.length + b.length) c (base + ntoks v) is
/-- The tokens of members; `c` is the index of the list. -/
def toksMembers (first : Bool) (pos c base : Nat) : List (Text × List Piece × Text × Text × Doc × Text) → List Tok
  | [] => []
  | (a, k, b, c', v, e) :: ms =>
    let p := pos + (if first then 0 else 1) + a.length
    let q := p + (quoted k).length + b.length + 1 + c'.length
    ⟨.str, p + 1, some (p + 1 + (k.flatMap Piece.written).length), 1, some c⟩ ::
      (toksOf q (base + 1) (some base) v ++
        toksMembers false (q + v.written.length + e.length) c (base + 1 + ntoks v) ms)
end

mutual
theorem toksOf_length (v : Doc) (pos base : Nat) (par : Option Nat) : (toksOf pos base par v).length = ntoks v := by
  match v with
  | .null => simp [toksOf, ntoks]
  | .bool true => simp [toksOf, ntoks]
  | .bool false => simp [toksOf, ntoks]
  | .num _ => simp [toksOf, ntoks]
  | .text _ => simp [toksOf, ntoks]
  | .arr w is => rw [toksOf, ntoks, List.length_cons, toksItems_length is]; omega
  | .obj w ms => rw [toksOf, ntoks, List.length_cons, toksMembers_length ms]; omega
theorem toksItems_length (is : List (Text × Doc × Text)) (f : Bool) (pos c base : Nat) :
    (toksItems f pos c base is).length = ntoksItems is := by
  match is with
  | [] => simp [toksItems, ntoksItems]
  | (a, v, b) :: is => rw [toksItems, ntoksItems, List.length_append, toksOf_length v, toksItems_length is]
theorem toksMembers_length (ms : List (Text × List Piece × Text × Text × Doc × Text)) (f : Bool) (pos c base : Nat) :
    (toksMembers f pos c base ms).length = ntoksMembers ms := by
  match ms with
  | [] => simp [toksMembers, ntoksMembers]
  | (a, k, b, c', v, e) :: ms =>
    rw [toksMembers, ntoksMembers, List.length_cons, List.length_append, toksOf_length v, toksMembers_length ms]; omega
end

/-- The tokens, the first of which has index `off`, are complete, and their parents come before them, not before `c`. -/
def Under (c off : Nat) (l : List Tok) : Prop :=
  ∀ i t, l[i]? = some t → t.fin ≠ none ∧ ∃ j, t.parent = some j ∧ c ≤ j ∧ j < off + i

theorem Under.nil {c off : Nat} : Under c off [] := fun i t h => by simp at h

theorem Under.append {c off : Nat} {a b : List Tok} (h1 : Under c off a) (h2 : Under c (off + a.length) b) :
    Under c off (a ++ b) := by
  intro i t h
  by_cases hi : i < a.length
  · rw [List.getElem?_append_left hi] at h
    exact h1 i t h
  · rw [List.getElem?_append_right (by omega)] at h
    obtain ⟨h3, j, h4, h5, h6⟩ := h2 _ t h
    exact ⟨h3, j, h4, h5, by omega⟩

theorem Under.cons {c off : Nat} {t : Tok} {b : List Tok} (h1 : t.fin ≠ none) {j : Nat} (h2 : t.parent = some j) (h3 : c ≤ j)
    (h4 : j < off) (hb : Under c (off + 1) b) : Under c off (t :: b) := by
  have : Under c off [t] := by
    intro i t' h
    cases i with
    | zero => injection h with h; rw [← h]; exact ⟨h1, j, h2, h3, by omega⟩
    | succ i => simp at h
  exact Under.append (a := [t]) this hb

theorem Under.mono {c c' off : Nat} (hc : c ≤ c') {l : List Tok} (h : Under c' off l) : Under c off l := by
  intro i t hi
  obtain ⟨h1, j, h2, h3, h4⟩ := h i t hi
  exact ⟨h1, j, h2, by omega, h4⟩

mutual
theorem under_toksOf (v : Doc) (pos base c : Nat) (h : c < base) : Under c base (toksOf pos base (some c) v) := by
  match v with
  | .null => rw [toksOf]; exact Under.cons (by simp) rfl (Nat.le_refl _) h Under.nil
  | .bool true => rw [toksOf]; exact Under.cons (by simp) rfl (Nat.le_refl _) h Under.nil
  | .bool false => rw [toksOf]; exact Under.cons (by simp) rfl (Nat.le_refl _) h Under.nil
  | .num _ => rw [toksOf]; exact Under.cons (by simp) rfl (Nat.le_refl _) h Under.nil
  | .text _ => rw [toksOf]; exact Under.cons (by simp) rfl (Nat.le_refl _) h Under.nil
  | .arr w is =>
    rw [toksOf]
    exact Under.cons (by simp) rfl (Nat.le_refl _) h
      ((under_toksItems is true (pos + 1) base (base + 1) (by omega)).mono (by omega))
  | .obj w ms =>
    rw [toksOf]
    exact Under.cons (by simp) rfl (Nat.le_refl _) h
      ((under_toksMembers ms true (pos + 1) base (base + 1) (by omega)).mono (by omega))
theorem under_toksItems (is : List (Text × Doc × Text)) (f : Bool) (pos c base : Nat) (h : c < base) :
    Under c base (toksItems f pos c base is) := by
  match is with
  | [] => rw [toksItems]; exact Under.nil
  | (a, v, b) :: is =>
    rw [toksItems]
    refine Under.append (under_toksOf v _ base c h) ?_
    rw [toksOf_length]
    exact under_toksItems is _ _ c _ (by omega)
theorem under_toksMembers (ms : List (Text × List Piece × Text × Text × Doc × Text)) (f : Bool) (pos c base : Nat) (h : c < base) :
    Under c base (toksMembers f pos c base ms) := by
  match ms with
  | [] => rw [toksMembers]; exact Under.nil
  | (a, k, b, c', v, e) :: ms =>
    rw [toksMembers]
    refine Under.cons (by simp) rfl (Nat.le_refl _) h (Under.append ((under_toksOf v _ (base + 1) base (by omega)).mono (by omega)) ?_)
    rw [toksOf_length]
    exact under_toksMembers ms _ _ c _ (by omega)
end

/-- A closing bracket finds the bracket that it closes. -/
theorem close_spec {kind : Kind} {s : St} {A B : List Tok} {o : Tok} (hs : s.toks = A ++ o :: B) (ho : o.fin = none)
    (hk : o.kind = kind) (hB : Under A.length (A.length + 1) B) : ∀ (fuel i : Nat), i < fuel → A.length ≤ i → i < s.toks.length →
    close kind s fuel i =
      .ok (some { s with toks := A ++ { o with fin := some (s.pos + 1) } :: B, super := o.parent }) := by
  intro fuel
  induction fuel with
  | zero => intro i h; omega
  | succ fuel ih =>
    intro i h1 h2 h3
    unfold close
    by_cases hi : i = A.length
    · subst hi
      have : s.toks[A.length]? = some o := by rw [hs]; simp
      rw [this]
      dsimp only
      rw [if_pos ho, if_neg (by simp [hk]), hs]
      simp
    · obtain ⟨t, ht⟩ : ∃ t, s.toks[i]? = some t := ⟨s.toks[i], by simp [h3]⟩
      have hB' : B[i - (A.length + 1)]? = some t := by
        rw [hs, List.getElem?_append_right (by omega)] at ht
        obtain ⟨k, hk⟩ : ∃ k, i - A.length = k + 1 := ⟨i - A.length - 1, by omega⟩
        rw [hk, List.getElem?_cons_succ] at ht
        rw [show i - (A.length + 1) = k by omega]
        exact ht
      obtain ⟨h4, j, h5, h6, h7⟩ := hB _ t hB'
      rw [ht]
      dsimp only
      rw [if_neg h4, h5]
      exact ih j (by omega) h6 (by omega)

end Verif.Lemmas.Json
