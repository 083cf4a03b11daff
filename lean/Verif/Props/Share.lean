import Verif.Lemmas.Share
import Verif.Props.Text

/-! # Texts shared with maps, methods and numbers: properties -/

namespace Verif.Props.Share

open Verif.Model Verif.Model.Share Verif.Model.Num Verif.Lemmas.Share
open Verif.Spec.Share (Held MapOp NameOp NumOp Answer change give)

theorem ok_bind' {α β : Type} (a : α) (f : α → Out β) : (Out.ok a).bind f = f a := rfl

/-- Longer texts. -/
abbrev app (a b : Text) : Text := a ++ b

/-! ### Maps -/

/-- Only texts that the program made itself are changed. -/
def MapCareful : Spec.Share.MapSt Text → List (MapOp Text) → Prop
  | _, [] => True
  | s, op :: l =>
    (match op with
      | .append i _ => ∀ x, s.held[i]? = some x → x.own = true
      | _ => True) ∧ MapCareful (Spec.Share.mapStep app s op).2 l

/-- The map says what it should. -/
structure MapRel (hash : Text → Nat) (s : MapSt) (sp : Spec.Share.MapSt Text) : Prop where
  rel : Rel s.heap sp.held (s.items.map (·.key))
  items : plain s.heap s.items = sp.map
  hashed : Hashed hash s.heap s.items
  nodup : (sp.map.map (·.1)).Nodup

theorem filter_nodup {l : List (Text × Nat)} (h : (l.map (·.1)).Nodup) (p : Text × Nat → Bool) : ((l.filter p).map (·.1)).Nodup :=
  h.sublist (List.filter_sublist.map _)

theorem mapStep_rel {hash : Text → Nat} {s : MapSt} {sp : Spec.Share.MapSt Text} (r : MapRel hash s sp) (op : MapOp Text)
    (hc : MapCareful sp [op]) :
    (mapStep hash s op).1 = (Spec.Share.mapStep app sp op).1 ∧ MapRel hash (mapStep hash s op).2 (Spec.Share.mapStep app sp op).2 := by
  have hrem : ∀ t, plain s.heap (remove hash s.heap t s.items) = sp.map.filter fun e => e.1 ≠ t := by
    intro t
    have h1 := r.nodup
    rw [← r.items] at h1 ⊢
    exact remove_eq r.hashed h1
  have hkeys : ∀ t, ∀ k ∈ (remove hash s.heap t s.items).map (·.key), k ∈ s.items.map (·.key) := by
    intro t k hk
    obtain ⟨e, he, hek⟩ := List.mem_map.1 hk
    exact List.mem_map.2 ⟨e, remove_sub e he, hek⟩
  cases op with
  | make t =>
    obtain ⟨h1, h2⟩ := make_rel r.rel t
    exact ⟨rfl, h1, (plain_congr h2).trans r.items, hashed_congr h2 r.hashed, r.nodup⟩
  | append i t =>
    obtain ⟨h1, h2⟩ := append_rel r.rel i t hc.1
    exact ⟨rfl, h1, (plain_congr h2).trans r.items, hashed_congr h2 r.hashed, r.nodup⟩
  | put v i =>
    unfold mapStep Spec.Share.mapStep
    dsimp only
    cases hk : s.heap.held[i]? with
    | none => rw [r.rel.hasnt hk]; exact ⟨rfl, r⟩
    | some k =>
      obtain ⟨x, hx, hxt⟩ := r.rel.has hk
      rw [hx]
      dsimp only
      obtain ⟨h1, h2, h3⟩ := build_rel r.rel (s.heap.text k)
      have h4 := fun k' hk' => h3 k' (hkeys (s.heap.text k) k' hk')
      refine ⟨rfl, ⟨?_, ?_, ?_, ?_⟩⟩
      · refine h1.sub fun k' hk' => ?_
        rcases List.mem_cons.1 hk' with hk' | hk'
        · exact hk' ▸ List.mem_cons_self
        · exact List.mem_cons_of_mem _ (hkeys _ k' hk')
      · have e1 : plain (s.heap.build (s.heap.text k)).2 (⟨hash (s.heap.text k), (s.heap.build (s.heap.text k)).1, v⟩ ::
            remove hash s.heap (s.heap.text k) s.items) = (s.heap.text k, v) :: plain s.heap (remove hash s.heap (s.heap.text k) s.items) := by
          rw [← plain_congr h4]
          unfold plain
          rw [List.map_cons, h2]
        refine e1.trans ?_
        rw [hrem, hxt]
      · intro e he
        rcases List.mem_cons.1 he with he | he
        · rw [he]; exact (congrArg hash h2).symm
        · exact hashed_congr h4 (fun e he => r.hashed e (remove_sub e he)) e he
      · refine List.nodup_cons.2 ⟨fun hm => ?_, filter_nodup r.nodup _⟩
        obtain ⟨e, he, heq⟩ := List.mem_map.1 hm
        have := (List.mem_filter.1 he).2
        exact of_decide_eq_true this heq
  | delete i =>
    unfold mapStep Spec.Share.mapStep
    dsimp only
    cases hk : s.heap.held[i]? with
    | none => rw [r.rel.hasnt hk]; exact ⟨rfl, r⟩
    | some k =>
      obtain ⟨x, hx, hxt⟩ := r.rel.has hk
      rw [hx]
      dsimp only
      refine ⟨rfl, ⟨r.rel.sub (hkeys _), ?_, fun e he => r.hashed e (remove_sub e he), filter_nodup r.nodup _⟩⟩
      dsimp only
      rw [hrem, hxt]
  | «at» i =>
    unfold mapStep Spec.Share.mapStep
    dsimp only
    cases hk : s.heap.held[i]? with
    | none => rw [r.rel.hasnt hk]; exact ⟨rfl, r⟩
    | some k =>
      obtain ⟨x, hx, hxt⟩ := r.rel.has hk
      rw [hx]
      refine ⟨?_, r⟩
      dsimp only
      rw [lookup_eq r.hashed, r.items, hxt]
  | key n =>
    unfold mapStep Spec.Share.mapStep
    dsimp only
    rw [← r.items]
    unfold plain
    rw [List.getElem?_map]
    cases he : s.items[n]? with
    | none => exact ⟨rfl, r⟩
    | some e =>
      have hn := r.nodup
      rw [← r.items] at hn
      exact ⟨rfl, ⟨hold_rel r.rel (List.mem_map_of_mem (f := fun e : Entry => e.key) (List.mem_of_getElem? he)) rfl, rfl, r.hashed, hn⟩⟩
  | look i => exact ⟨congrArg Answer.text (r.rel.text i), r⟩

theorem mapRun_rel {hash : Text → Nat} (l : List (MapOp Text)) {s : MapSt} {sp : Spec.Share.MapSt Text} (r : MapRel hash s sp)
    (hc : MapCareful sp l) : mapRun hash s l = Spec.Share.mapRun app sp l := by
  induction l generalizing s sp with
  | nil => rfl
  | cons op l ih =>
    obtain ⟨h1, h2⟩ := mapStep_rel r op ⟨hc.1, trivial⟩
    rw [mapRun, Spec.Share.mapRun, h1, ih h2 hc.2]

/-- C71, for programs that do not change texts obtained from the map: every history of changes to texts and of messages to the map
has the answers of a map whose keys are what the texts said when they were stored. -/
theorem C71_keys_partial (hash : Text → Nat) (l : List (MapOp Text)) (hc : MapCareful ⟨[], []⟩ l) :
    mapRun hash ⟨⟨[], []⟩, []⟩ l = Spec.Share.mapRun app ⟨[], []⟩ l :=
  mapRun_rel l ⟨⟨(fun _ => rfl), (fun i k h => by cases h), (fun k h => by cases h), (fun i k x h => by cases h)⟩, rfl,
    (fun e h => by cases h), List.nodup_nil⟩ hc

/-- A key that is changed after it was stored: the entry is found under the old key. -/
example (hash : Text → Nat) : mapRun hash ⟨⟨[], []⟩, []⟩ [.make [97], .put 7 0, .append 0 [98], .at 0, .make [97], .at 1, .key 0, .look 2] =
    [.nothing, .nothing, .nothing, .value none, .nothing, .value (some 7), .nothing, .text (some [97])] :=
  C71_keys_partial hash _ ⟨trivial, trivial, (fun x h => by cases h; rfl), trivial, trivial, trivial, trivial, trivial, trivial⟩

/-- C71 fails for texts obtained from the map: changing one changes the key, and the entry is not found any more. -/
theorem C71_keys_violated (hash : Text → Nat) :
    mapRun hash ⟨⟨[], []⟩, []⟩ [.make [97], .put 7 0, .key 0, .append 1 [98], .at 0] =
      [.nothing, .nothing, .nothing, .nothing, .value none] ∧
    Spec.Share.mapRun app ⟨[], []⟩ [.make [97], .put 7 0, .key 0, .append 1 [98], .at 0] =
      [.nothing, .nothing, .nothing, .nothing, .value (some 7)] := by
  constructor
  · have h1 : ∀ e : Entry, e.key = 1 → lookup hash ⟨[[97], [97, 98]], [0, 1]⟩ [97] [e] = none := by
      intro e he
      rw [lookup, if_neg]
      · rfl
      · rw [hit, he]
        intro h
        have := (Bool.and_eq_true _ _ ▸ h).2
        revert this
        decide
    show [Answer.nothing, .nothing, .nothing, .nothing, .value (lookup hash ⟨[[97], [97, 98]], [0, 1]⟩ [97] [⟨hash [97], 1, 7⟩])] = _
    rw [h1 _ rfl]
  · rfl

/-! ### Names of messages -/

/-- Texts that were used as names are not changed, and names that are explained by `learn:means:` have no NUL byte. -/
def NameCareful : Spec.Share.NameSt Text → List (NameOp Text) → Prop
  | _, [] => True
  | s, op :: l =>
    (match op with
      | .append i _ => ∀ x, s.held[i]? = some x → x.own = true
      | .learn _ j => ∀ x, s.held[j]? = some x → (0 : UInt8) ∉ x.text
      | _ => True) ∧ NameCareful (Spec.Share.nameStep app s op).2 l

/-- The object understands what it should. -/
structure NameRel (hash : Text → Nat) (s : MapSt) (sp : Spec.Share.NameSt Text) : Prop where
  rel : Rel s.heap sp.held (s.items.map (·.key))
  code : ∀ t, ((plain s.heap s.items).find? fun e => e.1 = t).map (·.2) = sp.code t
  hashed : Hashed hash s.heap s.items

theorem meaning_eq {h : Heap} {t : Text} (ht : (0 : UInt8) ∉ t) (l : List Entry) :
    meaning h t l = .ok (((plain h l).find? fun e => e.1 = t).map (·.2)) := by
  induction l with
  | nil => rfl
  | cons e l ih =>
    have he := (Verif.Props.Text.C26_equality_partial t (h.text e.key) ht).1
    have hc : plain h (e :: l) = (h.text e.key, e.val) :: plain h l := rfl
    rw [meaning, hc, List.find?_cons, ih]
    dsimp only
    unfold Txt.eq at he
    by_cases hl : (h.text e.key).length = t.length
    · rw [if_neg (fun hn => hn hl)] at he
      rw [if_pos hl, hl]
      cases hs : Txt.strncmp (h.text e.key) t t.length with
      | ub => rw [hs] at he; cases he
      | exit => rw [hs] at he; cases he
      | ok o =>
        rw [hs] at he
        have he := Out.ok.inj he
        rw [ok_bind', he]
        by_cases heq : t = h.text e.key
        · rw [decide_eq_true heq, decide_eq_true heq.symm]; rfl
        · rw [decide_eq_false heq, decide_eq_false (fun h' => heq h'.symm)]; rfl
    · have heq : ¬ h.text e.key = t := fun h' => hl (by rw [h'])
      rw [if_neg hl, decide_eq_false heq]

theorem name_add {hash : Text → Nat} {s : MapSt} {sp : Spec.Share.NameSt Text} (r : NameRel hash s sp) {i k : Nat}
    (hk : s.heap.held[i]? = some k) {x : Held Text} (hxt : x.text = s.heap.text k) (m : Nat) :
    NameRel hash { s with items := ⟨hash (s.heap.text k), k, m⟩ :: s.items }
      ⟨give sp.held i, fun t => if t = x.text then some m else sp.code t⟩ := by
  refine ⟨give_rel r.rel hk, ?_, ?_⟩
  · intro t
    have hc : plain s.heap (⟨hash (s.heap.text k), k, m⟩ :: s.items) = (s.heap.text k, m) :: plain s.heap s.items := rfl
    dsimp only
    rw [hc, List.find?_cons, ← r.code t, hxt]
    dsimp only
    by_cases ht : s.heap.text k = t
    · rw [decide_eq_true ht, if_pos ht.symm]; rfl
    · rw [decide_eq_false ht, if_neg (fun h => ht h.symm)]
  · intro e he
    rcases List.mem_cons.1 he with he | he
    · rw [he]
    · exact r.hashed e he

theorem nameStep_rel {hash : Text → Nat} {s : MapSt} {sp : Spec.Share.NameSt Text} (r : NameRel hash s sp) (op : NameOp Text)
    (hc : NameCareful sp [op]) :
    ∃ s', nameStep hash s op = .ok ((Spec.Share.nameStep app sp op).1, s') ∧ NameRel hash s' (Spec.Share.nameStep app sp op).2 := by
  cases op with
  | make t =>
    obtain ⟨h1, h2⟩ := make_rel r.rel t
    exact ⟨_, rfl, h1, (fun t => by dsimp only; rw [plain_congr h2]; exact r.code t), hashed_congr h2 r.hashed⟩
  | append i t =>
    obtain ⟨h1, h2⟩ := append_rel r.rel i t hc.1
    exact ⟨_, rfl, h1, (fun t => by dsimp only; rw [plain_congr h2]; exact r.code t), hashed_congr h2 r.hashed⟩
  | define i m =>
    unfold nameStep Spec.Share.nameStep
    dsimp only
    cases hk : s.heap.held[i]? with
    | none => rw [r.rel.hasnt hk]; exact ⟨_, rfl, r⟩
    | some k =>
      obtain ⟨x, hx, hxt⟩ := r.rel.has hk
      rw [hx]
      exact ⟨_, rfl, name_add r hk hxt m⟩
  | learn i j =>
    unfold nameStep Spec.Share.nameStep
    dsimp only
    cases hk : s.heap.held[i]? with
    | none => rw [r.rel.hasnt hk]; exact ⟨_, rfl, r⟩
    | some k =>
      obtain ⟨x, hx, hxt⟩ := r.rel.has hk
      rw [hx]
      cases hk' : s.heap.held[j]? with
      | none => rw [r.rel.hasnt hk']; exact ⟨_, rfl, r⟩
      | some k' =>
        obtain ⟨y, hy, hyt⟩ := r.rel.has hk'
        rw [hy]
        dsimp only
        rw [meaning_eq (by rw [← hyt]; exact hc.1 y hy), ok_bind', r.code, hyt]
        cases sp.code (s.heap.text k') with
        | none => exact ⟨_, rfl, r⟩
        | some m => exact ⟨_, rfl, name_add r hk hxt m⟩
  | code i =>
    unfold nameStep Spec.Share.nameStep
    dsimp only
    cases hk : s.heap.held[i]? with
    | none => rw [r.rel.hasnt hk]; exact ⟨_, rfl, r⟩
    | some k =>
      obtain ⟨x, hx, hxt⟩ := r.rel.has hk
      rw [hx]
      dsimp only
      rw [lookup_eq r.hashed, r.code, hxt]
      exact ⟨_, rfl, r⟩

theorem nameRun_rel {hash : Text → Nat} (l : List (NameOp Text)) {s : MapSt} {sp : Spec.Share.NameSt Text} (r : NameRel hash s sp)
    (hc : NameCareful sp l) : nameRun hash s l = .ok (Spec.Share.nameRun app sp l) := by
  induction l generalizing s sp with
  | nil => rfl
  | cons op l ih =>
    obtain ⟨s', h1, h2⟩ := nameStep_rel r op ⟨hc.1, trivial⟩
    rw [nameRun, h1, ok_bind', ih h2 hc.2, ok_bind']
    rfl

/-- C72, for programs that do not change texts after using them as names, and names without NUL bytes: in every history, the code
that answers a message is the one defined last under its name; `learn:means:` gives a name the code that the other name has at that
time, and does nothing if it has none. -/
theorem C72_names_partial (hash : Text → Nat) (l : List (NameOp Text)) (hc : NameCareful ⟨[], fun _ => none⟩ l) :
    nameRun hash ⟨⟨[], []⟩, []⟩ l = .ok (Spec.Share.nameRun app ⟨[], fun _ => none⟩ l) :=
  nameRun_rel l ⟨⟨(fun _ => rfl), (fun i k h => by cases h), (fun k h => by cases h), (fun i k x h => by cases h)⟩, (fun _ => rfl),
    (fun e h => by cases h)⟩ hc

/-- `a` is defined, `b` means `a`, `a` is defined anew: `b` keeps the old code. -/
example (hash : Text → Nat) : nameRun hash ⟨⟨[], []⟩, []⟩
      [.make [97], .define 0 1, .make [98], .make [97], .learn 1 2, .define 0 5, .code 1, .code 0] =
    .ok [.nothing, .nothing, .nothing, .nothing, .nothing, .nothing, .value (some 1), .value (some 5)] :=
  C72_names_partial hash _ ⟨trivial, trivial, trivial, trivial, (fun x h => by cases h; decide), trivial, trivial, trivial, trivial⟩

/-- C72 fails for names that are changed afterwards: the message is not understood any more; and for names with NUL bytes: a name
gets the code of another one. -/
theorem C72_names_violated (hash : Text → Nat) :
    (nameRun hash ⟨⟨[], []⟩, []⟩ [.make [97], .define 0 7, .append 0 [98], .make [97], .code 1] =
        .ok [.nothing, .nothing, .nothing, .nothing, .value none] ∧
      Spec.Share.nameRun app ⟨[], fun _ => none⟩ [.make [97], .define 0 7, .append 0 [98], .make [97], .code 1] =
        [.nothing, .nothing, .nothing, .nothing, .value (some 7)]) ∧
    (∃ v, nameRun hash ⟨⟨[], []⟩, []⟩ [.make [0, 97], .define 0 7, .make [99], .make [0, 98], .learn 1 2, .code 1] =
        .ok [.nothing, .nothing, .nothing, .nothing, .nothing, .value (some v)] ∧
      Spec.Share.nameRun app ⟨[], fun _ => none⟩ [.make [0, 97], .define 0 7, .make [99], .make [0, 98], .learn 1 2, .code 1] =
        [.nothing, .nothing, .nothing, .nothing, .nothing, .value none]) := by
  refine ⟨⟨?_, rfl⟩, 7, ?_, rfl⟩
  · have h1 : ∀ e : Entry, e.key = 0 → lookup hash ⟨[[97, 98], [97]], [0, 1]⟩ [97] [e] = none := by
      intro e he
      rw [lookup, if_neg]
      · rfl
      · rw [hit, he]
        intro h
        have := (Bool.and_eq_true _ _ ▸ h).2
        revert this
        decide
    show Out.ok [Answer.nothing, .nothing, .nothing, .nothing, .value (lookup hash ⟨[[97, 98], [97]], [0, 1]⟩ [97] [⟨hash [97], 0, 7⟩])] = _
    rw [h1 _ rfl]
  · have h1 : ∀ l, lookup hash ⟨[[0, 97], [99], [0, 98]], [0, 1, 2]⟩ [99] (⟨hash [99], 1, 7⟩ :: l) = some 7 := by
      intro l
      rw [lookup, if_pos]
      rw [hit]
      simp [Heap.text]
    show Out.ok [Answer.nothing, .nothing, .nothing, .nothing, .nothing, .value (lookup hash ⟨[[0, 97], [99], [0, 98]], [0, 1, 2]⟩ [99]
      (⟨hash [99], 1, 7⟩ :: [⟨hash [0, 97], 0, 7⟩]))] = _
    rw [h1]

/-! ### Numbers -/

/-- Texts that were used as units or obtained as units are not changed. -/
def NumCareful : Spec.Share.NumSt Text Dbl → List (NumOp Text Dbl) → Prop
  | _, [] => True
  | s, op :: l =>
    (match op with
      | .append i _ => ∀ x, s.held[i]? = some x → x.own = true
      | _ => True) ∧ NumCareful (Spec.Share.numStep app s op).2 l

/-- The content of a number object. -/
def content (h : Heap) (x : Dbl × Option Nat) : Dbl × Option Text := (x.1, x.2.map h.text)

/-- The numbers are what they should be. -/
structure NumRel (s : NumSt) (sp : Spec.Share.NumSt Text Dbl) : Prop where
  rel : Rel s.heap sp.held (s.cells.filterMap (·.2))
  cells : s.cells.map (content s.heap) = sp.cells
  vars : s.vars = sp.vars

theorem NumRel.cell {s : NumSt} {sp : Spec.Share.NumSt Text Dbl} (r : NumRel s sp) (i : Nat) :
    sp.cell i = (s.cell i).map fun q => (q.1, content s.heap q.2) := by
  unfold Spec.Share.NumSt.cell NumSt.cell
  rw [← r.vars, ← r.cells]
  cases s.vars[i]? with
  | none => rfl
  | some c =>
    show ((s.cells.map (content s.heap))[c]?).map _ = _
    rw [List.getElem?_map]
    cases h : s.cells[c]? with
    | none => simp [h]
    | some x => simp [h]

theorem content_congr {h h' : Heap} {l : List (Dbl × Option Nat)} (hc : ∀ k ∈ l.filterMap (·.2), h'.text k = h.text k) :
    l.map (content h') = l.map (content h) := by
  refine List.map_congr_left fun x hx => ?_
  unfold content
  cases hq : x.2 with
  | none => rfl
  | some k =>
    have := hc k (List.mem_filterMap.2 ⟨x, hx, hq⟩)
    simp [this]

theorem cell_mem {s : NumSt} {i c : Nat} {x : Dbl × Option Nat} (h : s.cell i = some (c, x)) : s.cells[c]? = some x := by
  unfold NumSt.cell at h
  cases hv : s.vars[i]? with
  | none => rw [hv] at h; cases h
  | some d =>
    rw [hv] at h
    have h : (s.cells[d]?).map _ = _ := h
    cases hd : s.cells[d]? with
    | none => rw [hd] at h; cases h
    | some y =>
      rw [hd] at h
      have := Option.some.inj h
      have e1 := congrArg Prod.fst this
      have e2 := congrArg Prod.snd this
      dsimp only at e1 e2
      rw [← e1, ← e2]; exact hd

theorem set_units {l : List (Dbl × Option Nat)} {c : Nat} {x : Dbl} {q : Option Nat} :
    ∀ k ∈ (l.set c (x, q)).filterMap (·.2), some k = q ∨ k ∈ l.filterMap (·.2) := by
  intro k hk
  obtain ⟨y, hy, hyk⟩ := List.mem_filterMap.1 hk
  rcases List.mem_or_eq_of_mem_set hy with h | h
  · exact .inr (List.mem_filterMap.2 ⟨y, h, hyk⟩)
  · rw [h] at hyk; exact .inl hyk.symm

theorem snoc_units {l : List (Dbl × Option Nat)} {x : Dbl × Option Nat} :
    ∀ k ∈ (l ++ [x]).filterMap (·.2), some k = x.2 ∨ k ∈ l.filterMap (·.2) := by
  intro k hk
  obtain ⟨y, hy, hyk⟩ := List.mem_filterMap.1 hk
  rcases List.mem_append.1 hy with h | h
  · exact .inr (List.mem_filterMap.2 ⟨y, h, hyk⟩)
  · rw [List.mem_singleton.1 h] at hyk; exact .inl hyk.symm

theorem numStep_rel {s : NumSt} {sp : Spec.Share.NumSt Text Dbl} (r : NumRel s sp) (op : NumOp Text Dbl) (hc : NumCareful sp [op]) :
    (numStep s op).1 = (Spec.Share.numStep app sp op).1 ∧ NumRel (numStep s op).2 (Spec.Share.numStep app sp op).2 := by
  have hlen : s.cells.length = sp.cells.length := by rw [← r.cells, List.length_map]
  have hadd : ∀ x : Dbl × Option Nat, (∀ k, x.2 = some k → k ∈ s.cells.filterMap (·.2)) →
      NumRel { s with cells := s.cells ++ [x], vars := s.vars ++ [s.cells.length] }
        { sp with cells := sp.cells ++ [content s.heap x], vars := sp.vars ++ [sp.cells.length] } := by
    intro x hx
    refine ⟨r.rel.sub fun k hk => ?_, ?_, ?_⟩
    · rcases snoc_units k hk with h | h
      · exact hx k h.symm
      · exact h
    · dsimp only
      rw [List.map_append, r.cells]; rfl
    · dsimp only
      rw [r.vars, hlen]
  have hunit : ∀ {i c x k}, s.cell i = some (c, x) → x.2 = some k → k ∈ s.cells.filterMap (·.2) :=
    fun h hk => List.mem_filterMap.2 ⟨_, List.mem_of_getElem? (cell_mem h), hk⟩
  cases op with
  | number x => exact ⟨rfl, hadd (x, none) (fun k h => by cases h)⟩
  | same i =>
    unfold numStep Spec.Share.numStep
    dsimp only
    rw [r.cell i]
    cases s.cell i with
    | none => exact ⟨rfl, r⟩
    | some q => exact ⟨rfl, r.rel, r.cells, by dsimp only [Option.map_some]; rw [r.vars]⟩
  | copy i =>
    unfold numStep Spec.Share.numStep
    dsimp only
    rw [r.cell i]
    cases hi : s.cell i with
    | none => exact ⟨rfl, r⟩
    | some q => exact ⟨rfl, hadd q.2 (fun k hk => hunit hi hk)⟩
  | change f i j =>
    unfold numStep Spec.Share.numStep
    dsimp only
    rw [r.cell i, r.cell j]
    cases hi : s.cell i with
    | none => exact ⟨rfl, r⟩
    | some q =>
      cases s.cell j with
      | none => exact ⟨rfl, r⟩
      | some p =>
        refine ⟨rfl, r.rel.sub fun k hk => ?_, ?_, r.vars⟩
        · rcases set_units k hk with h | h
          · exact hunit hi h.symm
          · exact h
        · dsimp only [Option.map_some]
          rw [List.map_set, r.cells]; rfl
  | «calc» f i j =>
    unfold numStep Spec.Share.numStep
    dsimp only
    rw [r.cell i, r.cell j]
    cases s.cell i with
    | none => exact ⟨rfl, r⟩
    | some q =>
      cases s.cell j with
      | none => exact ⟨rfl, r⟩
      | some p => exact ⟨rfl, hadd (f q.2.1 p.2.1, none) (fun k h => by cases h)⟩
  | make t =>
    obtain ⟨h1, h2⟩ := make_rel r.rel t
    exact ⟨rfl, h1, (content_congr h2).trans r.cells, r.vars⟩
  | append i t =>
    obtain ⟨h1, h2⟩ := append_rel r.rel i t hc.1
    exact ⟨rfl, h1, (content_congr h2).trans r.cells, r.vars⟩
  | qualify i k =>
    unfold numStep Spec.Share.numStep
    dsimp only
    rw [r.cell i]
    cases s.cell i with
    | none => exact ⟨rfl, r⟩
    | some q =>
      cases hk : s.heap.held[k]? with
      | none => rw [r.rel.hasnt hk]; exact ⟨rfl, r⟩
      | some u =>
        obtain ⟨x, hx, hxt⟩ := r.rel.has hk
        rw [hx]
        refine ⟨rfl, (give_rel r.rel hk).sub fun k' hk' => ?_, ?_, r.vars⟩
        · rcases set_units k' hk' with h | h
          · rw [Option.some.inj h]; exact List.mem_cons_self
          · exact List.mem_cons_of_mem _ h
        · dsimp only [Option.map_some]
          rw [List.map_set, r.cells, hxt]; rfl
  | unit i =>
    unfold numStep Spec.Share.numStep
    dsimp only
    rw [r.cell i]
    cases hi : s.cell i with
    | none => exact ⟨rfl, r⟩
    | some q =>
      obtain ⟨c, x, u⟩ := q
      cases u with
      | none => exact ⟨rfl, r⟩
      | some u => exact ⟨rfl, hold_rel r.rel (hunit hi rfl) rfl, r.cells, r.vars⟩
  | look i =>
    refine ⟨?_, r⟩
    show (s.cell i).map _ = (sp.cell i).map _
    rw [r.cell i]
    cases s.cell i <;> rfl

theorem numRun_rel (l : List (NumOp Text Dbl)) {s : NumSt} {sp : Spec.Share.NumSt Text Dbl} (r : NumRel s sp) (hc : NumCareful sp l) :
    numRun s l = Spec.Share.numRun app sp l := by
  induction l generalizing s sp with
  | nil => rfl
  | cons op l ih =>
    obtain ⟨h1, h2⟩ := numStep_rel r op ⟨hc.1, trivial⟩
    rw [numRun, Spec.Share.numRun, h1, ih h2 hc.2]

/-- C73, for programs that do not change texts that were used as units: in every history, a message that changes a number changes it
for all variables that stand for it, and nothing else; copies and results of calculations are numbers of their own. -/
theorem C73_numbers_partial (l : List (NumOp Text Dbl)) (hc : NumCareful ⟨[], [], []⟩ l) :
    numRun ⟨⟨[], []⟩, [], []⟩ l = Spec.Share.numRun app ⟨[], [], []⟩ l :=
  numRun_rel l ⟨⟨(fun _ => rfl), (fun i k h => by cases h), (fun k h => by cases h), (fun i k x h => by cases h)⟩, rfl, rfl⟩ hc

/-- `x ≔ 1. y ≔ x. z ≔ x copy. x add: 1.`: now `x` and `y` are 2, `z` is 1. -/
example : numRun ⟨⟨[], []⟩, [], []⟩
      [.number (Dbl.ofInt 1), .same 0, .copy 0, .change (fun _ _ => Dbl.ofInt 2) 0 0, .look 0, .look 1, .look 2] =
    [none, none, none, none, some (Dbl.ofInt 2, none), some (Dbl.ofInt 2, none), some (Dbl.ofInt 1, none)] :=
  C73_numbers_partial _ ⟨trivial, trivial, trivial, trivial, trivial, trivial, trivial, trivial⟩

/-- C73 fails for units: a number and its copy share the text of the unit with each other and with the program. -/
theorem C73_units_violated :
    numRun ⟨⟨[], []⟩, [], []⟩ [.number (Dbl.ofInt 1), .make [101], .qualify 0 0, .copy 0, .unit 0, .append 1 [115], .look 1] =
      [none, none, none, none, none, none, some (Dbl.ofInt 1, some [101, 115])] ∧
    Spec.Share.numRun app ⟨[], [], []⟩ [.number (Dbl.ofInt 1), .make [101], .qualify 0 0, .copy 0, .unit 0, .append 1 [115], .look 1] =
      [none, none, none, none, none, none, some (Dbl.ofInt 1, some [101])] := ⟨rfl, rfl⟩

end Verif.Props.Share
