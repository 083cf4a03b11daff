import Verif.Lemmas.TransWhole

/-!
# What the dictionary file says
-/

namespace Verif.Lemmas.TransProg
open Verif (Out)
open Verif.Spec (Dict Node DLine dictFile NotesFit EndsWithWord Balanced lastOf)
open Verif.Spec.Lexer Verif.Spec.Parser Verif.Spec.Retell
open Verif.Model (Text)
open Verif.Model.TransProg
open Verif.Model.Trans (Loaded load translate cut)
open Verif.Props.Trans (loaded translate_mem C38_unknown C38_separators)

/-! ## Parts of messages -/

theorem splitOn_part {q : UInt8} {w r : Text} (h : q ∉ w) (acc : Text) :
    List.splitOnPPrepend (· == q) (w ++ q :: r) acc = (acc.reverse ++ w) :: List.splitOnPPrepend (· == q) r [] := by
  induction w generalizing acc with
  | nil => simp [List.splitOnPPrepend]
  | cons c w ih =>
    simp only [List.mem_cons, not_or] at h
    rw [List.cons_append, List.splitOnPPrepend, if_neg (by simpa using fun e => h.1 e.symm), ih h.2]
    simp

theorem splitOn_joined {q : UInt8} {ws : List Text} (h : ∀ w ∈ ws, q ∉ w) :
    List.splitOnPPrepend (· == q) (joined q ws) [] = ws ++ [[]] := by
  induction ws with
  | nil => rfl
  | cons w ws ih =>
    rw [joined_cons, List.append_assoc, List.singleton_append, splitOn_part (h w List.mem_cons_self),
      ih (fun w hw => h w (List.mem_cons_of_mem _ hw))]
    rfl

theorem parts_joined {q : UInt8} {ws : List Text} (h : ∀ w ∈ ws, q ∉ w) : parts q (joined q ws) = ws := by
  show (List.splitOnPPrepend (· == q) (joined q ws) []).dropLast = ws
  rw [splitOn_joined h, List.dropLast_concat]

theorem cut_part {q : UInt8} {w r : Text} (h0 : w ≠ []) (h : q ∉ w) : cut q (w ++ [q] ++ r) = (w ++ [q], r) := by
  cases w with
  | nil => exact absurd rfl h0
  | cons c w =>
    simp only [List.mem_cons, not_or] at h
    have hw : (w ++ q :: r).takeWhile (· != q) = w := by
      rw [List.takeWhile_append_of_pos (by
        intro x hx
        simpa using fun e : x = q => h.2 (e ▸ hx)), List.takeWhile_cons, if_neg (by simp)]
      simp
    unfold cut
    rw [List.append_assoc, List.singleton_append, List.cons_append, List.drop_succ_cons, List.drop_zero, hw]
    dsimp only
    rw [show c :: (w ++ q :: r) = (c :: w ++ [q]) ++ r by simp, List.take_left' (by simp; omega), List.drop_left' (by simp; omega)]

theorem cut_all {q : UInt8} {t : Text} (h : q ∉ t.drop 1) : cut q t = (t, []) := by
  have hw : (t.drop 1).takeWhile (· != q) = t.drop 1 := by
    have := List.takeWhile_append_of_pos (p := (· != q)) (l₁ := t.drop 1) (l₂ := []) (by
      intro x hx
      simpa using fun e : x = q => h (e ▸ hx))
    simpa using this
  unfold cut
  rw [hw, List.length_drop]
  dsimp only
  rw [List.take_of_length_le (by omega), List.drop_of_length_le (by omega)]

theorem split_unique {p : UInt8} {a b w r : Text} (h1 : a ++ b = w ++ p :: r) (h2 : a.getLast? = some p) (h3 : p ∉ a.dropLast)
    (h4 : p ∉ w) : a = w ++ [p] ∧ b = r := by
  have e : a = a.dropLast ++ [p] := by
    have hne : a ≠ [] := by rintro rfl; cases h2
    rw [List.getLast?_eq_some_getLast hne] at h2
    injection h2 with h2
    have := List.dropLast_concat_getLast hne
    rw [h2] at this
    exact this.symm
  have key : ∀ (x y : Text), p ∉ x → ((x ++ p :: y).takeWhile (· != p)) = x := by
    intro x y hx
    rw [List.takeWhile_append_of_pos (by
      intro c hc
      simpa using fun e : c = p => hx (e ▸ hc)), List.takeWhile_cons, if_neg (by simp)]
    simp
  generalize a.dropLast = a0 at e h3
  subst e
  rw [List.append_assoc, List.singleton_append] at h1
  have := congrArg (List.takeWhile (· != p)) h1
  rw [key _ _ h3, key _ _ h4] at this
  subst this
  have h5 := List.append_cancel_left h1
  injection h5 with _ h5
  exact ⟨rfl, h5⟩

theorem inDict_some {ty : UInt8} {ls : List DLine} {w t : Text} (h : inDict ty ls w = some t) :
    ∃ l ∈ ls, l.ty = ty ∧ l.word = w ∧ l.tr = t := by
  unfold inDict at h
  rw [Option.map_eq_some_iff] at h
  obtain ⟨l, h1, h2⟩ := h
  have := List.find?_some h1
  simp only [Bool.and_eq_true, decide_eq_true_eq] at this
  exact ⟨l, List.mem_of_find?_eq_some h1, this.1, this.2, h2⟩

theorem inDict_none {ty : UInt8} {ls : List DLine} {w : Text} (h : inDict ty ls w = none) :
    ∀ l ∈ ls, l.ty = ty → l.word ≠ w := by
  unfold inDict at h
  rw [Option.map_eq_none_iff] at h
  intro l hl h1 h2
  have := List.find?_eq_none.1 h l hl
  simp [h1, h2] at this

theorem pcOf_filter {p : UInt8} : ∀ (ls : List DLine) (c : UInt8) (l : DLine) (q : UInt8),
    (ls.filter (fun l => l.isWord && l.word.head? = some p)).getLast? = some l → l.tr.head? = some q →
    Verif.Lemmas.Trans.pcOf p ls c = q := by
  intro ls
  induction ls with
  | nil => intro c l q h; cases h
  | cons x ls ih =>
    intro c l q h hq
    unfold Verif.Lemmas.Trans.pcOf
    cases hl : (ls.filter (fun l => l.isWord && l.word.head? = some p)).getLast? with
    | some y =>
      rw [ih _ y q hl]
      by_cases hx : (x.isWord && decide (x.word.head? = some p)) = true
      · rw [List.filter_cons, if_pos hx, List.getLast?_cons, hl] at h
        injection h with h
        rw [show y = l from h]
        exact hq
      · rw [List.filter_cons, if_neg hx, hl] at h
        injection h with h
        rw [h]
        exact hq
    | none =>
      have he := List.getLast?_eq_none_iff.1 hl
      have hnone : ∀ (c : UInt8), Verif.Lemmas.Trans.pcOf p ls c = c := by
        clear ih h hl
        induction ls with
        | nil => intro c; rfl
        | cons y ls ih2 =>
          intro c
          by_cases hy : (y.isWord && decide (y.word.head? = some p)) = true
          · rw [List.filter_cons, if_pos hy] at he; cases he
          · rw [List.filter_cons, if_neg hy] at he
            unfold Verif.Lemmas.Trans.pcOf
            rw [if_neg (by simpa using hy), ih2 he]
      rw [hnone]
      by_cases hx : (x.isWord && decide (x.word.head? = some p)) = true
      · rw [List.filter_cons, if_pos hx, he] at h
        simp only [List.getLast?_singleton, Option.some.injEq] at h
        subst h
        rw [if_pos (by simpa using hx)]
        cases ht : x.tr with
        | nil => rw [ht] at hq; cases hq
        | cons a r => rw [ht] at hq; injection hq
      · rw [List.filter_cons, if_neg hx, he] at h
        cases h

/-! ## The dictionary says what the translation says -/

theorem knows {d d' : Dict} (hs : GoodSeps d) {ls : List DLine} (hc : Covers d d' ls) {L : Loaded}
    (hL : load d.param (dictFile ls) = .ok L) {N : List (List Text)} (hN : ∀ ps ∈ N, Matched d.param d'.param ls ps) :
    Knows d d' L (sayOf d.param d'.param ls) N := by
  obtain ⟨h1, _, h3, h4⟩ := loaded hc.plain hc.notes hc.last hL
  obtain ⟨l0, s1, s2⟩ := hc.sign
  have hpc : L.pc = d'.param := by rw [h4]; exact pcOf_filter ls 0 l0 _ s1 s2
  have hnul : d'.param ≠ 0 := by
    have hm := List.mem_of_getLast? s1
    have := (hc.plain l0 (List.mem_filter.1 hm).1).trBytes d'.param (by
      cases h : l0.tr with
      | nil => rw [h] at s2; cases s2
      | cons a r => rw [h] at s2; injection s2 with s2; rw [s2]; exact List.mem_cons_self)
    exact this.1
  have hsay : ∀ ps ∈ N, (∃ ws', inDict 116 ls (joined d.param ps) = some (joined d'.param ws') ∧ ws'.length = ps.length ∧
      (∀ w ∈ ws', w ≠ [] ∧ d'.param ∉ w) ∧ (sayOf d.param d'.param ls).msg ps = ws') ∨
      (inDict 116 ls (joined d.param ps) = none ∧ d.param = d'.param ∧ (∀ w ∈ ps, d.param ∉ w ∧ 0 ∉ w) ∧
        (sayOf d.param d'.param ls).msg ps = ps) := by
    intro ps hps
    obtain ⟨_, ⟨ws', m1, m2, m3⟩ | ⟨m1, m2, m3⟩⟩ := hN ps hps
    · refine .inl ⟨ws', m1, m2, m3, ?_⟩
      show ((inDict 116 ls (joined d.param ps)).map (parts d'.param)).getD ps = _
      rw [m1]
      exact parts_joined fun w hw => (m3 w hw).2
    · refine .inr ⟨m1, m2, m3, ?_⟩
      show ((inDict 116 ls (joined d.param ps)).map (parts d'.param)).getD ps = _
      rw [m1]
      rfl
  refine ⟨hpc, hnul, ?_, ?_, fun ps hps => (hN ps hps).1, ?_, ?_, ?_, ?_, ?_, ?_, ?_, hs⟩
  · intro w hw
    cases hd : inDict 116 ls w with
    | none =>
      refine ⟨_, (C38_unknown d.param ls hc.plain hc.notes hc.last L hL 116 w 255 (inDict_none hd)).1 (.inr hw) true, .inr ⟨rfl, ?_⟩⟩
      show (inDict 116 ls w).getD w = w
      rw [hd]
      rfl
    | some t =>
      obtain ⟨l, hl, e1, e2, e3⟩ := inDict_some hd
      have hb := hc.balanced l hl e1
      have h0 : d'.param ∉ l.tr.drop 1 := by
        unfold Balanced at hb
        rw [e2, List.count_eq_zero_of_not_mem (fun h => hw (List.mem_of_mem_drop h))] at hb
        exact List.count_eq_zero.1 hb.symm
      have := (translate_mem (q := d'.param) hc.plain h1 hl 255 true).2.2 e1 hb
      rw [cut_all h0, if_pos (.inl rfl), e2] at this
      refine ⟨_, by rw [h3, hpc]; exact this, .inl ⟨rfl, ?_⟩⟩
      show l.tr = (inDict 116 ls w).getD w
      rw [hd, e3]
      rfl
  · intro ps hps
    rcases hsay ps hps with ⟨ws', _, m2, _, m4⟩ | ⟨_, _, _, m4⟩
    · rw [m4, m2]
    · rw [m4]
  · intro ps hps
    rcases hsay ps hps with ⟨ws', m1, m2, m3, m4⟩ | ⟨m1, m2, m3, m4⟩
    · rw [m4]
      intro w hw
      refine ⟨(m3 w hw).2, fun h0 => ?_⟩
      obtain ⟨l, hl, e1, e2, e3⟩ := inDict_some m1
      refine ((hc.plain l hl).trBytes 0 ?_).1 rfl
      rw [e3]
      exact List.mem_flatMap.2 ⟨w, hw, List.mem_append_left _ h0⟩
    · rw [m4, ← m2]
      exact m3
  · intro ps hps w' ws' hW
    rcases hsay ps hps with ⟨ws, m1, m2, m3, m4⟩ | ⟨m1, m2, m3, m4⟩
    · rw [hW] at m4
      subst m4
      obtain ⟨l, hl, e1, e2, e3⟩ := inDict_some m1
      have := (translate_mem (q := d'.param) hc.plain h1 hl 180 true).2.2 e1 (hc.balanced l hl e1)
      rw [if_pos (.inr rfl), e2, e3, joined_cons, cut_part (m3 w' List.mem_cons_self).1 (m3 w' List.mem_cons_self).2] at this
      rw [h3, hpc]
      exact this
    · rw [hW] at m4
      subst m4
      obtain ⟨a, b, b1, b2, b3, b4⟩ := (C38_unknown d.param ls hc.plain hc.notes hc.last L hL 116
        (joined d.param (w' :: ws')) 180 (inDict_none m1)).2 rfl (by rw [joined_cons]; simp) (hN _ hps).1
      rw [b4]
      rw [joined_cons, List.append_assoc, List.singleton_append] at b1
      obtain ⟨rfl, rfl⟩ := split_unique b1 b2 b3 (m3 w' List.mem_cons_self).1
      rw [m2]
  · intro t ht
    cases hd : inDict 115 ls t with
    | none =>
      refine ⟨_, (C38_unknown d.param ls hc.plain hc.notes hc.last L hL 115 t _ (inDict_none hd)).1 (.inl (by decide)) false, ?_⟩
      show t = if t.length > 100 then t else (inDict 115 ls t).getD t
      rw [hd, if_neg (by omega)]
      rfl
    | some t' =>
      obtain ⟨l, hl, e1, e2, e3⟩ := inDict_some hd
      have := (translate_mem (p := d.param) (q := d'.param) hc.plain h1 hl (t.length + 1) false).1 e1
      rw [e2] at this
      refine ⟨_, by rw [h3, hpc]; exact this, ?_⟩
      show l.tr = if t.length > 100 then t else (inDict 115 ls t).getD t
      rw [hd, if_neg (by omega), e3]
      rfl
  · intro t ht
    show (if t.length > 100 then t else (inDict 115 ls t).getD t) = t
    rw [if_pos ht]
  · intro K hK
    obtain ⟨⟨l, hl, e1, e2, e3⟩, h0⟩ := hc.symbols K hK
    have := (translate_mem (q := d'.param) hc.plain h1 hl (K.1.length + 1) false).2.2 e1 (hc.balanced l hl e1)
    rw [e2, e3, cut_all h0, if_pos (.inl rfl)] at this
    unfold symbol
    rw [h3, hpc, this, bind_ok]
  · obtain ⟨x, y, x1, x2, x3, x4⟩ := C38_separators d.param ls hc.plain hc.notes L hL
    obtain ⟨l, y1, y2, y3⟩ := hc.dec
    rw [x1] at y1
    injection y1 with y1
    injection x3 with z1 z2
    rw [z1, z2, y1]
    exact ⟨y2, y3⟩
  · obtain ⟨x, y, x1, x2, x3, x4⟩ := C38_separators d.param ls hc.plain hc.notes L hL
    obtain ⟨l, y1, y2, y3⟩ := hc.tho
    rw [x2] at y1
    injection y1 with y1
    injection x4 with z1 z2
    rw [z1, z2, y1]
    exact ⟨y2, y3⟩

/-! ## Lexemes -/

section
variable {d d' : Dict} {W : Say}

mutual
/-- The pieces of a tree are its lexemes. -/
theorem lex_node : ∀ (e : Node) (k : Bool), (∀ ps ∈ names e, (W.msg ps).length = ps.length) →
    (cells d W k e).map Cell.lexeme = lexemes d e
  | .ref m n, k, _ => by
    rw [cells, lexemes]
    split
    · rfl
    · split <;> rfl
  | .num v, k, _ => by rw [cells, lexemes]; rfl
  | .str v, k, _ => by rw [cells, lexemes]; rfl
  | .block ps b, k, h => by
    unfold names at h
    rw [cells, lexemes, List.map_append, List.map_append, List.map_cons, lex_stmts b h, List.map_flatMap]
    rfl
  | .nested e, k, h => by
    unfold names at h
    rw [cells, lexemes, List.map_append, List.map_cons, lex_node e false h]
    rfl
  | .assign r e, k, h => by
    unfold names at h
    rw [cells, lexemes, List.map_append, List.map_cons, lex_node r k (fun m hm => h m (List.mem_append_left _ hm)),
      lex_node e k (fun m hm => h m (List.mem_append_right _ hm))]
    rfl
  | .msg r ms, k, h => by
    unfold names at h
    rw [cells, lexemes, List.map_append, lex_node r k (fun m hm => h m (List.mem_append_left _ hm)),
      lex_msgs ms k false (fun m hm => h m (List.mem_append_right _ hm))]
  | .ret e, k, h => by
    unfold names at h
    rw [cells, lexemes, List.map_cons, lex_node e k h]
    rfl
  | .una n, k, _ => by rw [cells, lexemes]; rfl
  | .bin o a, k, h => by
    unfold names at h
    rw [cells, lexemes, List.map_cons, lex_node a k h]
    rfl
  | .kw ps as, k, h => by
    unfold names at h
    rw [cells, lexemes]
    exact lex_args as true ps (W.msg ps) (h ps List.mem_cons_self) (fun m hm => h m (List.mem_cons_of_mem _ hm))
theorem lex_stmts : ∀ es : List Node, (∀ ps ∈ namesOf es, (W.msg ps).length = ps.length) →
    (cellStmts d W es).map Cell.lexeme = lexStmts d es
  | [], _ => by rw [cellStmts, lexStmts]; rfl
  | e :: es, h => by
    unfold namesOf at h
    rw [cellStmts, lexStmts, List.map_append, List.map_cons, lex_node e false (fun m hm => h m (List.mem_append_left _ hm)),
      lex_stmts es (fun m hm => h m (List.mem_append_right _ hm))]
    rfl
theorem lex_msgs : ∀ (ms : List Node) (k kw : Bool), (∀ ps ∈ namesOf ms, (W.msg ps).length = ps.length) →
    (cellMsgs d W k kw ms).map Cell.lexeme = lexMsgs d kw ms
  | [], _, _, _ => by rw [cellMsgs, lexMsgs]; rfl
  | m :: ms, k, kw, h => by
    unfold namesOf at h
    rw [cellMsgs, lexMsgs, List.map_append, List.map_append, lex_node m k (fun m hm => h m (List.mem_append_left _ hm)),
      lex_msgs ms k _ (fun m hm => h m (List.mem_append_right _ hm))]
    cases kw <;> rfl
theorem lex_args : ∀ (as : List Node) (f : Bool) (ws ws' : List Text), ws'.length = ws.length →
    (∀ ps ∈ namesOf as, (W.msg ps).length = ps.length) →
    (cellArgs d W f ws ws' as).map Cell.lexeme = lexArgs d ws as
  | [], f, ws, ws', _, _ => by
    cases ws <;> cases ws' <;> simp [cellArgs, lexArgs]
  | a :: as, f, ws, ws', hl, h => by
    cases ws with
    | nil => simp [cellArgs, lexArgs]
    | cons w ws =>
      cases ws' with
      | nil => cases hl
      | cons w' ws' =>
        unfold namesOf at h
        rw [cellArgs, lexArgs, List.map_append, List.map_cons, List.map_cons,
          lex_node a true (fun m hm => h m (List.mem_append_left _ hm)),
          lex_args as false ws ws' (by simpa using hl) (fun m hm => h m (List.mem_append_right _ hm))]
        rfl
end

theorem trNode_isKw (m : Node) : isKw (trNode W m) = isKw m := by
  cases m <;> rfl

mutual
/-- The pieces of a tree in the other language are the lexemes of the tree in that language. -/
theorem lex_node' (h1 : W.word d.my = d'.my) (h2 : W.word d.var = d'.var) : ∀ (e : Node) (k : Bool),
    (∀ ps ∈ names e, (W.msg ps).length = ps.length) →
    (cells d W k e).map (Cell.lexeme' W) = lexemes d' (trNode W e)
  | .ref m n, k, _ => by
    rw [cells, trNode, lexemes]
    split
    · rfl
    · split
      · rw [← h1]; rfl
      · rw [← h2]; rfl
  | .num v, k, _ => by rw [cells, trNode, lexemes]; rfl
  | .str v, k, _ => by rw [cells, trNode, lexemes]; rfl
  | .block ps b, k, h => by
    unfold names at h
    rw [cells, trNode, lexemes, List.map_append, List.map_append, List.map_cons, lex_stmts' h1 h2 b h, List.map_flatMap,
      List.flatMap_map]
    rfl
  | .nested e, k, h => by
    unfold names at h
    rw [cells, trNode, lexemes, List.map_append, List.map_cons, lex_node' h1 h2 e false h]
    rfl
  | .assign r e, k, h => by
    unfold names at h
    rw [cells, trNode, lexemes, List.map_append, List.map_cons, lex_node' h1 h2 r k (fun m hm => h m (List.mem_append_left _ hm)),
      lex_node' h1 h2 e k (fun m hm => h m (List.mem_append_right _ hm))]
    rfl
  | .msg r ms, k, h => by
    unfold names at h
    rw [cells, trNode, lexemes, List.map_append, lex_node' h1 h2 r k (fun m hm => h m (List.mem_append_left _ hm)),
      lex_msgs' h1 h2 ms k false (fun m hm => h m (List.mem_append_right _ hm))]
  | .ret e, k, h => by
    unfold names at h
    rw [cells, trNode, lexemes, List.map_cons, lex_node' h1 h2 e k h]
    rfl
  | .una n, k, _ => by rw [cells, trNode, lexemes]; rfl
  | .bin o a, k, h => by
    unfold names at h
    rw [cells, trNode, lexemes, List.map_cons, lex_node' h1 h2 a k h]
    rfl
  | .kw ps as, k, h => by
    unfold names at h
    rw [cells, trNode, lexemes]
    exact lex_args' h1 h2 as true ps (W.msg ps) (h ps List.mem_cons_self) (fun m hm => h m (List.mem_cons_of_mem _ hm))
theorem lex_stmts' (h1 : W.word d.my = d'.my) (h2 : W.word d.var = d'.var) : ∀ es : List Node,
    (∀ ps ∈ namesOf es, (W.msg ps).length = ps.length) →
    (cellStmts d W es).map (Cell.lexeme' W) = lexStmts d' (trNodes W es)
  | [], _ => by rw [cellStmts, trNodes, lexStmts]; rfl
  | e :: es, h => by
    unfold namesOf at h
    rw [cellStmts, trNodes, lexStmts, List.map_append, List.map_cons,
      lex_node' h1 h2 e false (fun m hm => h m (List.mem_append_left _ hm)),
      lex_stmts' h1 h2 es (fun m hm => h m (List.mem_append_right _ hm))]
    rfl
theorem lex_msgs' (h1 : W.word d.my = d'.my) (h2 : W.word d.var = d'.var) : ∀ (ms : List Node) (k kw : Bool),
    (∀ ps ∈ namesOf ms, (W.msg ps).length = ps.length) →
    (cellMsgs d W k kw ms).map (Cell.lexeme' W) = lexMsgs d' kw (trNodes W ms)
  | [], _, _, _ => by rw [cellMsgs, trNodes, lexMsgs]; rfl
  | m :: ms, k, kw, h => by
    unfold namesOf at h
    rw [cellMsgs, trNodes, lexMsgs, trNode_isKw, List.map_append, List.map_append,
      lex_node' h1 h2 m k (fun m hm => h m (List.mem_append_left _ hm)),
      lex_msgs' h1 h2 ms k _ (fun m hm => h m (List.mem_append_right _ hm))]
    cases kw <;> rfl
theorem lex_args' (h1 : W.word d.my = d'.my) (h2 : W.word d.var = d'.var) : ∀ (as : List Node) (f : Bool) (ws ws' : List Text),
    ws'.length = ws.length → (∀ ps ∈ namesOf as, (W.msg ps).length = ps.length) →
    (cellArgs d W f ws ws' as).map (Cell.lexeme' W) = lexArgs d' ws' (trNodes W as)
  | [], f, ws, ws', _, _ => by
    cases ws <;> cases ws' <;> simp [cellArgs, trNodes, lexArgs]
  | a :: as, f, ws, ws', hl, h => by
    cases ws with
    | nil =>
      obtain rfl := List.length_eq_zero_iff.1 hl
      simp [cellArgs, trNodes, lexArgs]
    | cons w ws =>
      cases ws' with
      | nil => cases hl
      | cons w' ws' =>
        unfold namesOf at h
        rw [cellArgs, trNodes, lexArgs, List.map_append, List.map_cons, List.map_cons,
          lex_node' h1 h2 a true (fun m hm => h m (List.mem_append_left _ hm)),
          lex_args' h1 h2 as false ws ws' (by simpa using hl) (fun m hm => h m (List.mem_append_right _ hm))]
        rfl
end

theorem laid_lay {ps : List Piece} {tail : Text} (ht : ∀ c ∈ tail, blank c = true) (hl : Laid d d' W ps tail) :
    Lay d (ps.map fun p => p.cell.lexeme) (source ps tail) := by
  induction ps with
  | nil => exact .done (gap_of ht)
  | cons p ps ih =>
    obtain ⟨a1, a2, _, _, a5⟩ := hl
    exact .next (gap_of a1) a2 (ih a5)

theorem gap'_blank {p : Piece} (h : ∀ c ∈ p.gap, blank c = true) : ∀ c ∈ p.gap', blank c = true := by
  unfold Piece.gap'
  split
  all_goals first | exact h | (intro c hc; simp at hc) | skip
  all_goals subst hc; decide

theorem relaid_lay {ps : List Piece} {tail : Text} (ht : ∀ c ∈ tail, blank c = true) (hl : Laid d d' W ps tail)
    (hr : Relaid d' W ps tail) : Lay d' (ps.map fun p => p.cell.lexeme' W) (target ps tail) := by
  induction ps with
  | nil => exact .done (gap_of ht)
  | cons p ps ih =>
    obtain ⟨a1, _, _, _, a5⟩ := hl
    exact .next (gap_of (gap'_blank a1)) hr.1 (ih a5 hr.2)

end

end Verif.Lemmas.TransProg
