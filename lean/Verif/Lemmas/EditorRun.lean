import Verif.Lemmas.EditorDoc
import Verif.Lemmas.Lines

/-!
# Lemmas: inserting into and removing from a text field
-/

namespace Verif.Model.Editor
open Verif.Spec.Editor

theorem take_pre {A B : Text} : (A ++ B).take A.length = A := List.take_left' rfl

theorem drop_pre {A B : Text} {n : Nat} : (A ++ B).drop (A.length + n) = B.drop n := by
  rw [List.drop_append]
  simp

/-- Moving the bytes behind a gap to its beginning. -/
theorem close_gap (A S B Z : Text) : ∃ m, memcpy false (A ++ (S ++ (B ++ Z))) A.length (A.length + S.length) B.length = .ok m ∧
    store m (A.length + B.length) (List.replicate S.length 0) = .ok (A ++ (B ++ (List.replicate S.length 0 ++ Z))) := by
  have hl : (A ++ (S ++ (B ++ Z))).length = A.length + (S.length + (B.length + Z.length)) := by simp
  refine ⟨_, by rw [memcpy, if_neg (by rw [hl]; omega), if_neg (by simp)], ?_⟩
  have h1 : ((A ++ (S ++ (B ++ Z))).drop (A.length + S.length)).take B.length = B := by
    rw [← List.append_assoc A S, ← List.length_append, List.drop_left' rfl, List.take_left' rfl]
  rw [take_pre, h1, drop_pre]
  have hd : ((S ++ (B ++ Z)).drop B.length).length = S.length + Z.length := by simp; omega
  have h2 : ((S ++ (B ++ Z)).drop B.length).drop S.length = Z := by
    rw [List.drop_drop, Nat.add_comm, ← List.append_assoc, List.drop_left' (by simp)]
  rw [store, if_neg (by simp only [List.length_append, List.length_replicate, hd]; omega)]
  rw [show A.length + B.length = (A ++ B).length by simp, take_pre, drop_pre, List.length_replicate, h2]
  simp

theorem drop_replicate_eq (n k : Nat) : (List.replicate n (0 : UInt8)).drop k = List.replicate (n - k) 0 := List.drop_replicate ..

/-- Making room for bytes and storing them. -/
theorem open_gap (A S B : Text) (k : Nat) (h : S.length ≤ k) : ∃ m m', memcpy false (A ++ (B ++ List.replicate (k + 2) 0)) (A.length + S.length) A.length B.length = .ok m ∧
    store m A.length S = .ok m' ∧
    store m' (A.length + B.length + S.length + 1) [0] = .ok (A ++ (S ++ (B ++ List.replicate (k + 2 - S.length) 0))) := by
  have hl : (A ++ (B ++ List.replicate (k + 2) (0 : UInt8))).length = A.length + (B.length + (k + 2)) := by simp
  have h1 : ((A ++ (B ++ List.replicate (k + 2) (0 : UInt8))).drop A.length).take B.length = B := by
    rw [List.drop_left' rfl, List.take_left' rfl]
  have h2 : (A ++ (B ++ List.replicate (k + 2) (0 : UInt8))).drop (A.length + S.length + B.length) = List.replicate (k + 2 - S.length) 0 := by
    rw [show A.length + S.length + B.length = A.length + (B.length + S.length) by omega, drop_pre, drop_pre, List.drop_replicate]
  have h3 : (A ++ (B ++ List.replicate (k + 2) (0 : UInt8))).take (A.length + S.length) = A ++ (B ++ List.replicate (k + 2) 0).take S.length := by
    rw [List.take_append, List.take_of_length_le (by omega), Nat.add_sub_cancel_left]
  refine ⟨_, A ++ (S ++ (B ++ List.replicate (k + 2 - S.length) 0)),
    by rw [memcpy, if_neg (by rw [hl]; omega), if_neg (by simp), h1, h2, h3], ?_, ?_⟩
  · have h4 : ((B ++ List.replicate (k + 2) (0 : UInt8)).take S.length).length = S.length := by simp; omega
    rw [store, if_neg (by simp only [List.length_append, h4]; omega)]
    simp only [List.append_assoc]
    rw [take_pre, drop_pre]
    rw [List.drop_left' h4]
  · have h5 : (A ++ (S ++ (B ++ List.replicate (k + 2 - S.length) (0 : UInt8)))).length = A.length + (S.length + (B.length + (k + 2 - S.length))) := by
      simp
    rw [store, if_neg (by rw [h5]; simp; omega)]
    have h6 : A ++ (S ++ (B ++ List.replicate (k + 2 - S.length) (0 : UInt8))) = (A ++ (S ++ (B ++ [0]))) ++ List.replicate (k + 1 - S.length) 0 := by
      rw [show k + 2 - S.length = (k + 1 - S.length) + 1 by omega, List.replicate_succ]
      simp
    have h7 : (A ++ (S ++ (B ++ [(0 : UInt8)]))).length = A.length + B.length + S.length + 1 := by simp; omega
    rw [h6, ← h7, take_pre, drop_pre, List.drop_replicate]
    congr 1
    rw [List.append_assoc, show k + 1 - S.length = (k + 1 - S.length - 1) + 1 by omega, List.replicate_succ]
    simp

/-- The state of the text field and the document it shows. -/
structure Shows (e : Ed) (d : Doc) : Prop where
  ok : ∀ s ∈ d.syms, s.Ok
  mem : ∃ k, e.mem = bytes d.left.reverse ++ (bytes d.right ++ List.replicate (k + 1) 0) ∧
    e.buf = (bytes d.left.reverse).length + (bytes d.right).length + k
  len : e.len = (bytes d.left.reverse).length + (bytes d.right).length
  idx : e.idx = d.cursor

/-- Nothing is selected. -/
def Calm (e : Ed) : Prop := e.selB = e.selE ∧ e.start = false

theorem Shows.holds {e : Ed} {d : Doc} (h : Shows e d) : Holds e.mem e.len d.syms := by
  refine ⟨h.ok, ?_, by rw [h.len, Doc.syms, bytes_append, List.length_append]⟩
  obtain ⟨k, hm, _⟩ := h.mem
  exact ⟨List.replicate k 0, by rw [hm, Doc.syms, bytes_append, List.append_assoc]; rfl⟩

/-- The same field with the cursor elsewhere. -/
theorem Shows.goto {e : Ed} {d d' : Doc} (h : Shows e d) (hs : d'.syms = d.syms) {e' : Ed} (h1 : e'.mem = e.mem)
    (h2 : e'.len = e.len) (h3 : e'.buf = e.buf) (h4 : e'.idx = d'.cursor) : Shows e' d' := by
  have hb : bytes d'.left.reverse ++ bytes d'.right = bytes d.left.reverse ++ bytes d.right := by
    rw [← bytes_append, ← bytes_append]; exact congrArg bytes hs
  have hl : (bytes d'.left.reverse).length + (bytes d'.right).length = (bytes d.left.reverse).length + (bytes d.right).length := by
    rw [← List.length_append, ← List.length_append, hb]
  obtain ⟨k, hm, hk⟩ := h.mem
  refine ⟨by rw [hs]; exact h.ok, ⟨k, ?_, by rw [h3, hk, hl]⟩, by rw [h2, h.len, hl], h4⟩
  rw [h1, hm, ← List.append_assoc, ← hb, List.append_assoc]

theorem syms_insert (d : Doc) (l : List Sym) : (d.insert l).syms = d.left.reverse ++ l ++ d.right := by
  simp [Doc.syms, Doc.insert]

theorem insOther_shows {e : Ed} {d : Doc} (h : Shows e d) (l : List Sym) (hl : ∀ s ∈ l, s.Ok) :
    ∃ e', insOther false e (bytes l) = .ok e' ∧ Shows e' (d.insert l) ∧ e'.selB = e.selB ∧ e'.selE = e.selE ∧ e'.start = e.start := by
  obtain ⟨k, hm, hk⟩ := h.mem
  have hlen := h.len
  have hidx : e.idx = (bytes d.left.reverse).length := h.idx
  have key : ∃ j, (if decide (e.buf < e.len + (bytes l).length + 1) = true then
        e.mem ++ List.replicate ((if decide (e.buf < e.len + (bytes l).length + 1) = true then e.len + (bytes l).length + 500 else e.buf) + 1 - e.mem.length) 0 else e.mem) =
      bytes d.left.reverse ++ (bytes d.right ++ List.replicate (j + 2) 0) ∧ (bytes l).length ≤ j ∧
      (if decide (e.buf < e.len + (bytes l).length + 1) = true then e.len + (bytes l).length + 500 else e.buf) =
        (bytes d.left.reverse).length + (bytes d.right).length + (j + 1) := by
    have hml : e.mem.length = (bytes d.left.reverse).length + (bytes d.right).length + (k + 1) := by rw [hm]; simp; omega
    by_cases hg : e.buf < e.len + (bytes l).length + 1
    · refine ⟨(bytes l).length + 499, ?_, by omega, ?_⟩
      · simp only [hg, decide_true, if_true]
        rw [hm, List.append_assoc, List.append_assoc, List.replicate_append_replicate]
        congr 3
        simp only [List.length_append, List.length_replicate]
        omega
      · simp only [hg, decide_true, if_true]; omega
    · refine ⟨k - 1, ?_, by omega, ?_⟩
      · simp only [hg, decide_false, Bool.false_eq_true, if_false]
        rw [hm]; congr 3; omega
      · simp only [hg, decide_false, Bool.false_eq_true, if_false]; omega
  obtain ⟨j, k1, k2, k3⟩ := key
  obtain ⟨m, m', g1, g2, g3⟩ := open_gap (bytes d.left.reverse) (bytes l) (bytes d.right) j k2
  rw [insOther]
  simp only [k1]
  simp only [k3]
  rw [size, if_neg (by omega), bind_ok]
  rw [show e.len - e.idx = (bytes d.right).length by omega, hidx, g1, bind_ok, g2, bind_ok, hlen, g3, bind_ok]
  refine ⟨_, rfl, ⟨?_, ⟨j + 1 - (bytes l).length, ?_, ?_⟩, ?_, ?_⟩, rfl, rfl, rfl⟩
  · intro s hs
    rw [syms_insert] at hs
    simp only [List.mem_append] at hs
    rcases hs with (hs | hs) | hs
    · exact h.ok s (by simp only [Doc.syms, List.mem_append]; exact .inl hs)
    · exact hl s hs
    · exact h.ok s (by simp only [Doc.syms, List.mem_append]; exact .inr hs)
  · simp only [Doc.insert, List.reverse_append, List.reverse_reverse, bytes_append, List.append_assoc]
    congr 4; omega
  · simp only [Doc.insert, List.reverse_append, List.reverse_reverse, bytes_append, List.length_append]
    omega
  · simp only [Doc.insert, List.reverse_append, List.reverse_reverse, bytes_append, List.length_append]
    omega
  · simp only [Doc.insert, Doc.cursor, List.reverse_append, List.reverse_reverse, bytes_append, List.length_append]

/-- Removing the symbols between two places. -/
theorem remove_shows {e : Ed} {l m r : List Sym} (hok : ∀ s ∈ l ++ m ++ r, s.Ok) (k : Nat)
    (hm : e.mem = bytes l ++ (bytes m ++ (bytes r ++ List.replicate (k + 1) 0)))
    (hk : e.buf = (bytes l).length + (bytes m).length + (bytes r).length + k)
    (hlen : e.len = (bytes l).length + (bytes m).length + (bytes r).length) :
    ∃ M M', size e.len ((bytes l).length + (bytes m).length) = .ok (bytes r).length ∧
      memcpy false e.mem (bytes l).length ((bytes l).length + (bytes m).length) (bytes r).length = .ok M ∧
      store M ((bytes l).length + (bytes r).length) (List.replicate (bytes m).length 0) = .ok M' ∧
      ∀ e' : Ed, e'.mem = M' → e'.len = (bytes l).length + (bytes r).length → e'.buf = e.buf → e'.idx = (bytes l).length →
        Shows e' ⟨l.reverse, r⟩ := by
  obtain ⟨M, g1, g2⟩ := close_gap (bytes l) (bytes m) (bytes r) (List.replicate (k + 1) 0)
  refine ⟨M, _, ?_, by rw [hm]; exact g1, g2, ?_⟩
  · rw [size, if_neg (by omega)]; congr 1; omega
  · intro e' h1 h2 h3 h4
    refine ⟨?_, ⟨(bytes m).length + k, ?_, ?_⟩, ?_, ?_⟩
    · intro s hs
      simp only [Doc.syms, List.reverse_reverse, List.mem_append] at hs
      exact hok s (by simp only [List.mem_append]; rcases hs with hs | hs <;> simp [hs])
    · rw [h1, List.reverse_reverse, List.replicate_append_replicate]
      congr 3
    · simp only [List.reverse_reverse]; omega
    · simp only [List.reverse_reverse]; omega
    · simp only [Doc.cursor, List.reverse_reverse]; exact h4

theorem insBackspace_shows {e : Ed} {d : Doc} (h : Shows e d) :
    ∃ e', insBackspace false e = .ok e' ∧ Shows e' d.backspace ∧ e'.selB = e.selB ∧ e'.selE = e.selE ∧ e'.start = e.start := by
  have hh := h.holds
  have hml := goLeft_eq hh
  obtain ⟨k, hm, hk⟩ := h.mem
  have hlen := h.len
  have hidx := h.idx
  have hok := h.ok
  obtain ⟨l, r⟩ := d
  cases l with
  | nil =>
    refine ⟨e, ?_, h, rfl, rfl, rfl⟩
    rw [insBackspace, if_pos (by rw [hidx]; rfl)]
  | cons s l =>
    have hc := cursor_cons s l r
    have hpos : 1 ≤ s.bytes.length := by
      obtain ⟨b, cs, e, _⟩ := ok_bytes (hok s (by simp [Doc.syms]))
      rw [e]; simp
    have hb : bytes [s] = s.bytes := by rw [bytes_cons, bytes_nil, List.append_nil]
    simp only [List.reverse_cons, bytes_append, hb, List.length_append, List.append_assoc] at hm hk hlen
    obtain ⟨M, M', g0, g1, g2, g3⟩ := remove_shows (e := e) (l := l.reverse) (m := [s]) (r := r)
      (by intro x hx; exact hok x (by simpa [Doc.syms] using hx)) k (by rw [hb]; exact hm) (by rw [hb]; exact hk) (by rw [hb]; exact hlen)
    rw [hb] at g0 g1 g2
    have hi : e.idx = (bytes l.reverse).length + s.bytes.length := by rw [hidx, hc]
    rw [insBackspace, if_neg (by omega), hidx, hml, bind_ok, hc, g0, bind_ok]
    have hg : (Doc.mk (s :: l) r).goLeft.cursor = (bytes l.reverse).length := rfl
    rw [hg, g1, bind_ok]
    simp only
    rw [show (bytes l.reverse).length + s.bytes.length - (bytes l.reverse).length = s.bytes.length by omega,
      show e.len - s.bytes.length = (bytes l.reverse).length + (bytes r).length by omega, g2, bind_ok]
    refine ⟨_, rfl, ?_, rfl, rfl, rfl⟩
    have := g3 { e with mem := M', len := (bytes l.reverse).length + (bytes r).length, idx := (bytes l.reverse).length } rfl rfl rfl rfl
    rw [List.reverse_reverse] at this
    exact this

theorem insDelete_shows {e : Ed} {d : Doc} (h : Shows e d) (hd : d.right = [] ∨ ∃ b r, d.right = .ch [b] :: r) :
    ∃ e', insDelete false e = .ok e' ∧ Shows e' d.delete ∧ e'.selB = e.selB ∧ e'.selE = e.selE ∧ e'.start = e.start := by
  have hh := h.holds
  have hml := goRight_eq hh
  obtain ⟨k, hm, hk⟩ := h.mem
  have hlen := h.len
  have hidx := h.idx
  have hok := h.ok
  obtain ⟨l, r⟩ := d
  rcases hd with hd | ⟨b, r', hd⟩
  · simp only at hd
    subst hd
    refine ⟨e, ?_, h, rfl, rfl, rfl⟩
    rw [insDelete, if_pos (by rw [hidx, hlen]; rfl)]
  · simp only at hd
    subst hd
    have hb : bytes [Sym.ch [b]] = [b] := rfl
    have hi : e.idx = (bytes l.reverse).length := hidx
    simp only [bytes_cons, Sym.bytes, List.length_append, List.append_assoc, List.length_cons, List.length_nil] at hm hk hlen
    obtain ⟨M, M', g0, g1, g2, g3⟩ := remove_shows (e := e) (l := l.reverse) (m := [.ch [b]]) (r := r')
      (by intro x hx; exact hok x (by simpa [Doc.syms] using hx)) k (by rw [hb]; exact hm) (by rw [hb]; simp only [List.length_cons, List.length_nil]; omega)
      (by rw [hb]; simp only [List.length_cons, List.length_nil]; omega)
    rw [hb] at g0 g1 g2
    simp only [List.length_cons, List.length_nil, Nat.zero_add] at g0 g1 g2
    have hg : (Doc.mk l (.ch [b] :: r')).goRight.cursor = (bytes l.reverse).length + 1 := by
      rw [Doc.goRight, cursor_cons]; rfl
    rw [insDelete, if_neg (by omega), hidx, hml, bind_ok, hg, g0, bind_ok, ← hidx, hi, g1, bind_ok]
    simp only
    rw [show (bytes l.reverse).length + 1 - (bytes l.reverse).length = 1 by omega,
      show e.len - 1 = (bytes l.reverse).length + (bytes r').length by omega]
    rw [show List.replicate 1 (0 : UInt8) = [0] from rfl] at g2
    rw [g2, bind_ok]
    refine ⟨_, rfl, ?_, rfl, rfl, rfl⟩
    have := g3 { e with mem := M', len := (bytes l.reverse).length + (bytes r').length, idx := (bytes l.reverse).length } rfl rfl rfl rfl
    rw [List.reverse_reverse] at this
    exact this

/-- Two cursors in the same text. -/
theorem between {l r l' r' : List Sym} (h : (Doc.mk l r).syms = (Doc.mk l' r').syms) (hle : l.length ≤ l'.length) :
    ∃ m, l' = m.reverse ++ l ∧ r = m ++ r' := by
  simp only [Doc.syms] at h
  have h1 : l.reverse = (l'.reverse).take l.length := by
    have := congrArg (List.take l.length) h
    rw [List.take_left' (by simp), List.take_append_of_le_length (by simpa using hle)] at this
    exact this
  refine ⟨l'.reverse.drop l.length, ?_, ?_⟩
  · have h2 : l'.reverse = l.reverse ++ l'.reverse.drop l.length := by
      rw [h1]; exact (List.take_append_drop ..).symm
    have := congrArg List.reverse h2
    simpa using this
  · have := congrArg (List.drop l.length) h
    rw [List.drop_left' (by simp), List.drop_append_of_le_length (by simpa using hle)] at this
    exact this

theorem cursor_between (l m r : List Sym) : (Doc.mk (m.reverse ++ l) r).cursor = (bytes l.reverse).length + (bytes m).length := by
  simp [Doc.cursor, bytes_append]

/-- Removing the selection between two cursors. -/
theorem textDel_shows {e : Ed} {d d' : Doc} (h : Shows e d') (hs : d'.syms = d.syms) (hB : e.selB = d.cursor) (hE : e.selE = d'.cursor)
    (hne : d'.cursor ≠ d.cursor) :
    ∃ e', textDel false e = .ok e' ∧ Shows e' (without d d') ∧ e'.selB = e'.selE ∧ e'.start = e.start := by
  have hok := h.ok
  have hlen := h.len
  obtain ⟨k, hm, hk⟩ := h.mem
  obtain ⟨l, r⟩ := d
  obtain ⟨l', r'⟩ := d'
  unfold without
  simp only at hok hlen hm hk ⊢
  by_cases hle : l.length ≤ l'.length
  · obtain ⟨m, rfl, rfl⟩ := between hs.symm hle
    rw [if_pos hle]
    rw [cursor_between] at hE hne
    have hB' : e.selB = (bytes l.reverse).length := hB
    have hne' : (bytes l.reverse).length + (bytes m).length ≠ (bytes l.reverse).length := hne
    simp only [List.reverse_append, List.reverse_reverse, bytes_append, List.length_append, List.append_assoc] at hm hk hlen
    obtain ⟨M, M', g0, g1, g2, g3⟩ := remove_shows (e := e) (l := l.reverse) (m := m) (r := r')
      (by intro x hx; exact hok x (by simpa [Doc.syms] using hx)) k hm hk hlen
    have hmin : min e.selB e.selE = (bytes l.reverse).length := by omega
    have hmax : max e.selB e.selE = (bytes l.reverse).length + (bytes m).length := by omega
    rw [textDel]
    simp only [hmin, hmax]
    rw [if_neg hne', g0, bind_ok, g1, bind_ok,
      show (bytes l.reverse).length + (bytes m).length - (bytes l.reverse).length = (bytes m).length by omega,
      show e.len - (bytes m).length = (bytes l.reverse).length + (bytes r').length by omega, g2, bind_ok, bind_ok]
    refine ⟨_, rfl, ?_, rfl, rfl⟩
    have := g3 { e with mem := M', len := (bytes l.reverse).length + (bytes r').length, idx := (bytes l.reverse).length, selB := e.selE } rfl rfl rfl rfl
    rw [List.reverse_reverse] at this
    exact this
  · obtain ⟨m, rfl, rfl⟩ := between hs (by omega)
    rw [if_neg hle]
    rw [cursor_between] at hB hne
    have hE' : e.selE = (bytes l'.reverse).length := hE
    have hne' : (bytes l'.reverse).length ≠ (bytes l'.reverse).length + (bytes m).length := hne
    simp only [bytes_append, List.length_append, List.append_assoc] at hm hk hlen
    obtain ⟨M, M', g0, g1, g2, g3⟩ := remove_shows (e := e) (l := l'.reverse) (m := m) (r := r)
      (by intro x hx; exact hok x (by simpa [Doc.syms] using hx)) k hm (by omega) (by omega)
    have hmin : min e.selB e.selE = (bytes l'.reverse).length := by omega
    have hmax : max e.selB e.selE = (bytes l'.reverse).length + (bytes m).length := by omega
    rw [textDel]
    simp only [hmin, hmax]
    rw [if_neg (Ne.symm hne'), g0, bind_ok, g1, bind_ok,
      show (bytes l'.reverse).length + (bytes m).length - (bytes l'.reverse).length = (bytes m).length by omega,
      show e.len - (bytes m).length = (bytes l'.reverse).length + (bytes r).length by omega, g2, bind_ok, bind_ok]
    refine ⟨_, rfl, ?_, rfl, rfl⟩
    have := g3 { e with mem := M', len := (bytes l'.reverse).length + (bytes r).length, idx := (bytes l'.reverse).length, selB := e.selE } rfl rfl rfl rfl
    rw [List.reverse_reverse] at this
    exact this

/-- The events that what a user does causes (`media.c:1597-1713`). -/
def events : Act → List Ev
  | .typed l => [.typed (bytes l)]
  | .ret => [.ret]
  | .tab => [.tab]
  | .backspace => [.backspace]
  | .delete => [.delete]
  | .move m => [.key (keyOf m)]
  | .remove held ms back =>
    let del := if back then Ev.backspace else Ev.delete
    .shiftDown :: ms.map (fun m => Ev.key (keyOf m)) ++ (if held then [del, .shiftUp] else [.shiftUp, del])
  | .wait => [.frame]
  | .append l => [.append (bytes l)]
  | .cut ms => .shiftDown :: ms.map (fun m => Ev.key (keyOf m)) ++ [.shiftUp, .cut]
  | .replace ms l => .shiftDown :: ms.map (fun m => Ev.key (keyOf m)) ++ [.shiftUp, .append (bytes l)]

theorem key_shows {e : Ed} {d : Doc} (h : Shows e d) (m : Move) (hm : MoveOk m d) :
    ∃ e', pressKey e (keyOf m) = .ok e' ∧ Shows e' (moved m d) ∧ e'.start = e.start ∧
      (e.start = false → e.selB = e.selE → e'.selB = e'.selE) ∧ (e.start = true → e'.selB = e.selB ∧ e'.selE = (moved m d).cursor) := by
  have hc := cursormove_eq h.holds m hm
  rw [← h.idx] at hc
  have hs := syms_moved m d
  clear hm
  generalize moved m d = d' at *
  cases hst : e.start with
  | false =>
    have ha : arrowkeySelection e = { e with selB := e.idx, selE := e.idx } := by rw [arrowkeySelection, hst]; rfl
    cases m <;> simp only [keyOf] at hc ⊢ <;> simp only [pressKey, ha, hst, hc, bind_ok, Bool.false_eq_true, if_false] <;>
      refine ⟨_, rfl, h.goto hs rfl rfl rfl rfl, rfl, ?_, fun h => nomatch h⟩ <;> intro _ hsel <;> first | rfl | exact hsel
  | true =>
    have ha : arrowkeySelection e = { e with selE := e.idx } := by rw [arrowkeySelection, hst]; rfl
    cases m <;> simp only [keyOf] at hc ⊢ <;> simp only [pressKey, ha, hst, hc, bind_ok, if_true] <;>
      exact ⟨_, rfl, h.goto hs rfl rfl rfl rfl, rfl, (fun h => nomatch h), fun _ => ⟨rfl, rfl⟩⟩

theorem run_append (strict : Bool) (e : Ed) (a b : List Ev) : run strict e (a ++ b) = (run strict e a).bind fun e => run strict e b := by
  induction a generalizing e with
  | nil => rfl
  | cons v a ih =>
    simp only [List.cons_append, run]
    cases step strict e v with
    | ok x => exact ih x
    | ub => rfl
    | exit => rfl

theorem keys_show {ms : List Move} : ∀ {e : Ed} {d : Doc}, Shows e d → MovesOk ms d → e.start = true →
    ∃ e', run false e (ms.map fun m => Ev.key (keyOf m)) = .ok e' ∧ Shows e' (movedAll ms d) ∧ e'.start = true ∧ e'.selB = e.selB ∧
      (ms ≠ [] → e'.selE = (movedAll ms d).cursor) := by
  induction ms with
  | nil => intro e d h _ hs; exact ⟨e, rfl, h, hs, rfl, fun h => absurd rfl h⟩
  | cons m ms ih =>
    intro e d h hm hs
    obtain ⟨e1, k1, k2, k3, _, k5⟩ := key_shows h m hm.1
    obtain ⟨k5a, k5b⟩ := k5 hs
    obtain ⟨e2, j1, j2, j3, j4, j5⟩ := ih k2 hm.2 (by rw [k3, hs])
    refine ⟨e2, ?_, j2, j3, by rw [j4, k5a], ?_⟩
    · simp only [List.map_cons, run, step]
      rw [k1, bind_ok]
      exact j1
    · intro _
      cases ms with
      | nil =>
        simp only [List.map_nil, run, Out.ok.injEq] at j1
        rw [← j1]
        exact k5b
      | cons m' ms => exact j5 (by simp)

theorem frame_shows {e : Ed} {d : Doc} (h : Shows e d) : Shows (frame e) d := by
  refine h.goto rfl rfl rfl rfl ?_
  simp only [frame]
  have := h.len
  have hi : e.idx = (bytes d.left.reverse).length := h.idx
  rw [if_neg (by omega)]
  exact hi

theorem Shows.sel {e : Ed} {d : Doc} (h : Shows e d) (b f : Nat) (s : Bool) : Shows { e with selB := b, selE := f, start := s } d :=
  h.goto rfl rfl rfl rfl h.idx

theorem del_step {e : Ed} (back : Bool) (hne : e.selB ≠ e.selE) : step false e (if back then Ev.backspace else Ev.delete) = textDel false e := by
  cases back <;> simp [step, hne]

/-- Selecting with Shift. -/
theorem selects_show {e : Ed} {d : Doc} (h : Shows e d) (ms : List Move) (hm : MovesOk ms d)
    (hne : (movedAll ms d).cursor ≠ d.cursor) :
    ∃ e1, (∀ t, run false e (.shiftDown :: ms.map (fun m => Ev.key (keyOf m)) ++ t) = run false e1 t) ∧
      Shows e1 (movedAll ms d) ∧ e1.selB = d.cursor ∧ e1.selE = (movedAll ms d).cursor := by
  have hms : ms ≠ [] := by
    intro e; subst e; exact hne rfl
  obtain ⟨e1, g1, g2, g3, g4, g5⟩ := keys_show (ms := ms) (e := { e with selB := e.idx, start := true }) (h.goto rfl rfl rfl rfl h.idx) hm rfl
  refine ⟨e1, ?_, g2, by rw [g4]; exact h.idx, g5 hms⟩
  intro t
  rw [List.cons_append, run, step, bind_ok, run_append, g1, bind_ok]

theorem textDel_idx {e e' : Ed} {strict : Bool} (h : textDel strict e = .ok e') : e'.idx = min e.selB e.selE := by
  unfold textDel at h
  obtain ⟨e1, _, h2⟩ := Out.bind_eq_ok.1 h
  cases h2
  rfl

/-- One thing that a user does. -/
theorem act_shows {e : Ed} {d : Doc} (h : Shows e d) (hc : Calm e) (a : Act) (ha : ActOk a d) :
    ∃ e', run false e (events a) = .ok e' ∧ Shows e' (after a d) ∧ Calm e' := by
  obtain ⟨hsel, hst⟩ := hc
  have h0 : Shows { e with selB := e.selE } d := h.goto rfl rfl rfl rfl h.idx
  have fin : ∀ x : Out Ed, ∀ P : Ed → Prop, (∃ e', x = .ok e' ∧ P e') → ∃ e', x.bind (fun e => Out.ok e) = .ok e' ∧ P e' := by
    rintro x P ⟨e', rfl, hp⟩; exact ⟨e', rfl, hp⟩
  cases a with
  | typed l =>
    obtain ⟨h1, h2, h3, h4⟩ := ha
    have hne : bytes l ≠ [] := by
      have := bytes_pos (fun s hs => (h1 s hs).1) h2
      intro e; rw [e] at this; simp at this
    obtain ⟨e', g1, g2, g3, g4, g5⟩ := insOther_shows h0 l (fun s hs => (h1 s hs).1)
    refine ⟨e', ?_, g2, by rw [g3, g4], by rw [g5]; exact hst⟩
    simp only [events, run, step]
    rw [if_neg hne]
    simp only [textinsert]
    rw [if_neg h3, if_neg h4, g1, bind_ok]
  | ret =>
    obtain ⟨e', g1, g2, g3, g4, g5⟩ := insOther_shows h0 [.nl] (by intro s hs; simp only [List.mem_singleton] at hs; subst hs; trivial)
    refine ⟨e', ?_, g2, by rw [g3, g4], by rw [g5]; exact hst⟩
    simp only [events, run, step, textinsert]
    rw [if_neg (by decide), if_neg (by decide)]
    rw [show bytes [Sym.nl] = [13, 10] from rfl] at g1
    rw [g1, bind_ok]
  | tab =>
    obtain ⟨e', g1, g2, g3, g4, g5⟩ := insOther_shows h0 (List.replicate 4 (.ch [32]))
      (by intro s hs; rw [List.eq_of_mem_replicate hs]; decide)
    refine ⟨e', ?_, g2, by rw [g3, g4], by rw [g5]; exact hst⟩
    simp only [events, run, step, textinsert]
    rw [if_neg (by decide), if_neg (by decide)]
    rw [show bytes (List.replicate 4 (Sym.ch [32])) = [32, 32, 32, 32] from rfl] at g1
    rw [g1, bind_ok]
  | backspace =>
    obtain ⟨e', g1, g2, g3, g4, g5⟩ := insBackspace_shows h0
    refine ⟨e', ?_, g2, by rw [g3, g4], by rw [g5]; exact hst⟩
    simp only [events, run, step, textinsert]
    rw [if_neg (by simpa using hsel), if_pos trivial, g1, bind_ok]
  | delete =>
    obtain ⟨e', g1, g2, g3, g4, g5⟩ := insDelete_shows h0 ha
    refine ⟨e', ?_, g2, by rw [g3, g4], by rw [g5]; exact hst⟩
    simp only [events, run, step, textinsert]
    rw [if_neg (by simpa using hsel), if_neg (by decide), if_pos trivial, g1, bind_ok]
  | move m =>
    obtain ⟨e', g1, g2, g3, g4, _⟩ := key_shows h m ha
    refine ⟨e', ?_, g2, g4 hst hsel, by rw [g3]; exact hst⟩
    simp only [events, run, step]
    rw [g1, bind_ok]
  | remove held ms back =>
    obtain ⟨hm, hne⟩ := ha
    have hms : ms ≠ [] := by
      intro e; subst e; exact hne rfl
    obtain ⟨e1, g1, g2, g3, g4, g5⟩ := keys_show (ms := ms) (e := { e with selB := e.idx, start := true }) (h.goto rfl rfl rfl rfl h.idx) hm rfl
    have g5' := g5 hms
    have g4' : e1.selB = d.cursor := by rw [g4]; exact h.idx
    have hrun : ∀ t, run false e (.shiftDown :: ms.map (fun m => Ev.key (keyOf m)) ++ t) = run false e1 t := by
      intro t
      rw [List.cons_append, run, step, bind_ok, run_append, g1, bind_ok]
    have hs := syms_movedAll ms d
    simp only [events, after]
    rw [hrun]
    cases held with
    | true =>
      obtain ⟨e2, j1, j2, j3, j4⟩ := textDel_shows g2 hs g4' g5' hne
      refine ⟨{ e2 with start := false }, ?_, j2.goto rfl rfl rfl rfl j2.idx, j3, rfl⟩
      simp only [if_true, run]
      rw [del_step back (by rw [g4', g5']; exact Ne.symm hne), j1, bind_ok]
      rfl
    | false =>
      obtain ⟨e2, j1, j2, j3, j4⟩ := textDel_shows (e := { e1 with start := false }) (g2.goto rfl rfl rfl rfl g2.idx) hs g4' g5' hne
      refine ⟨e2, ?_, j2, j3, by rw [j4]⟩
      simp only [Bool.false_eq_true, if_false, run]
      rw [show step false e1 .shiftUp = .ok { e1 with start := false } from rfl, bind_ok,
        del_step back (by show e1.selB ≠ e1.selE; rw [g4', g5']; exact Ne.symm hne), j1, bind_ok]
  | wait =>
    refine ⟨frame e, rfl, frame_shows h, ?_, hst⟩
    simp only [frame, hsel]
  | append l =>
    obtain ⟨h1, h3, h4⟩ := ha
    obtain ⟨e', g1, g2, g3, g4, g5⟩ := insOther_shows h0 l h1
    refine ⟨e', ?_, g2, by rw [g3, g4], by rw [g5]; exact hst⟩
    simp only [events, run, step, textIns]
    rw [if_neg (by rw [hsel]; omega), bind_ok]
    simp only [textinsert]
    rw [if_neg h3, if_neg h4, g1, bind_ok]
  | cut ms =>
    obtain ⟨hm, hne⟩ := ha
    obtain ⟨e1, hrun, g2, g4, g5⟩ := selects_show h ms hm hne
    obtain ⟨e2, j1, j2, j3, j4⟩ := textDel_shows (e := { e1 with start := false }) (g2.goto rfl rfl rfl rfl g2.idx)
      (syms_movedAll ms d) g4 g5 hne
    refine ⟨e2, ?_, j2, j3, by rw [j4]⟩
    simp only [events]
    rw [hrun]
    simp only [run]
    rw [show step false e1 .shiftUp = .ok { e1 with start := false } from rfl, bind_ok]
    simp only [step]
    rw [j1, bind_ok]
  | replace ms l =>
    obtain ⟨hm, hne, h1, h3, h4⟩ := ha
    obtain ⟨e1, hrun, g2, g4, g5⟩ := selects_show h ms hm hne
    obtain ⟨e2, j1, j2, j3, j4⟩ := textDel_shows (e := { e1 with start := false }) (g2.goto rfl rfl rfl rfl g2.idx)
      (syms_movedAll ms d) g4 g5 hne
    have hidx : e2.idx = min e1.selB e1.selE := textDel_idx (e := { e1 with start := false }) j1
    obtain ⟨e3, k1, k2, k3, k4, k5⟩ := insOther_shows (e := { e2 with selB := e2.selE }) (j2.goto rfl rfl rfl rfl j2.idx) l h1
    refine ⟨e3, ?_, k2, by rw [k3, k4], by rw [k5]; exact j4⟩
    simp only [events]
    rw [hrun]
    simp only [run]
    rw [show step false e1 .shiftUp = .ok { e1 with start := false } from rfl, bind_ok]
    simp only [step, textIns]
    rw [if_pos (by rw [g4, g5]; omega), j1, bind_ok, bind_ok, ← hidx]
    simp only [textinsert]
    rw [if_neg h3, if_neg h4, k1, bind_ok]

/-- All that a user does. -/
theorem acts_show {acts : List Act} : ∀ {e : Ed} {d : Doc}, Shows e d → Calm e → ActsOk acts d →
    ∃ e', run false e (acts.flatMap events) = .ok e' ∧ Shows e' (afterAll acts d) ∧ Calm e' := by
  induction acts with
  | nil => intro e d h hc _; exact ⟨e, rfl, h, hc⟩
  | cons a l ih =>
    intro e d h hc ha
    obtain ⟨e1, g1, g2, g3⟩ := act_shows h hc a ha.1
    obtain ⟨e2, j1, j2, j3⟩ := ih g2 g3 ha.2
    refine ⟨e2, ?_, j2, j3⟩
    rw [List.flatMap_cons, run_append, g1, bind_ok, j1]

theorem memcpy_none (strict : Bool) (mem : Text) (dst src : Nat) : memcpy strict mem dst src 0 = memcpy false mem dst src 0 := by
  unfold memcpy
  split
  · rfl
  · rw [if_neg (by omega), if_neg (by simp)]

/-- At the end of the text nothing is moved. -/
theorem insOther_end {e : Ed} (h : e.idx = e.len) (strict : Bool) (t : Text) : insOther strict e t = insOther false e t := by
  unfold insOther
  simp only [size, h, Nat.lt_irrefl, if_false, Nat.sub_self, bind_ok]
  rw [memcpy_none]

theorem insBackspace_end {e : Ed} (h : e.idx = e.len) (strict : Bool) : insBackspace strict e = insBackspace false e := by
  unfold insBackspace
  split
  · rfl
  · congr 1
    funext i
    simp only [size, h, Nat.lt_irrefl, if_false, Nat.sub_self, bind_ok]
    rw [memcpy_none]

theorem act_end {e : Ed} {d : Doc} (h : Shows e d) (hc : Calm e) (hr : d.right = []) (strict : Bool) (a : Act) (ha : AtEnd a) :
    run strict e (events a) = run false e (events a) := by
  have hi : e.idx = e.len := by rw [h.idx, h.len, hr]; rfl
  have hins : ∀ t, textinsert strict e t = textinsert false e t := by
    intro t
    unfold textinsert
    simp only
    split
    · exact insBackspace_end (by exact hi) strict
    · split
      · unfold insDelete
        rw [if_pos (by exact hi), if_pos (by exact hi)]
      · exact insOther_end (by exact hi) strict t
  have hs : ∀ v, step strict e v = step false e v → run strict e [v] = run false e [v] := by
    intro v hv
    rw [run, run, hv]
    rfl
  cases a with
  | typed l =>
    refine hs _ ?_
    simp only [step]
    split
    · rfl
    · exact hins _
  | ret => exact hs _ (by simp only [step]; exact hins _)
  | tab => exact hs _ (by simp only [step]; exact hins _)
  | backspace =>
    refine hs _ ?_
    simp only [step]
    rw [if_neg (by simpa using hc.1), if_neg (by simpa using hc.1)]
    exact hins _
  | wait => rfl
  | delete => exact ha.elim
  | move m => exact ha.elim
  | remove a b c => exact ha.elim
  | append l =>
    refine hs _ ?_
    simp only [step, textIns]
    rw [if_neg (by rw [hc.1]; omega), if_neg (by rw [hc.1]; omega)]
    exact hins _
  | cut ms => exact ha.elim
  | replace ms l => exact ha.elim

theorem acts_end {acts : List Act} : ∀ {e : Ed} {d : Doc}, Shows e d → Calm e → d.right = [] → (∀ a ∈ acts, AtEnd a) → ActsOk acts d →
    ∀ strict, run strict e (acts.flatMap events) = run false e (acts.flatMap events) := by
  induction acts with
  | nil => intro e d _ _ _ _ _ _; rfl
  | cons a l ih =>
    intro e d h hc hr hat ha strict
    have h1 := act_end h hc hr strict a (hat a (List.mem_cons_self ..))
    obtain ⟨e1, g1, g2, g3⟩ := act_shows h hc a ha.1
    have hr' : (after a d).right = [] := by
      have := hat a (List.mem_cons_self ..)
      cases a <;> first | exact this.elim | exact hr
    rw [List.flatMap_cons, run_append, run_append, h1, g1, bind_ok, bind_ok]
    exact ih g2 g3 hr' (fun a ha => hat a (List.mem_cons_of_mem _ ha)) ha.2 strict

theorem opened_shows {l : List Sym} (h : ∀ s ∈ l, s.Ok) : Shows (opened (bytes l)) ⟨[], l⟩ := by
  refine ⟨by simpa [Doc.syms] using h, ⟨0, ?_, ?_⟩, ?_, rfl⟩
  · simp [opened, bytes_nil]
  · simp [opened, bytes_nil]
  · simp [opened, bytes_nil]

theorem no_zero {l : List Sym} (h : ∀ s ∈ l, s.Ok) : ∀ c ∈ bytes l, c ≠ 0 := by
  induction l with
  | nil => intro c hc; cases hc
  | cons s l ih =>
    intro c hc
    rw [bytes_cons] at hc
    rcases List.mem_append.1 hc with hc | hc
    · have hs := h s (List.mem_cons_self ..)
      cases s with
      | nl => simp only [Sym.bytes, List.mem_cons, List.not_mem_nil, or_false] at hc; rcases hc with rfl | rfl <;> decide
      | ch t =>
        cases t with
        | nil => exact absurd hs id
        | cons b cs =>
          simp only [Sym.bytes, List.mem_cons] at hc
          rcases hc with rfl | hc
          · exact hs.2.1
          · intro e; subst e; exact absurd (hs.2.2.2.2 _ hc) (by decide)
    · exact ih (fun s hs => h s (List.mem_cons_of_mem _ hs)) c hc

theorem written_plain (cs t : Text) (h : ∀ c ∈ cs, c ≠ 9 ∧ c ≠ 10 ∧ c ≠ 13) (prev : UInt8) (hp : prev ≠ 13) :
    ∃ q, q ≠ 13 ∧ Lines.written prev (cs ++ t) = cs ++ Lines.written q t := by
  induction cs generalizing prev with
  | nil => exact ⟨prev, hp, rfl⟩
  | cons c cs ih =>
    obtain ⟨h9, h10, h13⟩ := h c (List.mem_cons_self ..)
    obtain ⟨q, hq, e⟩ := ih (fun c hc => h c (List.mem_cons_of_mem _ hc)) c h13
    refine ⟨q, hq, ?_⟩
    have hb : Spec.Lines.blank c = c := by unfold Spec.Lines.blank; rw [if_neg h9]
    simp only [List.cons_append, Lines.written, hb]
    rw [if_neg (fun x => h10 x.1), if_neg (fun x => hp x.1), e]
    rfl

/-- Such a text is written as it is. -/
theorem written_bytes {l : List Sym} (h : ∀ s ∈ l, s.Ok) (h9 : ∀ c ∈ bytes l, c ≠ 9) (prev : UInt8) (hp : prev ≠ 13) :
    Lines.written prev (bytes l) = bytes l := by
  induction l generalizing prev with
  | nil => rfl
  | cons s l ih =>
    have h9' : ∀ c ∈ s.bytes, c ≠ 9 := fun c hc => h9 c (by rw [bytes_cons]; exact List.mem_append_left _ hc)
    have hi := ih (fun s hs => h s (List.mem_cons_of_mem _ hs)) (fun c hc => h9 c (by rw [bytes_cons]; exact List.mem_append_right _ hc))
    rw [bytes_cons]
    by_cases hs : s = .nl
    · subst hs
      refine Eq.trans (Lines.written_crlf hp (bytes l)) ?_
      rw [hi 10 (by decide)]
      rfl
    · obtain ⟨n1, n2, _⟩ := ch_no (h s (List.mem_cons_self ..)) hs
      obtain ⟨q, hq, e⟩ := written_plain s.bytes (bytes l) (fun c hc => ⟨h9' c hc, n1 c hc, n2 c hc⟩) prev hp
      rw [e, hi q hq]

theorem write_shows {e : Ed} {l : List Sym} (h : ∀ s ∈ l, s.Ok) (h9 : ∀ c ∈ bytes l, c ≠ 9) (hi : e.idx = 0) :
    ∃ e', write e (bytes l) = .ok e' ∧ Shows e' ⟨[], l⟩ ∧ e'.selB = e.selB ∧ e'.selE = e.selE ∧ e'.start = e.start := by
  obtain ⟨k, hk⟩ := Lines.normalize_eq (bytes l) [] (no_zero h)
  rw [written_bytes h h9 0 (by decide)] at hk
  rw [write, hk, bind_ok, Lines.cstring_eq _ _ (no_zero h), bind_ok]
  have hlen : k = 0 := by
    obtain ⟨d, e, hl⟩ := Lines.loop_eq (bytes l).length (bytes l) 0 0 [] (by simp)
    rw [List.nil_append] at e hl
    rw [Lines.normalize, Lines.cstring_eq _ _ (no_zero h)] at hk
    simp only [Lines.bind_ok, e, hl] at hk
    rw [written_bytes h h9 0 (by decide)] at hk
    have := congrArg (fun x : Out Text => match x with | .ok t => t.length | _ => 0) hk
    simp at this
    omega
  subst hlen
  refine ⟨_, rfl, ⟨by simpa [Doc.syms] using h, ⟨0, ?_, ?_⟩, ?_, hi⟩, rfl, rfl, rfl⟩ <;> simp [bytes_nil]

end Verif.Model.Editor
