import Verif.Model.Generate
import Verif.Spec.Generate
import Verif.Lemmas.Translator

/-!
# Reading headers and making a dictionary: lemmas
-/

namespace Verif.Lemmas.Gen
open Verif Verif.Model Verif.Model.Trans Verif.Model.Gen Verif.Spec Verif.Lemmas.Trans

theorem occurs_iff (n h : Text) : occurs n h = true ↔ n <:+: h := by
  induction h with
  | nil =>
    unfold occurs
    rw [List.isPrefixOf_iff_prefix]
    simp [List.prefix_nil, List.infix_nil]
  | cons c h ih =>
    unfold occurs
    rw [Bool.or_eq_true, ih, List.isPrefixOf_iff_prefix, List.infix_cons_iff]

theorem blank_iff (c : UInt8) : Txt.isspace c = true ↔ Blank c := by
  unfold Txt.isspace Blank
  simp

theorem cstr_eq {t : Text} (h : ∀ c ∈ t, c ≠ 0) : cstr t = t :=
  takeWhile_all (by intro c hc; simpa using h c hc)

theorem literal_append (l t : Text) : literal l (l ++ t) = (true, t) := by
  induction l with
  | nil => rfl
  | cons c l ih => simp only [List.cons_append, literal, if_pos]; exact ih

theorem ws_gap {g t : Text} {c : UInt8} (hg : ∀ c ∈ g, Blank c) (hc : ¬ Blank c) : ws (g ++ c :: t) = c :: t :=
  dropWhile_stop (by intro x hx; exact (blank_iff x).2 (hg x hx))
    (by rw [← Bool.not_eq_true, blank_iff]; exact hc)

theorem take_stop {p : UInt8 → Bool} {w t : Text} {b : UInt8} (hl : w.length < 180) (hw : ∀ c ∈ w, p c = true)
    (hb : p b = false) : ((w ++ b :: t).take 180).takeWhile p = w := by
  rw [List.take_append, List.take_of_length_le (by omega)]
  obtain ⟨k, hk⟩ : ∃ k, 180 - w.length = k + 1 := ⟨180 - w.length - 1, by omega⟩
  rw [hk, List.take_succ_cons]
  exact takeWhile_stop hw hb

theorem word_eq {w g t : Text} {b : UInt8} (hg : ∀ c ∈ g, Blank c) (hw : ∀ c ∈ w, ¬ Blank c) (h0 : w ≠ [])
    (hl : w.length < 180) (hb : Blank b) : word (g ++ (w ++ b :: t)) = some (w, b :: t) := by
  obtain ⟨c, r, rfl⟩ := List.exists_cons_of_ne_nil h0
  have h1 : ws (g ++ ((c :: r) ++ b :: t)) = (c :: r) ++ b :: t := ws_gap hg (hw c (by simp))
  have h2 : (((c :: r) ++ b :: t).take 180).takeWhile (fun c => !Txt.isspace c) = c :: r :=
    take_stop hl (by intro x hx; have := hw x hx; rw [← blank_iff] at this; simpa using this)
      (by have := (blank_iff b).2 hb; simp [this])
  unfold word
  rw [h1, h2]
  simp

theorem quoted_eq {w t : Text} (hw : ∀ c ∈ w, c ≠ 34) (h0 : w ≠ []) (hl : w.length < 180) :
    quoted (w ++ 34 :: t) = some (w, 34 :: t) := by
  have h2 : ((w ++ 34 :: t).take 180).takeWhile (· != 34) = w :=
    take_stop hl (by intro x hx; simpa using hw x hx) (by rfl)
  unfold quoted
  rw [h2]
  simp [h0]

theorem keep_eq {f : Text} (h : f.length < 180) : keep f = .ok f := by
  unfold keep maxWord
  rw [if_neg (by omega)]

theorem bind_ok {α β : Type} (a : α) (f : α → Out β) : (Out.ok a).bind f = f a := rfl

/-- What may follow a line: nothing, or another line. -/
def Begins (r : Text) : Prop := r = [] ∨ ∃ t, r = 35 :: t

theorem ws_begins {r : Text} (h : Begins r) : ws (10 :: r) = r := by
  rcases h with rfl | ⟨t, rfl⟩
  · rfl
  · exact ws_gap (g := [10]) (by intro c hc; simp at hc; subst hc; decide) (by decide)

theorem header_begins (ls : List HLine) : Begins (header ls) := by
  cases ls with
  | nil => exact .inl rfl
  | cons l ls => exact .inr ⟨_, rfl⟩

theorem render_eq (l : HLine) (r : Text) :
    l.render ++ r = define ++ ([32] ++ (l.key ++ (l.gap ++ 34 :: (l.word ++ 34 :: (l.tail ++ 10 :: r))))) := by
  unfold HLine.render define
  simp [List.append_assoc]

theorem scanNote_eq {l : HLine} (h : l.Plain) {r : Text} (hr : Begins r) :
    scanNote l.key l.word (l.tail ++ 10 :: r) = .ok ⟨some l.key, some l.word, l.note.map (· ++ [35]), r⟩ := by
  unfold scanNote HLine.tail
  cases hn : l.note with
  | none =>
    have h1 : literal [47, 47] r = (false, r) := by
      rcases hr with rfl | ⟨t, rfl⟩
      · rfl
      · rfl
    dsimp only
    rw [List.nil_append, ws_begins hr, h1]
    rfl
  | some n =>
    obtain ⟨h1, h2⟩ := h.noteBytes n hn
    have h3 : ws ([32, 47, 47] ++ n ++ [35] ++ 10 :: r) = [47, 47] ++ (n ++ [35] ++ 10 :: r) := by
      have := ws_gap (g := [32]) (t := 47 :: (n ++ [35] ++ 10 :: r)) (c := 47)
        (by intro c hc; simp at hc; subst hc; decide) (by decide)
      simpa [List.append_assoc] using this
    have h4 : word ([] ++ ((n ++ [35]) ++ 10 :: r)) = some (n ++ [35], 10 :: r) := by
      refine word_eq (by intro c hc; cases hc) ?_ (by simp) (by simp; omega) (by decide)
      intro c hc
      rcases List.mem_append.1 hc with hc | hc
      · exact (h2 c hc).2
      · simp at hc; subst hc; decide
    dsimp only
    rw [h3, literal_append]
    dsimp only
    rw [List.nil_append] at h4
    rw [h4]
    dsimp only
    rw [keep_eq (by simp; omega), bind_ok, ws_begins hr]
    rfl

/-- A line of a header is read as it was written; the note is read from the second header only. -/
theorem scan_eq (notes : Bool) {l : HLine} (h : l.Plain) (hn : notes = false → l.note = none) {r : Text} (hr : Begins r) :
    scan notes (l.render ++ r) = .ok ⟨some l.key, some l.word, l.note.map (· ++ [35]), r⟩ := by
  obtain ⟨b, g, hg⟩ := List.exists_cons_of_ne_nil h.gap
  have hb : Blank b := h.gapBytes b (by rw [hg]; simp)
  have h1 : word ([32] ++ (l.key ++ (l.gap ++ 34 :: (l.word ++ 34 :: (l.tail ++ 10 :: r))))) =
      some (l.key, l.gap ++ 34 :: (l.word ++ 34 :: (l.tail ++ 10 :: r))) := by
    rw [hg, List.cons_append]
    exact word_eq (g := [32]) (by intro c hc; simp at hc; subst hc; decide) (fun c hc => (h.keyBytes c hc).2) h.key h.keyShort hb
  unfold scan
  rw [render_eq, literal_append]
  dsimp only
  rw [h1]
  dsimp only
  rw [keep_eq h.keyShort, bind_ok]
  unfold scanText
  rw [ws_gap h.gapBytes (by decide)]
  simp only [quote, if_pos]
  rw [quoted_eq (fun c hc => (h.wordBytes c hc).2) h.word h.wordShort]
  dsimp only
  rw [keep_eq h.wordShort, bind_ok]
  cases notes with
  | true => exact scanNote_eq h hr
  | false =>
    have := hn rfl
    have ht : l.tail = [] := by unfold HLine.tail; rw [this]
    rw [ht, this, List.nil_append]
    show Out.ok (⟨some l.key, some l.word, none, ws (10 :: r)⟩ : Scan) = _
    rw [ws_begins hr]
    rfl

theorem scanSecond_eq {l : HLine} (h : l.Plain) {r : Text} (hr : Begins r) :
    scanSecond (l.render ++ r) = .ok ⟨some l.key, some l.word, l.note.map (· ++ [35]), r⟩ := by
  unfold scanSecond
  rw [scan_eq true h (by intro h; cases h) hr]
  rfl

theorem scan_nil (notes : Bool) : scan notes [] = .ok ⟨none, none, none, []⟩ := rfl

theorem scanSecond_nil : scanSecond [] = .ok ⟨none, none, none, []⟩ := rfl

theorem fetch_nil_left (s : St) (h : s.one = []) : fetch s = .ok none := by
  unfold fetch
  rw [h, scan_nil]
  rfl

theorem fetch_nil_right {a : HLine} (ha : a.Plain) (hn : a.note = none) {r : Text} (hr : Begins r) (s : St)
    (h1 : s.one = a.render ++ r) (h2 : s.two = []) : fetch s = .ok none := by
  unfold fetch
  rw [h1, h2, scan_eq false ha (fun _ => hn) hr, scanSecond_nil]
  rfl

theorem fetch_eq {a b : HLine} (ha : a.Plain) (hb : b.Plain) (hn : a.note = none) {r r' : Text} (hr : Begins r)
    (hr' : Begins r') (s : St) (h1 : s.one = a.render ++ r) (h2 : s.two = b.render ++ r') :
    fetch s = .ok (some ⟨r, r', a.key, a.word, b.key, b.word, (b.note.map (· ++ [35])).getD s.note, s.keys, s.out⟩) := by
  unfold fetch
  rw [h1, h2, scan_eq false ha (fun _ => hn) hr, scanSecond_eq hb hr']
  rfl

theorem entry_eq (ty : UInt8) (w t : Text) (n : Option Text) :
    entry ty w ((n.map (· ++ [35])).getD []) t = (⟨ty, w, n, t⟩ : DLine).render := by
  unfold entry DLine.render DLine.field
  cases n <;> simp

theorem noteBytes_eq {l : HLine} (h : l.Plain) : cstr ((l.note.map (· ++ [35])).getD []) = (l.note.map (· ++ [35])).getD [] := by
  apply cstr_eq
  cases hn : l.note with
  | none => intro c hc; cases hc
  | some n =>
    intro c hc
    simp only [Option.map_some, Option.getD_some] at hc
    rcases List.mem_append.1 hc with hc | hc
    · exact ((h.noteBytes n hn).2 c hc).1
    · simp at hc; subst hc; decide

/-- The names the environment variable stands for. -/
def names (keys : Option Text) : List Text := (keys.map parts).getD []

/-- The body of the loop for a line of each header. -/
theorem body_eq {a b : HLine} (ha : a.Plain) (hb : b.Plain) (r r' : Text) (keys : Option Text) (out : Text) :
    body ⟨r, r', a.key, a.word, b.key, b.word, (b.note.map (· ++ [35])).getD [], keys, out⟩ =
      if a.Code ∨ b.Code then
        .ok ⟨r, r', a.key, a.word, b.key, b.word, (b.note.map (· ++ [35])).getD [], keys, out⟩
      else if a.key = b.key then
        .ok ⟨r, r', a.key, a.word, b.key, b.word, [],
          if a.Decimal ∨ a.Thousand then keys else keys.map leftOf,
          out ++ dictFile (dictLines (names keys) a b)⟩
      else .exit := by
  have hk1 : cstr a.key = a.key := cstr_eq fun c hc => (ha.keyBytes c hc).1
  have hk2 : cstr b.key = b.key := cstr_eq fun c hc => (hb.keyBytes c hc).1
  have hw1 : cstr a.word = a.word := cstr_eq fun c hc => (ha.wordBytes c hc).1
  have hw2 : cstr b.word = b.word := cstr_eq fun c hc => (hb.wordBytes c hc).1
  have hn := noteBytes_eq hb
  have hc : (occurs codegen a.key || occurs codegen b.key) = true ↔ a.Code ∨ b.Code := by
    rw [Bool.or_eq_true, occurs_iff, occurs_iff]; rfl
  have hd : decKey.isPrefixOf a.key = true ↔ a.Decimal := List.isPrefixOf_iff_prefix
  have ht : thoKey.isPrefixOf a.key = true ↔ a.Thousand := List.isPrefixOf_iff_prefix
  unfold body
  dsimp only
  rw [hk1, hk2, hw1, hw2]
  by_cases h1 : a.Code ∨ b.Code
  · rw [if_pos (hc.2 h1), if_pos h1]
  rw [if_neg (fun h => h1 (hc.1 h)), if_neg h1]
  by_cases h2 : a.key ≠ b.key
  · rw [if_pos h2, if_neg h2]
  have h2 : a.key = b.key := Decidable.not_not.1 h2
  rw [if_neg (fun h => h h2), if_pos h2]
  unfold dictLines
  rw [if_neg h1]
  by_cases h3 : a.Decimal
  · rw [if_pos (hd.2 h3), if_pos h3, if_pos (.inl h3)]
    have := entry_eq 100 a.word b.word none
    simp only [Option.map_none, Option.getD_none] at this
    simp [dictFile, this]
  rw [if_neg (fun h => h3 (hd.1 h)), if_neg h3]
  by_cases h4 : a.Thousand
  · rw [if_pos (ht.2 h4), if_pos h4, if_pos (.inr h4)]
    have := entry_eq 120 a.word b.word none
    simp only [Option.map_none, Option.getD_none] at this
    simp [dictFile, this]
  rw [if_neg (fun h => h4 (ht.1 h)), if_neg h4, if_neg (fun h => h.elim h3 h4)]
  unfold printWord
  dsimp only
  rw [hw1, hw2, hk1, hn, entry_eq]
  cases keys with
  | none =>
    have : ¬ a.Named (names none) := by rintro ⟨n, hn, _⟩; cases hn
    rw [if_neg this]
    simp [dictFile]
  | some ks =>
    have h5 : ((parts ks).any (fun k => occurs k a.key)) = true ↔ a.Named (names (some ks)) := by
      rw [List.any_eq_true]
      unfold HLine.Named names
      simp only [occurs_iff, Option.map_some, Option.getD_some]
    have h6 := entry_eq 115 a.word b.word none
    simp only [Option.map_none, Option.getD_none] at h6
    dsimp only
    by_cases h7 : a.Named (names (some ks))
    · rw [if_pos (h5.2 h7), if_pos h7, h6]
      simp [dictFile, List.append_assoc]
    · rw [if_neg (fun h => h7 (h5.1 h)), if_neg h7]
      simp [dictFile]

theorem parts_nil : parts [] = [] := by unfold parts; rfl

theorem parts_comma (r : Text) : parts (44 :: r) = parts r := by
  conv => lhs; unfold parts
  rw [if_pos rfl]

theorem parts_name {n r : Text} (h0 : n ≠ []) (h : 44 ∉ n) : parts (n ++ 44 :: r) = n :: parts r := by
  obtain ⟨c, t, rfl⟩ := List.exists_cons_of_ne_nil h0
  have hc : c ≠ 44 := fun e => h (by simp [e])
  have ht : ∀ x ∈ t, (x != 44) = true := fun x hx => by
    have : x ≠ 44 := fun e => h (by simp [← e, hx])
    simpa using this
  rw [List.cons_append]
  conv => lhs; unfold parts
  rw [if_neg hc, dropWhile_stop ht rfl, parts_comma, ← List.cons_append,
    takeWhile_stop (by
      intro x hx
      rcases List.mem_cons.1 hx with rfl | hx
      · simpa using hc
      · exact ht x hx) rfl]

theorem parts_last {n : Text} (h0 : n ≠ []) (h : 44 ∉ n) : parts n = [n] := by
  obtain ⟨c, t, rfl⟩ := List.exists_cons_of_ne_nil h0
  have hc : c ≠ 44 := fun e => h (by simp [e])
  have ht : ∀ x ∈ t, (x != 44) = true := fun x hx => by
    have : x ≠ 44 := fun e => h (by simp [← e, hx])
    simpa using this
  unfold parts
  rw [if_neg hc, dropWhile_all ht, parts_nil,
    takeWhile_all (by
      intro x hx
      rcases List.mem_cons.1 hx with rfl | hx
      · simpa using hc
      · exact ht x hx)]

theorem parts_commas : ∀ ns : List Text, (∀ n ∈ ns, n ≠ [] ∧ 44 ∉ n) → parts (commas ns) = ns
  | [], _ => parts_nil
  | [n], h => parts_last (h n (by simp)).1 (h n (by simp)).2
  | n :: m :: r, h => by
    unfold commas
    rw [parts_name (h n (by simp)).1 (h n (by simp)).2,
      parts_commas (m :: r) (fun x hx => h x (List.mem_cons_of_mem _ hx))]

theorem parts_leftOf (ks : Text) : parts (leftOf ks) = (parts ks).take 1 := by
  induction ks with
  | nil => simp [leftOf, parts_nil]
  | cons c r ih =>
    by_cases hc : c = 44
    · subst hc
      have : leftOf (44 :: r) = 44 :: leftOf r := by simp [leftOf]
      rw [this, parts_comma, parts_comma, ih]
    · have h1 : leftOf (c :: r) = (c :: r).takeWhile (· != 44) := by simp [leftOf, hc]
      have h2 : parts (c :: r) = (c :: r).takeWhile (· != 44) :: parts (r.dropWhile (· != 44)) := by
        conv => lhs; unfold parts
        rw [if_neg hc]
      rw [h1, h2, parts_last]
      · rfl
      · simp [hc]
      · intro h
        have := List.all_takeWhile (p := (· != 44)) (l := c :: r)
        rw [List.all_eq_true] at this
        exact absurd (this 44 h) (by decide)

theorem names_leftOf (keys : Option Text) : names (keys.map leftOf) = (names keys).take 1 := by
  cases keys with
  | none => rfl
  | some ks => exact parts_leftOf ks

/-- The lines that are printed: the list of names shrinks to its first after the first word. -/
def dictSeq : List Text → List HLine → List HLine → List DLine
  | ns, a :: as, b :: bs =>
    dictLines ns a b ++ dictSeq (if (a.Code ∨ b.Code) ∨ a.Decimal ∨ a.Thousand then ns else ns.take 1) as bs
  | _, _, _ => []

theorem dictSeq_cons (ns : List Text) (a b : HLine) (as bs : List HLine) : dictSeq ns (a :: as) (b :: bs) =
    dictLines ns a b ++ dictSeq (if (a.Code ∨ b.Code) ∨ a.Decimal ∨ a.Thousand then ns else ns.take 1) as bs := rfl

theorem dictSeq_short : ∀ (ns : List Text) (as bs : List HLine), ns.length ≤ 1 → dictSeq ns as bs = dictOf ns as bs
  | ns, a :: as, b :: bs, h => by
    unfold dictSeq dictOf
    have : ns.take 1 = ns := List.take_of_length_le h
    rw [this, ite_self, dictSeq_short ns as bs h]
  | _, [], _, _ => rfl
  | _, _ :: _, [], _ => rfl

theorem header_cons (l : HLine) (ls : List HLine) : header (l :: ls) = l.render ++ header ls := rfl

theorem dictFile_append (a b : List DLine) : dictFile (a ++ b) = dictFile a ++ dictFile b := by
  unfold dictFile; rw [List.flatMap_append]

theorem loop_eq : ∀ (as bs : List HLine) (n : Nat) (s : St), (∀ a ∈ as, a.Plain ∧ a.note = none) → (∀ b ∈ bs, b.Plain) →
    NoCodeNotes as bs → s.one = header as → s.two = header bs → s.note = [] → as.length < n →
    (SameKeys as bs → ∃ s', loop n s = .ok s' ∧ s'.out = s.out ++ dictFile (dictSeq (names s.keys) as bs)) ∧
    (¬ SameKeys as bs → loop n s = .exit)
  | [], bs, n + 1, s, _, _, _, h1, _, _, _ => by
    refine ⟨fun _ => ⟨s, ?_, ?_⟩, fun h => absurd trivial h⟩
    · unfold loop
      rw [fetch_nil_left s h1]
      rfl
    · simp [dictSeq, dictFile]
  | a :: as, [], n + 1, s, ha, _, _, h1, h2, _, _ => by
    refine ⟨fun _ => ⟨s, ?_, ?_⟩, fun h => absurd trivial h⟩
    · unfold loop
      rw [fetch_nil_right (ha a (by simp)).1 (ha a (by simp)).2 (header_begins as) s h1 h2]
      rfl
    · simp [dictSeq, dictFile]
  | a :: as, b :: bs, n + 1, s, ha, hb, hc, h1, h2, h3, hn => by
    have pa := ha a (by simp)
    have pb := hb b (by simp)
    have hl : loop (n + 1) s =
        (body ⟨header as, header bs, a.key, a.word, b.key, b.word, (b.note.map (· ++ [35])).getD [], s.keys, s.out⟩).bind
          (loop n) := by
      conv => lhs; unfold loop
      rw [fetch_eq pa.1 pb pa.2 (header_begins as) (header_begins bs) s h1 h2, h3]
      rfl
    rw [hl, body_eq pa.1 pb]
    unfold SameKeys
    by_cases hcode : a.Code ∨ b.Code
    · have hnote : b.note = none := hc.1 hcode
      obtain ⟨i1, i2⟩ := loop_eq as bs n
        ⟨header as, header bs, a.key, a.word, b.key, b.word, (b.note.map (· ++ [35])).getD [], s.keys, s.out⟩
        (fun x hx => ha x (List.mem_cons_of_mem _ hx)) (fun x hx => hb x (List.mem_cons_of_mem _ hx)) hc.2 rfl rfl
        (by rw [hnote]; rfl) (by simp at hn; omega)
      rw [if_pos hcode, bind_ok]
      have hd : dictLines (names s.keys) a b = [] := by unfold dictLines; rw [if_pos hcode]
      refine ⟨fun h => ?_, fun h => i2 (fun h' => h ⟨hcode.elim .inl (fun h => .inr (.inl h)), h'⟩)⟩
      obtain ⟨s', e1, e2⟩ := i1 h.2
      refine ⟨s', e1, ?_⟩
      rw [e2, dictSeq_cons, hd, if_pos (.inl hcode), List.nil_append]
    rw [if_neg hcode]
    by_cases hk : a.key = b.key
    · rw [if_pos hk, bind_ok]
      obtain ⟨i1, i2⟩ := loop_eq as bs n
        ⟨header as, header bs, a.key, a.word, b.key, b.word, [],
          if a.Decimal ∨ a.Thousand then s.keys else s.keys.map leftOf,
          s.out ++ dictFile (dictLines (names s.keys) a b)⟩
        (fun x hx => ha x (List.mem_cons_of_mem _ hx)) (fun x hx => hb x (List.mem_cons_of_mem _ hx)) hc.2 rfl rfl
        rfl (by simp at hn; omega)
      refine ⟨fun h => ?_, fun h => i2 (fun h' => h ⟨.inr (.inr hk), h'⟩)⟩
      obtain ⟨s', e1, e2⟩ := i1 h.2
      refine ⟨s', e1, ?_⟩
      rw [e2, dictSeq_cons, dictFile_append, List.append_assoc]
      dsimp only
      by_cases hs : a.Decimal ∨ a.Thousand
      · rw [if_pos hs, if_pos (.inr hs)]
      · rw [if_neg hs, if_neg (fun h => h.elim hcode hs), names_leftOf]
    · rw [if_neg hk]
      refine ⟨fun h => ?_, fun _ => rfl⟩
      rcases h.1 with h | h | h
      · exact absurd (.inl h) hcode
      · exact absurd (.inr h) hcode
      · exact absurd h hk

theorem header_length (ls : List HLine) : ls.length ≤ (header ls).length := by
  induction ls with
  | nil => exact Nat.le_refl _
  | cons l ls ih =>
    rw [header_cons, List.length_append, List.length_cons]
    have : 1 ≤ l.render.length := by unfold HLine.render; simp
    omega

theorem generate_eq (keys : Option Text) {as bs : List HLine} (ha : ∀ a ∈ as, a.Plain ∧ a.note = none)
    (hb : ∀ b ∈ bs, b.Plain) (hc : NoCodeNotes as bs) :
    (SameKeys as bs → generate keys (header as) (header bs) = .ok (dictFile (dictSeq (names keys) as bs))) ∧
    (¬ SameKeys as bs → generate keys (header as) (header bs) = .exit) := by
  have hl := header_length as
  obtain ⟨h1, h2⟩ := loop_eq as bs ((header as).length + 1) ⟨header as, header bs, [], [], [], [], [], keys, []⟩
    ha hb hc rfl rfl rfl (by omega)
  unfold generate
  constructor
  · intro h
    obtain ⟨s', e1, e2⟩ := h1 h
    rw [e1, bind_ok, e2]
    rfl
  · intro h
    rw [h2 h]
    rfl

theorem dictLines_mono {ns ms : List Text} (h : ∀ n ∈ ns, n ∈ ms) (a b : HLine) :
    (dictLines ns a b).Sublist (dictLines ms a b) := by
  unfold dictLines
  split
  · exact List.Sublist.refl _
  · split
    · exact List.Sublist.refl _
    · split
      · exact List.Sublist.refl _
      · refine List.Sublist.cons_cons _ ?_
        by_cases h1 : a.Named ns
        · have h2 : a.Named ms := by obtain ⟨n, hn, e⟩ := h1; exact ⟨n, h n hn, e⟩
          rw [if_pos h1, if_pos h2]
          exact List.Sublist.refl _
        · rw [if_neg h1]
          exact List.nil_sublist _

theorem dictSeq_between : ∀ (ns ms : List Text) (as bs : List HLine), (∀ n ∈ ms, n ∈ ns) → (∀ n ∈ ns.take 1, n ∈ ms) →
    (∀ n ∈ ms.take 1, n ∈ ns.take 1) → (∀ n ∈ ns.take 1, n ∈ ms.take 1) →
    (dictOf (ns.take 1) as bs).Sublist (dictSeq ms as bs) ∧ (dictSeq ms as bs).Sublist (dictOf ns as bs)
  | ns, ms, a :: as, b :: bs, h1, h2, h3, h4 => by
    rw [dictSeq_cons]
    unfold dictOf
    have hi : ∀ (k : List Text), k = ms ∨ k = ms.take 1 →
        (dictOf (ns.take 1) as bs).Sublist (dictSeq k as bs) ∧ (dictSeq k as bs).Sublist (dictOf ns as bs) := by
      rintro k (rfl | rfl)
      · exact dictSeq_between ns k as bs h1 h2 h3 h4
      · exact dictSeq_between ns (ms.take 1) as bs (fun n hn => h1 n (List.mem_of_mem_take hn)) h4
          (by rw [List.take_take]; exact h3) (by rw [List.take_take]; exact h4)
    have := hi (if (a.Code ∨ b.Code) ∨ a.Decimal ∨ a.Thousand then ms else ms.take 1) (by split <;> simp)
    exact ⟨(dictLines_mono h2 a b).append this.1, (dictLines_mono h1 a b).append this.2⟩
  | _, _, [], _, _, _, _, _ => ⟨List.nil_sublist _, List.nil_sublist _⟩
  | _, _, _ :: _, [], _, _, _, _ => ⟨List.nil_sublist _, List.nil_sublist _⟩

theorem dictLines_words (ns : List Text) (a b : HLine) :
    (dictLines ns a b).filter (fun l => l.ty ≠ 115) = dictLines [] a b := by
  unfold dictLines
  split
  · rfl
  · split
    · rfl
    · split
      · rfl
      · have : ¬ a.Named [] := by rintro ⟨n, hn, _⟩; cases hn
        rw [if_neg this]
        split <;> rfl

theorem dictSeq_words : ∀ (ns : List Text) (as bs : List HLine),
    (dictSeq ns as bs).filter (fun l => l.ty ≠ 115) = dictOf [] as bs
  | ns, a :: as, b :: bs => by
    rw [dictSeq_cons, List.filter_append, dictLines_words, dictSeq_words _ as bs]
    rfl
  | _, [], _ => rfl
  | _, _ :: _, [] => rfl

/-! ## Any files -/

theorem airy_suffix {t r : Text} (h : Airy t) (hr : r <:+ t) : Airy r :=
  fun x hx hb => h x (hx.trans hr.isInfix) hb

theorem literal_rest : ∀ (l t : Text), (literal l t).2 <:+ t ∧
    ((literal l t).1 = true → (literal l t).2.length + l.length = t.length)
  | [], t => ⟨List.suffix_refl _, fun _ => rfl⟩
  | _ :: _, [] => ⟨List.suffix_refl _, fun h => by cases h⟩
  | l :: ls, c :: t => by
    unfold literal
    by_cases h : c = l
    · rw [if_pos h]
      obtain ⟨h1, h2⟩ := literal_rest ls t
      exact ⟨h1.trans (List.suffix_cons _ _), fun e => by have := h2 e; simp only [List.length_cons]; omega⟩
    · rw [if_neg h]
      exact ⟨List.suffix_refl _, fun e => by cases e⟩

theorem ws_suffix (t : Text) : ws t <:+ t := List.dropWhile_suffix _

theorem quote_suffix {t r : Text} (h : quote t = some r) : r <:+ t := by
  cases t with
  | nil => cases h
  | cons c t =>
    unfold quote at h
    dsimp only at h
    split at h
    · injection h with h; subst h; exact List.suffix_cons _ _
    · cases h

theorem mem_takeWhile {p : UInt8 → Bool} {t : Text} {c : UInt8} (h : c ∈ t.takeWhile p) : p c = true := by
  have := List.all_takeWhile (p := p) (l := t)
  rw [List.all_eq_true] at this
  exact this c h

theorem word_some {t f r : Text} (h : word t = some (f, r)) : f <:+: t ∧ (∀ c ∈ f, ¬ Blank c) ∧ r <:+ t := by
  unfold word at h
  dsimp only at h
  split at h
  · cases h
  · injection h with h
    injection h with h1 h2
    subst h1 h2
    refine ⟨?_, ?_, ?_⟩
    · exact ((List.takeWhile_prefix _).trans (List.take_prefix _ _)).isInfix.trans (ws_suffix t).isInfix
    · intro c hc
      have := mem_takeWhile hc
      rw [← blank_iff]
      simpa using this
    · exact (List.drop_suffix _ _).trans (ws_suffix t)

theorem quoted_some {t f r : Text} (h : quoted t = some (f, r)) : f <:+: t ∧ (∀ c ∈ f, c ≠ 34) ∧ r <:+ t := by
  unfold quoted at h
  dsimp only at h
  split at h
  · cases h
  · injection h with h
    injection h with h1 h2
    subst h1 h2
    refine ⟨((List.takeWhile_prefix _).trans (List.take_prefix _ _)).isInfix, ?_, List.drop_suffix _ _⟩
    intro c hc
    have := mem_takeWhile hc
    simpa using this

theorem scanNote_safe {k t r : Text} (h : Airy r) : ∃ s, scanNote k t r = .ok s ∧ s.key = some k ∧ s.rest <:+ r := by
  unfold scanNote
  have h1 := (literal_rest [47, 47] (ws r)).1
  generalize literal [47, 47] (ws r) = x at h1
  obtain ⟨b, x⟩ := x
  cases b with
  | false => exact ⟨_, rfl, rfl, h1.trans (ws_suffix r)⟩
  | true =>
    dsimp only at h1 ⊢
    cases hw : word x with
    | none => exact ⟨_, rfl, rfl, (ws_suffix x).trans (h1.trans (ws_suffix r))⟩
    | some p =>
      obtain ⟨n, y⟩ := p
      obtain ⟨e1, e2, e3⟩ := word_some hw
      have hl := h n (e1.trans (h1.trans (ws_suffix r)).isInfix) (.inl e2)
      dsimp only
      rw [keep_eq hl, bind_ok]
      exact ⟨_, rfl, rfl, (ws_suffix y).trans (e3.trans (h1.trans (ws_suffix r)))⟩

theorem scanText_safe (notes : Bool) {k r : Text} (h : Airy r) :
    ∃ s, scanText notes k r = .ok s ∧ s.key = some k ∧ s.rest <:+ r := by
  unfold scanText
  cases hq : quote (ws r) with
  | none => exact ⟨_, rfl, rfl, ws_suffix r⟩
  | some x =>
    have h1 := (quote_suffix hq).trans (ws_suffix r)
    dsimp only
    cases hw : quoted x with
    | none => exact ⟨_, rfl, rfl, h1⟩
    | some p =>
      obtain ⟨t, y⟩ := p
      obtain ⟨e1, e2, e3⟩ := quoted_some hw
      have hl := h t (e1.trans h1.isInfix) (.inr e2)
      dsimp only
      rw [keep_eq hl, bind_ok]
      cases hq2 : quote y with
      | none => exact ⟨_, rfl, rfl, e3.trans h1⟩
      | some z =>
        have h2 := (quote_suffix hq2).trans (e3.trans h1)
        cases notes with
        | true =>
          obtain ⟨s, a1, a2, a3⟩ := scanNote_safe (k := k) (t := t) (airy_suffix h h2)
          exact ⟨s, a1, a2, a3.trans h2⟩
        | false => exact ⟨_, rfl, rfl, (ws_suffix z).trans h2⟩

theorem scan_safe (notes : Bool) {file : Text} (h : Airy file) : ∃ s, scan notes file = .ok s ∧ s.rest <:+ file ∧
    (s.key ≠ none → s.rest.length < file.length) := by
  unfold scan
  obtain ⟨h1, h2⟩ := literal_rest define file
  generalize literal define file = x at h1 h2
  obtain ⟨b, x⟩ := x
  cases b with
  | false => exact ⟨_, rfl, h1, fun e => absurd rfl e⟩
  | true =>
    have h3 := h2 rfl
    dsimp only at h1 h3 ⊢
    cases hw : word x with
    | none => exact ⟨_, rfl, (ws_suffix x).trans h1, fun e => absurd rfl e⟩
    | some p =>
      obtain ⟨k, y⟩ := p
      obtain ⟨e1, e2, e3⟩ := word_some hw
      have hl := h k (e1.trans h1.isInfix) (.inl e2)
      dsimp only
      rw [keep_eq hl, bind_ok]
      obtain ⟨s, a1, a2, a3⟩ := scanText_safe notes (k := k) (airy_suffix h (e3.trans h1))
      refine ⟨s, a1, a3.trans (e3.trans h1), fun _ => ?_⟩
      have := a3.length_le
      have := e3.length_le
      have h4 : define.length = 7 := rfl
      omega

theorem scanSecond_safe {file : Text} (h : Airy file) : ∃ s, scanSecond file = .ok s ∧ s.rest <:+ file := by
  unfold scanSecond
  obtain ⟨s, a1, a2, _⟩ := scan_safe true h
  rw [a1, bind_ok]
  cases s.key with
  | some k => exact ⟨s, rfl, a2⟩
  | none =>
    obtain ⟨s', b1, b2, _⟩ := scan_safe false (airy_suffix h a2)
    exact ⟨s', b1, b2.trans a2⟩

theorem fetch_safe {s : St} (h1 : Airy s.one) (h2 : Airy s.two) : fetch s = .ok none ∨
    ∃ s', fetch s = .ok (some s') ∧ s'.one <:+ s.one ∧ s'.one.length < s.one.length ∧ s'.two <:+ s.two := by
  unfold fetch
  obtain ⟨a, a1, a2, a3⟩ := scan_safe false h1
  rw [a1, bind_ok]
  cases hk : a.key with
  | none => exact .inl rfl
  | some k1 =>
    have a3 := a3 (by rw [hk]; simp)
    obtain ⟨b, b1, b2⟩ := scanSecond_safe h2
    dsimp only
    rw [b1, bind_ok]
    cases b.key with
    | none => exact .inl rfl
    | some k2 => exact .inr ⟨_, rfl, a2, a3, b2⟩

theorem printWord_files (s : St) : (printWord s).one = s.one ∧ (printWord s).two = s.two := by
  unfold printWord
  dsimp only
  cases s.keys with
  | none => exact ⟨rfl, rfl⟩
  | some ks => exact ⟨rfl, rfl⟩

theorem body_safe (s : St) : body s = .exit ∨ ∃ s', body s = .ok s' ∧ s'.one = s.one ∧ s'.two = s.two := by
  unfold body
  dsimp only
  split
  · exact .inr ⟨s, rfl, rfl, rfl⟩
  · split
    · exact .inl rfl
    · refine .inr ⟨_, rfl, ?_⟩
      dsimp only
      split
      · exact ⟨rfl, rfl⟩
      · split
        · exact ⟨rfl, rfl⟩
        · exact printWord_files s

theorem loop_safe : ∀ (n : Nat) (s : St), Airy s.one → Airy s.two → s.one.length < n → loop n s ≠ .ub
  | 0, _, _, _, h => absurd h (Nat.not_lt_zero _)
  | n + 1, s, h1, h2, h3 => by
    unfold loop
    rcases fetch_safe h1 h2 with e | ⟨s', e, e1, e2, e3⟩
    · rw [e, bind_ok]
      intro h; cases h
    · rw [e, bind_ok]
      dsimp only
      rcases body_safe s' with e' | ⟨s'', e', f1, f2⟩
      · rw [e']
        intro h; cases h
      · rw [e', bind_ok]
        exact loop_safe n s'' (by rw [f1]; exact airy_suffix h1 e1) (by rw [f2]; exact airy_suffix h2 e3) (by rw [f1]; omega)

end Verif.Lemmas.Gen
