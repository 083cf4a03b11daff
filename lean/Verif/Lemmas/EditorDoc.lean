import Verif.Lemmas.Editor

/-!
# Lemmas: moving the cursor of a text field
-/

namespace Verif.Model.Editor
open Verif.Spec.Editor

/-- The memory holds these symbols and a zero byte behind them. -/
structure Holds (M : Text) (len : Nat) (l : List Sym) : Prop where
  ok : ∀ s ∈ l, s.Ok
  mem : ∃ z, M = bytes l ++ 0 :: z
  len : len = (bytes l).length

theorem Holds.split {M : Text} {len : Nat} {d : Doc} (h : Holds M len d.syms) :
    ∃ z, M = bytes d.left.reverse ++ (bytes d.right ++ 0 :: z) := by
  obtain ⟨z, e⟩ := h.mem
  exact ⟨z, by rw [e, Doc.syms, bytes_append, List.append_assoc]⟩

theorem Holds.total {M : Text} {len : Nat} {d : Doc} (h : Holds M len d.syms) :
    len = (bytes d.left.reverse).length + (bytes d.right).length := by
  rw [h.len, Doc.syms, bytes_append, List.length_append]

theorem Holds.left {M : Text} {len : Nat} {d : Doc} (h : Holds M len d.syms) : ∀ s ∈ d.left, s.Ok :=
  fun s hs => h.ok s (by simp [Doc.syms, hs])

theorem Holds.right {M : Text} {len : Nat} {d : Doc} (h : Holds M len d.syms) : ∀ s ∈ d.right, s.Ok :=
  fun s hs => h.ok s (by simp [Doc.syms, hs])

theorem syms_goLeft (d : Doc) : d.goLeft.syms = d.syms := by
  obtain ⟨l, r⟩ := d
  cases l with
  | nil => rfl
  | cons s l => simp [Doc.goLeft, Doc.syms]

theorem syms_goRight (d : Doc) : d.goRight.syms = d.syms := by
  obtain ⟨l, r⟩ := d
  cases r with
  | nil => rfl
  | cons s r => simp [Doc.goRight, Doc.syms]

theorem syms_home (d : Doc) : d.home.syms = d.syms := by
  have : d.left = d.before ++ d.left.dropWhile (· != .nl) := (List.takeWhile_append_dropWhile ..).symm
  simp only [Doc.syms, Doc.home]
  conv => rhs; rw [this]
  simp

theorem syms_toEnd (d : Doc) : d.toEnd.syms = d.syms := by
  have : d.right = d.behind ++ d.right.dropWhile (· != .nl) := (List.takeWhile_append_dropWhile ..).symm
  simp only [Doc.syms, Doc.toEnd]
  conv => rhs; rw [this]
  simp

theorem syms_forward (n : Nat) (d : Doc) : (d.forward n).syms = d.syms := by
  induction n generalizing d with
  | zero => rfl
  | succ n ih =>
    rw [Doc.forward]
    split
    · rfl
    · rfl
    · rename_i s r _ h
      rw [ih]
      simp [Doc.syms, h]

theorem syms_up (d : Doc) : d.up.syms = d.syms := by
  have h := syms_home d
  rw [Doc.up]
  split
  · rename_i s l r e
    rw [syms_forward, syms_home, ← h, e]
    simp [Doc.syms]
  · rfl

theorem syms_down (d : Doc) : d.down.syms = d.syms := by
  have h := syms_toEnd d
  rw [Doc.down]
  split
  · rename_i l s r e
    rw [syms_forward, ← h, e]
    simp [Doc.syms]
  · exact h

theorem syms_times (f : Doc → Doc) (hf : ∀ d, (f d).syms = d.syms) (n : Nat) (d : Doc) : (times f n d).syms = d.syms := by
  induction n generalizing d with
  | zero => rfl
  | succ n ih => rw [times, ih, hf]

theorem syms_moved (m : Move) (d : Doc) : (moved m d).syms = d.syms := by
  cases m
  · exact syms_goLeft d
  · exact syms_goRight d
  · exact syms_up d
  · exact syms_down d
  · exact syms_home d
  · exact syms_toEnd d
  · exact syms_times _ syms_up 10 d
  · exact syms_times _ syms_down 10 d

theorem syms_movedAll (ms : List Move) (d : Doc) : (movedAll ms d).syms = d.syms := by
  induction ms generalizing d with
  | nil => rfl
  | cons m ms ih => rw [movedAll, ih, syms_moved]

theorem cursor_cons (s : Sym) (l r : List Sym) : (Doc.mk (s :: l) r).cursor = (bytes l.reverse).length + s.bytes.length := by
  simp [Doc.cursor, bytes_append, bytes_cons, bytes_nil]

theorem goLeft_eq {M : Text} {len : Nat} {d : Doc} (h : Holds M len d.syms) : moveLeft M d.cursor = .ok d.goLeft.cursor := by
  obtain ⟨z, e⟩ := h.split
  have hl := h.left
  obtain ⟨l, r⟩ := d
  cases l with
  | nil => rfl
  | cons s l =>
    rw [cursor_cons]
    subst e
    simp only [List.reverse_cons, bytes_append, bytes_cons, bytes_nil, List.append_nil, List.append_assoc]
    exact moveLeft_eq _ _ s (hl s (List.mem_cons_self ..))

/-- One step to the right over a character. -/
theorem step_ch {M : Text} {len n : Nat} {jump : Bool} {l r : List Sym} {t : Bytes} (h : Holds M len (Doc.mk l (.ch t :: r)).syms) :
    moveRight M len jump (n + 1) (Doc.mk l (.ch t :: r)).cursor = moveRight M len jump n (Doc.mk (.ch t :: l) r).cursor := by
  obtain ⟨z, e⟩ := h.split
  have ht := h.total
  have hr := h.right
  simp only at e ht hr
  have hs := hr (.ch t) (List.mem_cons_self ..)
  obtain ⟨b, cs, eb, h1, h2, _⟩ := ok_bytes hs
  simp only [Sym.bytes] at eb
  subst eb
  have hcs : ∀ x ∈ cs, cont x = true := fun x hx => (cont_iff x).2 (hs.2.2.2.2 x hx)
  have hR := rest_of (fun s hs => hr s (List.mem_cons_of_mem _ hs)) z
  rw [bytes_cons, List.append_assoc, Sym.bytes] at e
  rw [bytes_cons, Sym.bytes] at ht
  rw [cursor_cons]
  subst e
  have := moveRight_ch (len := len) (n := n) (jump := jump) (bytes l.reverse) cs _ b hcs hR
    (by rw [ht]; simp only [List.cons_append, List.length_cons, List.length_append]; omega)
  refine Eq.trans this ?_
  congr 1
  simp [Sym.bytes]; omega

theorem goRight_eq {M : Text} {len : Nat} {d : Doc} (h : Holds M len d.syms) :
    moveRight M len true 1 d.cursor = .ok d.goRight.cursor := by
  obtain ⟨l, r⟩ := d
  cases r with
  | nil =>
    have ht := h.total
    simp only [bytes_nil, List.length_nil, Nat.add_zero] at ht
    rw [moveRight, if_pos (by rw [ht]; rfl)]
    rfl
  | cons s r =>
    cases s with
    | ch t => rw [step_ch h]; rfl
    | nl =>
      obtain ⟨z, e⟩ := h.split
      have ht := h.total
      simp only [bytes_cons, Sym.bytes, List.cons_append, List.nil_append, List.length_cons] at e ht
      subst e
      have := moveRight_nl (len := len) (n := 0) (jump := true) (bytes l.reverse) (bytes r ++ 0 :: z) (by omega)
      refine Eq.trans this ?_
      rw [Doc.goRight, cursor_cons]
      rfl

theorem forward_eq {M : Text} {len : Nat} (n : Nat) {d : Doc} (h : Holds M len d.syms) :
    moveRight M len false n d.cursor = .ok (d.forward n).cursor := by
  induction n generalizing d with
  | zero => rfl
  | succ n ih =>
    obtain ⟨l, r⟩ := d
    cases r with
    | nil =>
      have ht := h.total
      simp only [bytes_nil, List.length_nil, Nat.add_zero] at ht
      rw [moveRight, if_pos (by rw [ht]; rfl)]
      rfl
    | cons s r =>
      cases s with
      | ch t =>
        rw [step_ch h]
        exact ih (d := ⟨.ch t :: l, r⟩) (by have : (Doc.mk (.ch t :: l) r).syms = (Doc.mk l (.ch t :: r)).syms := by simp [Doc.syms]
                                            rw [this]; exact h)
      | nl =>
        obtain ⟨z, e⟩ := h.split
        have ht := h.total
        simp only [bytes_cons, Sym.bytes, List.cons_append, List.nil_append, List.length_cons] at e ht
        subst e
        exact moveRight_nl (len := len) (n := n) (jump := false) (bytes l.reverse) (bytes r ++ 0 :: z) (by omega)

theorem ch_no {s : Sym} (h : s.Ok) (hn : s ≠ .nl) : (∀ c ∈ s.bytes, c ≠ 10) ∧ (∀ c ∈ s.bytes, c ≠ 13) ∧ leads s.bytes = 1 := by
  cases s with
  | nl => exact absurd rfl hn
  | ch t =>
    obtain ⟨b, cs, e, h1, h2, h3⟩ := ok_bytes h
    simp only [Sym.bytes] at e
    subst e
    have hcs := h.2.2.2.2
    refine ⟨?_, ?_, ?_⟩
    · intro c hc
      simp only [Sym.bytes, List.mem_cons] at hc
      rcases hc with rfl | hc
      · exact h2
      · intro e; subst e; exact absurd (hcs _ hc) (by decide)
    · intro c hc
      simp only [Sym.bytes, List.mem_cons] at hc
      rcases hc with rfl | hc
      · exact h.2.2.1
      · intro e; subst e; exact absurd (hcs _ hc) (by decide)
    · have : cs.filter (fun b => !cont b) = [] := by
        rw [List.filter_eq_nil_iff]
        intro c hc
        simp [(cont_iff c).2 (hcs c hc)]
      simp [leads, Sym.bytes, List.filter_cons, h1, this]

theorem line_no {l : List Sym} (h : ∀ s ∈ l, s.Ok) (hn : ∀ s ∈ l, s ≠ .nl) :
    (∀ c ∈ bytes l, c ≠ 10) ∧ (∀ c ∈ bytes l, c ≠ 13) ∧ leads (bytes l) = l.length := by
  induction l with
  | nil => simp [bytes_nil, leads]
  | cons s l ih =>
    obtain ⟨h1, h2, h3⟩ := ch_no (h s (List.mem_cons_self ..)) (hn s (List.mem_cons_self ..))
    obtain ⟨i1, i2, i3⟩ := ih (fun s hs => h s (List.mem_cons_of_mem _ hs)) (fun s hs => hn s (List.mem_cons_of_mem _ hs))
    rw [bytes_cons]
    refine ⟨?_, ?_, ?_⟩
    · intro c hc
      rcases List.mem_append.1 hc with hc | hc
      · exact h1 c hc
      · exact i1 c hc
    · intro c hc
      rcases List.mem_append.1 hc with hc | hc
      · exact h2 c hc
      · exact i2 c hc
    · have : leads (s.bytes ++ bytes l) = leads s.bytes + leads (bytes l) := by simp [leads, List.filter_append]
      rw [this, h3, i3, List.length_cons]; omega

theorem line_rest {l : List Sym} (h : ∀ s ∈ l, s.Ok) : bytes l = [] ∨ Rest (bytes l) := by
  cases l with
  | nil => exact .inl rfl
  | cons s l =>
    obtain ⟨b, cs, e, h1, h2, _⟩ := ok_bytes (h s (List.mem_cons_self ..))
    exact .inr ⟨b, cs ++ bytes l, by rw [bytes_cons, e]; rfl, h1, h2⟩

theorem mem_takeWhile {p : Sym → Bool} {l : List Sym} {s : Sym} (h : s ∈ l.takeWhile p) : s ∈ l ∧ p s = true := by
  induction l with
  | nil => cases h
  | cons a l ih =>
    rw [List.takeWhile_cons] at h
    split at h
    · rename_i hp
      rcases List.mem_cons.1 h with rfl | h
      · exact ⟨List.mem_cons_self .., hp⟩
      · exact ⟨List.mem_cons_of_mem _ (ih h).1, (ih h).2⟩
    · cases h

theorem dropWhile_nl (l : List Sym) : l.dropWhile (· != .nl) = [] ∨ ∃ m, l.dropWhile (· != .nl) = .nl :: m := by
  induction l with
  | nil => exact .inl rfl
  | cons s l ih =>
    rw [List.dropWhile_cons]
    split
    · exact ih
    · rename_i h
      have : s = .nl := by simpa using h
      subst this
      exact .inr ⟨l, rfl⟩

/-- The line of the cursor, to its left. -/
theorem line_left {M : Text} {len : Nat} {d : Doc} (h : Holds M len d.syms) :
    ∃ z, M = bytes d.home.left.reverse ++ (bytes d.before.reverse ++ (bytes d.right ++ 0 :: z)) ∧
      Begins (bytes d.home.left.reverse) ∧ (∀ c ∈ bytes d.before.reverse, c ≠ 10) ∧
      leads (bytes d.before.reverse) = d.before.length ∧ (bytes d.before.reverse = [] ∨ Rest (bytes d.before.reverse)) ∧
      Rest (bytes d.right ++ 0 :: z) ∧ d.cursor = d.home.cursor + (bytes d.before.reverse).length := by
  obtain ⟨z, e⟩ := h.split
  have hl : d.left = d.before ++ d.home.left := (List.takeWhile_append_dropWhile ..).symm
  have hb : bytes d.left.reverse = bytes d.home.left.reverse ++ bytes d.before.reverse := by
    conv => lhs; rw [hl]
    rw [List.reverse_append, bytes_append]
  have hok : ∀ s ∈ d.before.reverse, s.Ok := by
    intro s hs
    exact h.left s (mem_takeWhile (List.mem_reverse.1 hs)).1
  have hnn : ∀ s ∈ d.before.reverse, s ≠ .nl := by
    intro s hs
    simpa using (mem_takeWhile (List.mem_reverse.1 hs)).2
  obtain ⟨n1, _, n3⟩ := line_no hok hnn
  refine ⟨z, by rw [e, hb, List.append_assoc], ?_, n1, by simpa using n3, line_rest hok, rest_of h.right z, ?_⟩
  · rcases dropWhile_nl d.left with h0 | ⟨m, h0⟩
    · left
      simp only [Doc.home, h0]
      rfl
    · right
      refine ⟨bytes m.reverse, ?_⟩
      simp only [Doc.home, h0, List.reverse_cons, bytes_append, bytes_cons, bytes_nil, Sym.bytes, List.append_nil]
  · rw [Doc.cursor, hb, List.length_append]; rfl

theorem home_eq {M : Text} {len : Nat} {d : Doc} (h : Holds M len d.syms) : firstChar M d.cursor = .ok d.home.cursor := by
  obtain ⟨z, e, h1, h2, _, _, h3, h4⟩ := line_left h
  rw [h4, e]
  exact firstChar_eq _ _ _ h1 h2 h3 _ (Nat.le_refl _)

theorem column_eq {M : Text} {len : Nat} {d : Doc} (h : Holds M len d.syms) : charLine M d.cursor = .ok d.before.length := by
  obtain ⟨z, e, h1, h2, h5, h6, h3, h4⟩ := line_left h
  rw [h4, e, ← h5]
  exact charLine_eq _ _ _ h1 h2 h3 h6

theorem bytes_pos {l : List Sym} (h : ∀ s ∈ l, s.Ok) (hne : l ≠ []) : 1 ≤ (bytes l).length := by
  cases l with
  | nil => exact absurd rfl hne
  | cons s l =>
    obtain ⟨b, cs, e, _⟩ := ok_bytes (h s (List.mem_cons_self ..))
    rw [bytes_cons, e]; simp

/-- From the last byte of a line to its beginning. -/
theorem home_back {M : Text} {len : Nat} {l r : List Sym} (h : Holds M len (Doc.mk l r).syms) (hne : l ≠ []) :
    firstChar M ((Doc.mk l r).cursor - 1) = .ok (Doc.mk l r).home.cursor := by
  obtain ⟨z, e, h1, h2, _, _, h3, h4⟩ := line_left h
  have hpos : 1 ≤ (Doc.mk l r).cursor := bytes_pos (fun s hs => h.left s (List.mem_reverse.1 hs)) (by simpa using hne)
  by_cases hq : 1 ≤ (bytes (Doc.mk l r).before.reverse).length
  · rw [h4, Nat.add_sub_assoc hq, e]
    exact firstChar_eq _ _ _ h1 h2 h3 _ (by omega)
  · have h0 : (bytes (Doc.mk l r).before.reverse).length = 0 := by omega
    rw [h0, Nat.add_zero] at h4
    rw [h4] at hpos ⊢
    rcases begins_last (C := bytes (Doc.mk l r).before.reverse ++ (bytes (Doc.mk l r).right ++ 0 :: z)) h1 with h5 | ⟨q, h5, h6⟩
    · have : (Doc.mk l r).home.cursor = 0 := h5
      omega
    · have h7 : (Doc.mk l r).home.cursor = q + 1 := h5
      rw [h7, Nat.add_sub_cancel, e]
      exact firstChar_lf h6

theorem up_eq {M : Text} {len : Nat} {d : Doc} (h : Holds M len d.syms) (hu : UpOk d) :
    lineUp M len d.cursor = .ok d.up.cursor := by
  rw [lineUp, column_eq h, bind_ok, prevFirst, home_eq h, bind_ok]
  have hh : Holds M len d.home.syms := by rw [syms_home]; exact h
  unfold Doc.up
  rcases dropWhile_nl d.left with h0 | ⟨m, h0⟩
  · have h1 : d.home = ⟨[], d.before.reverse ++ d.right⟩ := by simp only [Doc.home, h0]
    have h2 : d.home.cursor = 0 := by rw [h1]; rfl
    rw [h2, if_pos rfl]
    have h3 : firstChar M 0 = .ok 0 := by
      have := home_eq hh
      rw [h2] at this
      rw [this, h1]
      rfl
    have h5 := forward_eq d.before.length hh
    rw [h2] at h5
    rw [h3, bind_ok, h5]
    have h4 : (d.home.forward d.before.length).cursor = d.cursor := by
      have : d.home.forward d.before.length = ⟨d.before.reverse.reverse ++ d.home.left, d.right⟩ := by
        have hf : ∀ (w l r : List Sym), (∀ s ∈ w, s ≠ .nl) → Doc.forward w.length ⟨l, w ++ r⟩ = ⟨w.reverse ++ l, r⟩ := by
          intro w
          induction w with
          | nil => intro l r _; rfl
          | cons s w ih =>
            intro l r hs
            have hsn := hs s (List.mem_cons_self ..)
            cases s with
            | nl => exact absurd rfl hsn
            | ch t =>
              simp only [List.length_cons, List.cons_append, Doc.forward]
              rw [ih _ _ (fun x hx => hs x (List.mem_cons_of_mem _ hx))]
              simp
        have := hf d.before.reverse d.home.left d.right (fun s hs => by simpa using (mem_takeWhile (List.mem_reverse.1 hs)).2)
        rw [List.length_reverse] at this
        exact this
      rw [this]
      have hl : d.left = d.before ++ d.home.left := (List.takeWhile_append_dropWhile ..).symm
      simp only [Doc.cursor, List.reverse_reverse]
      rw [← hl]
    rw [h4]
    rw [h1]
  · have h1 : d.home = ⟨.nl :: m, d.before.reverse ++ d.right⟩ := by simp only [Doc.home, h0]
    have h2 : d.home.cursor = (bytes m.reverse).length + 2 := by rw [h1, cursor_cons]; rfl
    have hm : m ≠ [] := by
      intro e
      subst e
      exact hu (by rw [h1])
    have hs : (Doc.mk m (.nl :: (d.before.reverse ++ d.right))).syms = d.syms := by
      rw [← syms_home d, h1]
      simp [Doc.syms]
    have hd : Holds M len (Doc.mk m (.nl :: (d.before.reverse ++ d.right))).syms := by rw [hs]; exact h
    have hpos : 1 ≤ (bytes m.reverse).length := bytes_pos (fun s hs => hd.left s (List.mem_reverse.1 hs)) (by simpa using hm)
    have hb := home_back hd hm
    rw [h2, if_neg (by omega), if_neg (by omega), show (bytes m.reverse).length + 2 - 3 = (bytes m.reverse).length - 1 by omega]
    change firstChar M ((bytes m.reverse).length - 1) = _ at hb
    rw [hb, bind_ok, forward_eq d.before.length (by rw [syms_home]; exact hd), h1]

theorem line_right {M : Text} {len : Nat} {d : Doc} (h : Holds M len d.syms) :
    (d.toEnd.right = [] ∧ toCr M len (M.length + 1) d.cursor = .ok (false, len) ∧ len = d.toEnd.cursor) ∨
    (∃ r, d.toEnd.right = .nl :: r ∧ toCr M len (M.length + 1) d.cursor = .ok (true, d.toEnd.cursor) ∧
      d.toEnd.cursor ≤ len) := by
  obtain ⟨z, e⟩ := h.split
  have ht := h.total
  have hr : d.right = d.behind ++ d.toEnd.right := (List.takeWhile_append_dropWhile ..).symm
  have hb : bytes d.right = bytes d.behind ++ bytes d.toEnd.right := by
    conv => lhs; rw [hr]
    rw [bytes_append]
  have hok : ∀ s ∈ d.behind, s.Ok := fun s hs => h.right s (mem_takeWhile hs).1
  have hnn : ∀ s ∈ d.behind, s ≠ .nl := fun s hs => by simpa using (mem_takeWhile hs).2
  obtain ⟨_, n2, _⟩ := line_no hok hnn
  have hc : d.toEnd.cursor = (bytes d.left.reverse).length + (bytes d.behind).length := by
    simp [Doc.toEnd, Doc.cursor, bytes_append]
  have hM : (bytes d.behind).length < M.length + 1 := by rw [e, hb]; simp; omega
  rw [hb] at e
  rw [hb, List.length_append] at ht
  rcases dropWhile_nl d.right with h0 | ⟨m, h0⟩
  · left
    have h1 : d.toEnd.right = [] := h0
    rw [h1, bytes_nil, List.append_nil] at e
    rw [h1, bytes_nil, List.length_nil, Nat.add_zero] at ht
    refine ⟨h1, ?_, by omega⟩
    have := toCr_end (len := len) (bytes d.behind) (bytes d.left.reverse) z (M.length + 1) n2 (by omega) hM
    rw [← e] at this
    exact this
  · right
    have h1 : d.toEnd.right = .nl :: m := h0
    refine ⟨m, h1, ?_, by omega⟩
    rw [h1, bytes_cons, Sym.bytes] at e
    have := toCr_cr (len := len) (bytes d.behind) (bytes d.left.reverse) (10 :: (bytes m ++ 0 :: z)) (M.length + 1) n2 (by omega) hM
    rw [show bytes d.left.reverse ++ (bytes d.behind ++ 13 :: 10 :: (bytes m ++ 0 :: z)) = M by rw [e]; simp] at this
    rw [hc]
    exact this

theorem toEnd_eq {M : Text} {len : Nat} {d : Doc} (h : Holds M len d.syms) : endLine M len d.cursor = .ok d.toEnd.cursor := by
  rcases line_right h with ⟨_, h2, h3⟩ | ⟨r, _, h2, _⟩
  · rw [endLine, h2, bind_ok, h3]
  · rw [endLine, h2, bind_ok]

theorem down_eq {M : Text} {len : Nat} {d : Doc} (h : Holds M len d.syms) : lineDown M len d.cursor = .ok d.down.cursor := by
  have hh : Holds M len d.toEnd.syms := by rw [syms_toEnd]; exact h
  rw [lineDown, column_eq h, bind_ok, nextFirst]
  unfold Doc.down
  rcases line_right h with ⟨h1, h2, h3⟩ | ⟨r, h1, h2, h3⟩
  · have h4 : d.toEnd = ⟨d.toEnd.left, []⟩ := by rw [← h1]
    rw [h2, bind_ok]
    simp only [Bool.false_eq_true, if_false, bind_ok]
    have h5 : ∀ n, moveRight M len false n len = .ok len := by
      intro n
      cases n with
      | zero => rfl
      | succ n => rw [moveRight, if_pos rfl]
    rw [h5, h4]
    simp only
    rw [← h4, h3]
  · have h4 : d.toEnd = ⟨d.toEnd.left, .nl :: r⟩ := by rw [← h1]
    rw [h2, bind_ok]
    simp only [if_true, bind_ok]
    rw [if_neg (by omega)]
    have hs : (Doc.mk (.nl :: d.toEnd.left) r).syms = d.syms := by
      rw [← syms_toEnd d]
      conv => rhs; rw [h4]
      simp [Doc.syms]
    have hd : Holds M len (Doc.mk (.nl :: d.toEnd.left) r).syms := by rw [hs]; exact h
    have h6 := forward_eq d.before.length hd
    rw [cursor_cons] at h6
    have h7 : d.toEnd.cursor = (bytes d.toEnd.left.reverse).length := rfl
    rw [h7]
    refine Eq.trans h6 ?_
    rw [h4]

theorem times_eq {M : Text} {len : Nat} (f : Nat → Out Nat) (g : Doc → Doc) (P : Doc → Prop)
    (hg : ∀ d, (g d).syms = d.syms) (hf : ∀ d, Holds M len d.syms → P d → f d.cursor = .ok (g d).cursor) (n : Nat) :
    ∀ d : Doc, Holds M len d.syms → (∀ i, i < n → P (times g i d)) → again f n d.cursor = .ok (times g n d).cursor := by
  induction n with
  | zero => intro d _ _; rfl
  | succ n ih =>
    intro d h hP
    rw [again, hf d h (hP 0 (by omega)), bind_ok, times]
    exact ih (g d) (by rw [hg]; exact h) (fun i hi => hP (i + 1) (by omega))

/-- The key of a movement. -/
def keyOf : Move → Key
  | .left => .left
  | .right => .right
  | .up => .up
  | .down => .down
  | .home => .home
  | .toEnd => .toEnd
  | .pageUp => .pageUp
  | .pageDown => .pageDown

theorem cursormove_eq {M : Text} {len : Nat} {d : Doc} (h : Holds M len d.syms) (m : Move) (hm : MoveOk m d) :
    cursormove M len (keyOf m) d.cursor = .ok (moved m d).cursor := by
  cases m
  · exact goLeft_eq h
  · exact goRight_eq h
  · exact up_eq h hm
  · exact down_eq h
  · exact home_eq h
  · exact toEnd_eq h
  · exact times_eq (lineUp M len) Doc.up UpOk syms_up (fun d hd hu => up_eq hd hu) 10 d h hm
  · exact times_eq (lineDown M len) Doc.down (fun _ => True) syms_down (fun d hd _ => down_eq hd) 10 d h (fun _ _ => trivial)

end Verif.Model.Editor
