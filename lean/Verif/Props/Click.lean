import Verif.Model.Click
import Verif.Spec.Click
import Verif.Lemmas.EditorDoc

/-!
# Clicks into a text field (C115)
-/

namespace Verif.Props.Click
open Verif Verif.Model Verif.Model.Editor Verif.Model.Click Verif.Spec.Editor Verif.Spec.Click

theorem split_line {pre rest b r : List Sym} (h : pre ++ rest = b ++ .nl :: r) (hp : .nl ∈ pre) (hb : .nl ∉ b) :
    ∃ p, pre = b ++ .nl :: p ∧ r = p ++ rest := by
  rcases List.append_eq_append_iff.1 h with ⟨a, h1, h2⟩ | ⟨a, h1, h2⟩
  · exact absurd (by rw [h1]; exact List.mem_append_left _ hp) hb
  · cases a with
    | nil => rw [List.append_nil] at h1; exact absurd (h1 ▸ hp) hb
    | cons x p =>
      injection h2 with h3 h4
      subst h3
      exact ⟨p, h1, h4⟩

theorem ends_nl {a p : List Sym} (h : ∃ q, a ++ .nl :: p = q ++ [.nl]) : p = [] ∨ ∃ q, p = q ++ [.nl] := by
  obtain ⟨q, h⟩ := h
  rcases List.eq_nil_or_concat p with h1 | ⟨p', x, h1⟩
  · exact Or.inl h1
  · right
    rw [List.concat_eq_append] at h1
    subst h1
    rw [show a ++ .nl :: (p' ++ [x]) = (a ++ .nl :: p') ++ [x] by simp] at h
    have := (List.append_inj' h rfl).2
    injection this with h2 _
    exact ⟨p', by rw [h2]⟩

theorem IsLine.tail {b r pre cs post : List Sym} {n : Nat} (h : IsLine (b ++ .nl :: r) (n + 1) pre cs post) (hb : .nl ∉ b) :
    ∃ p, pre = b ++ .nl :: p ∧ IsLine r n p cs post := by
  have hp : Sym.nl ∈ pre := by
    apply List.count_pos_iff.1
    rw [h.number]
    omega
  obtain ⟨p, h1, h2⟩ := split_line (rest := cs ++ post) (by rw [← List.append_assoc, ← h.parts]) hp hb
  refine ⟨p, h1, by rw [h2, List.append_assoc], h.plain, ?_, h.last, ?_⟩
  · rcases h.first with h3 | ⟨q, h3⟩
    · rw [h3] at hp; cases hp
    · exact ends_nl ⟨q, by rw [← h1, h3]⟩
  · have := h.number
    rw [h1, List.count_append, List.count_cons_self, List.count_eq_zero.2 hb] at this
    omega

/-- Every line that the text has. -/
theorem line_exists : ∀ (n : Nat) (l : List Sym), n ≤ l.count .nl → ∃ pre cs post, IsLine l n pre cs post
  | 0, l, _ => by
    refine ⟨[], l.takeWhile (· != .nl), l.dropWhile (· != .nl), by simp, ?_, Or.inl rfl, ?_, rfl⟩
    · intro h
      have := (mem_takeWhile h).2
      simp at this
    · rcases dropWhile_nl l with h | ⟨m, h⟩
      · exact Or.inl h
      · exact Or.inr ⟨m, h⟩
  | n + 1, l, h => by
    have e : l = l.takeWhile (· != .nl) ++ l.dropWhile (· != .nl) := (List.takeWhile_append_dropWhile ..).symm
    have hb : Sym.nl ∉ l.takeWhile (· != .nl) := by
      intro h
      have := (mem_takeWhile h).2
      simp at this
    generalize l.takeWhile (· != .nl) = b at *
    rcases dropWhile_nl l with h0 | ⟨m, h0⟩
    · rw [h0, List.append_nil] at e
      rw [e, List.count_eq_zero.2 hb] at h
      omega
    · rw [h0] at e
      rw [e, List.count_append, List.count_cons_self, List.count_eq_zero.2 hb] at h
      obtain ⟨pre, cs, post, hi⟩ := line_exists n m (by omega)
      refine ⟨b ++ .nl :: pre, cs, post, by rw [e, hi.parts]; simp, hi.plain, Or.inr ?_, hi.last, ?_⟩
      · rcases hi.first with h1 | ⟨q, h1⟩
        · exact ⟨b, by rw [h1]⟩
        · exact ⟨b ++ .nl :: q, by rw [h1]; simp⟩
      · rw [List.count_append, List.count_cons_self, List.count_eq_zero.2 hb, hi.number]
        omega

theorem next_lines {M : Text} {len : Nat} : ∀ (n : Nat) (p0 rest : List Sym), Holds M len (p0 ++ rest) →
    (∀ pre cs post, IsLine rest n pre cs post → again (nextFirst M len) n (bytes p0).length = .ok (bytes (p0 ++ pre)).length) ∧
    (rest.count .nl < n → again (nextFirst M len) n (bytes p0).length = .ok len)
  | 0, p0, rest, h => by
    refine ⟨?_, fun h => by omega⟩
    intro pre cs post hi
    have : pre = [] := by
      rcases hi.first with h1 | ⟨p, h1⟩
      · exact h1
      · have := hi.number
        rw [h1, List.count_append, List.count_singleton_self] at this
        omega
    rw [this, List.append_nil, again]
  | n + 1, p0, rest, h => by
    have hd : (Doc.mk p0.reverse rest).syms = p0 ++ rest := by simp [Doc.syms]
    have hh : Holds M len (Doc.mk p0.reverse rest).syms := by rw [hd]; exact h
    have hc : (Doc.mk p0.reverse rest).cursor = (bytes p0).length := by simp [Doc.cursor]
    have hrest : rest = (Doc.mk p0.reverse rest).behind ++ (Doc.mk p0.reverse rest).toEnd.right :=
      (List.takeWhile_append_dropWhile ..).symm
    have hb : Sym.nl ∉ (Doc.mk p0.reverse rest).behind := by
      intro h
      have := (mem_takeWhile h).2
      simp at this
    have hl := line_right hh
    have hte : (Doc.mk p0.reverse rest).toEnd.cursor = (bytes (p0 ++ (Doc.mk p0.reverse rest).behind)).length := by
      simp [Doc.toEnd, Doc.cursor]
    rw [hc] at hl
    generalize (Doc.mk p0.reverse rest).behind = b at *
    rcases hl with ⟨h1, h2, h3⟩ | ⟨r, h1, h2, h3⟩
    · rw [h1, List.append_nil] at hrest
      subst hrest
      have hn : nextFirst M len (bytes p0).length = .ok len := by
        rw [nextFirst, h2]
        rfl
      constructor
      · intro pre cs post hi
        exfalso
        have := hi.number
        have h5 : pre.count .nl ≤ rest.count .nl := by
          rw [hi.parts, List.append_assoc, List.count_append]
          omega
        rw [List.count_eq_zero.2 hb] at h5
        omega
      · intro _
        rw [again, hn]
        show again (nextFirst M len) n len = .ok len
        cases n with
        | zero => rfl
        | succ n =>
          have := (next_lines (n + 1) (p0 ++ rest) [] (by rw [List.append_nil]; exact h)).2 (by simp)
          rw [← h.len] at this
          exact this
    · rw [h1] at hrest
      subst hrest
      have hn : nextFirst M len (bytes p0).length = .ok (bytes (p0 ++ (b ++ [.nl]))).length := by
        rw [nextFirst, h2]
        show Out.ok (if true = true then _ else _) = _
        rw [if_pos rfl, if_neg (by dsimp only; omega), hte]
        simp [bytes_append, bytes_cons, bytes_nil, Sym.bytes]
        omega
      have ih := next_lines n (p0 ++ (b ++ [.nl])) r (by
        rw [show p0 ++ (b ++ [.nl]) ++ r = p0 ++ (b ++ .nl :: r) by simp]
        exact h)
      constructor
      · intro pre cs post hi
        obtain ⟨p, e1, e2⟩ := IsLine.tail hi hb
        rw [again, hn]
        show again (nextFirst M len) n _ = _
        rw [ih.1 p cs post e2, e1]
        simp
      · intro hlt
        rw [again, hn]
        show again (nextFirst M len) n _ = _
        apply ih.2
        rw [List.count_append, List.count_cons_self] at hlt
        omega

theorem moveLeft0_eq (A C : Text) (s : Sym) (h : s.Ok) (hn : s ≠ .nl) :
    moveLeft0 (A ++ (s.bytes ++ C)) (A.length + s.bytes.length) = .ok A.length := by
  cases s with
  | nl => exact absurd rfl hn
  | ch t =>
    obtain ⟨b, cs, e, h1, h2, _⟩ := ok_bytes h
    simp only [Sym.bytes] at e
    subst e
    have hcs : ∀ x ∈ cs, cont x = true := fun x hx => (cont_iff x).2 (h.2.2.2.2 x hx)
    simp only [Sym.bytes, List.length_cons]
    rw [moveLeft0, if_neg (by omega), show A.length + (cs.length + 1) - 1 = A.length + cs.length by omega,
      skipL_eq A cs C b h1 cs.length (Nat.le_refl _) hcs, bind_ok]
    simp only [List.cons_append]
    rw [rd_at, bind_ok, if_neg h2]

theorem take_width {w : Bytes → Nat} (hw : Widths w) (cs : List Sym) {i j : Nat} (h : i ≤ j) :
    w (bytes (cs.take i)) ≤ w (bytes (cs.take j)) := by
  have e : cs.take j = cs.take i ++ (cs.take j).drop i := by
    conv => lhs; rw [← List.take_append_drop i (cs.take j)]
    rw [List.take_take, Nat.min_eq_left h]
  rw [e, bytes_append]
  exact hw.2 _ _

theorem near_spec {M : Text} {len : Nat} {pre cs post : List Sym} (h : Holds M len (pre ++ cs ++ post)) (hp : .nl ∉ cs)
    {w : Bytes → Nat} (hw : Widths w) (x : Int) : ∀ (k fuel : Nat) (seg : Int), k ≤ cs.length → k < fuel →
      (k = cs.length ∧ x ≤ w (bytes cs) ∨ k < cs.length ∧ seg = w (bytes (cs.take (k + 1))) ∧ x ≤ w (bytes (cs.take (k + 1)))) →
      ∃ k', near M len w x (bytes pre).length fuel ((bytes pre).length + (bytes (cs.take k)).length) seg =
          .ok ((bytes pre).length + (bytes (cs.take k')).length) ∧ k' ≤ cs.length ∧
        (x ≤ 0 ∨ w (bytes (cs.take 1)) < x → Nearest w cs x k') ∧ (x ≤ w (bytes (cs.take 1)) → k' = 0)
  | _, 0, _, _, hf, _ => absurd hf (by omega)
  | 0, fuel + 1, seg, hk, hf, hs => by
    refine ⟨0, ?_, by omega, ?_, fun _ => rfl⟩
    · rw [near, if_pos (by simp [bytes_nil])]
    · intro hx
      refine ⟨by omega, ?_⟩
      intro j hj
      have h0 : w (bytes (cs.take 0)) = 0 := by rw [List.take_zero, bytes_nil]; exact hw.1
      rw [h0]
      rcases hx with hx | hx
      · unfold dist
        omega
      · rcases hs with ⟨h1, h2⟩ | ⟨_, _, h2⟩
        · have : cs = [] := List.length_eq_zero_iff.1 h1.symm
          subst this
          have : w (bytes (([] : List Sym).take j)) = 0 := by rw [List.take_nil, bytes_nil]; exact hw.1
          rw [this]
          exact Nat.le_refl _
        · rw [Nat.zero_add] at h2
          omega
  | k + 1, fuel + 1, seg, hk, hf, hs => by
    obtain ⟨z, e⟩ := h.mem
    have hlt : k < cs.length := by omega
    have hcut : cs.take (k + 1) = cs.take k ++ [cs[k]] := (List.take_append_getElem hlt).symm
    have hokk : (cs[k]).Ok := h.ok _ (by simp)
    have hnk : cs[k] ≠ .nl := fun e => hp (e ▸ List.getElem_mem hlt)
    obtain ⟨b, bs, eb, _⟩ := ok_bytes hokk
    have hlen : (bytes (cs.take (k + 1))).length = (bytes (cs.take k)).length + (cs[k]).bytes.length := by
      rw [hcut, bytes_append, bytes_cons, bytes_nil, List.append_nil, List.length_append]
    have hpos : 0 < (cs[k]).bytes.length := by rw [eb]; simp
    have hseg : segment M (bytes pre).length ((bytes pre).length + (bytes (cs.take (k + 1))).length) = bytes (cs.take (k + 1)) := by
      unfold segment
      rw [e, bytes_append, bytes_append, List.append_assoc, List.append_assoc, List.drop_left, Nat.add_sub_cancel_left]
      have h1 : bytes cs = bytes (cs.take (k + 1)) ++ bytes (cs.drop (k + 1)) := by
        rw [← bytes_append, List.take_append_drop]
      rw [h1, List.append_assoc, List.take_left]
    rw [near, if_neg (by omega)]
    dsimp only
    rw [hseg]
    by_cases hx : (w (bytes (cs.take (k + 1))) : Int) < x
    · rw [if_pos hx]
      have hs' : k + 1 < cs.length ∧ seg = w (bytes (cs.take (k + 1 + 1))) ∧ x ≤ w (bytes (cs.take (k + 1 + 1))) := by
        rcases hs with ⟨h1, h2⟩ | h1
        · rw [h1, List.take_length] at hx
          omega
        · exact h1
      obtain ⟨s1, s2, s3⟩ := hs'
      have h1w := take_width hw cs (show 1 ≤ k + 1 by omega)
      by_cases hd : seg - x < x - w (bytes (cs.take (k + 1)))
      · rw [if_pos hd]
        have hcut2 : cs.take (k + 1 + 1) = cs.take (k + 1) ++ [cs[k + 1]] := (List.take_append_getElem s1).symm
        have hnk2 : cs[k + 1] ≠ .nl := fun e => hp (e ▸ List.getElem_mem s1)
        obtain ⟨t, et⟩ : ∃ t, cs[k + 1] = .ch t := by
          cases hc : cs[k + 1] with
          | nl => exact absurd hc hnk2
          | ch t => exact ⟨t, rfl⟩
        have hsy : (Doc.mk ((cs.take (k + 1)).reverse ++ pre.reverse) (.ch t :: (cs.drop (k + 2) ++ post))).syms = pre ++ cs ++ post := by
          unfold Doc.syms
          rw [← et]
          have h1 : cs.take (k + 1) ++ cs[k + 1] :: cs.drop (k + 2) = cs := by
            rw [← List.drop_eq_getElem_cons s1, List.take_append_drop]
          conv => rhs; rw [← h1]
          simp only [List.reverse_append, List.reverse_reverse, List.append_assoc, List.cons_append]
        have hstep := step_ch (M := M) (len := len) (n := 0) (jump := false) (by rw [hsy]; exact h)
        rw [cursor_cons] at hstep
        have hc1 : (Doc.mk ((cs.take (k + 1)).reverse ++ pre.reverse) (.ch t :: (cs.drop (k + 2) ++ post))).cursor =
            (bytes pre).length + (bytes (cs.take (k + 1))).length := by
          simp [Doc.cursor, bytes_append]
        rw [hc1] at hstep
        refine ⟨k + 1 + 1, ?_, by omega, ?_, ?_⟩
        · refine hstep.trans ?_
          rw [moveRight, hcut2, et]
          congr 1
          simp [bytes_append, bytes_cons, bytes_nil, Sym.bytes]
          omega
        · intro _
          refine ⟨by omega, ?_⟩
          intro j hj
          rcases Nat.lt_or_ge (k + 1) j with h5 | h5
          · have := take_width hw cs (show k + 1 + 1 ≤ j by omega)
            unfold dist
            omega
          · have := take_width hw cs h5
            unfold dist
            omega
        · intro h5
          omega
      · rw [if_neg hd]
        refine ⟨k + 1, rfl, by omega, ?_, fun h5 => by omega⟩
        intro _
        refine ⟨by omega, ?_⟩
        intro j hj
        rcases Nat.lt_or_ge (k + 1) j with h5 | h5
        · have := take_width hw cs (show k + 1 + 1 ≤ j by omega)
          unfold dist
          omega
        · have := take_width hw cs h5
          unfold dist
          omega
    · rw [if_neg hx]
      have hml : moveLeft0 M ((bytes pre).length + (bytes (cs.take (k + 1))).length) =
          .ok ((bytes pre).length + (bytes (cs.take k)).length) := by
        have := moveLeft0_eq (bytes pre ++ bytes (cs.take k)) (bytes (cs.drop (k + 1)) ++ (bytes post ++ 0 :: z)) cs[k] hokk hnk
        rw [List.length_append] at this
        rw [hlen, ← Nat.add_assoc, e]
        rw [← this]
        congr 1
        have h1 : bytes cs = bytes (cs.take k) ++ ((cs[k]).bytes ++ bytes (cs.drop (k + 1))) := by
          rw [← bytes_cons, ← List.drop_eq_getElem_cons hlt, ← bytes_append, List.take_append_drop]
        rw [bytes_append, bytes_append, h1]
        simp only [List.append_assoc]
      rw [hml, bind_ok]
      exact near_spec h hp hw x k fuel _ (by omega) (by omega) (Or.inr ⟨hlt, rfl, by omega⟩)

theorem bytes_len {l : List Sym} (h : ∀ s ∈ l, s.Ok) : l.length ≤ (bytes l).length := by
  induction l with
  | nil => simp
  | cons s l ih =>
    obtain ⟨b, cs, e, _⟩ := ok_bytes (h s List.mem_cons_self)
    have := ih fun x hx => h x (List.mem_cons_of_mem _ hx)
    rw [bytes_cons, List.length_append, e, List.length_cons, List.length_cons]
    omega

theorem endLine_line {M : Text} {len : Nat} {pre cs post : List Sym} (h : Holds M len (pre ++ cs ++ post)) (hp : .nl ∉ cs)
    (hl : post = [] ∨ ∃ p, post = .nl :: p) (k : Nat) :
    endLine M len ((bytes pre).length + (bytes (cs.take k)).length) = .ok ((bytes pre).length + (bytes cs).length) := by
  have hsy : (Doc.mk ((cs.take k).reverse ++ pre.reverse) (cs.drop k ++ post)).syms = pre ++ cs ++ post := by
    unfold Doc.syms
    simp only [List.reverse_append, List.reverse_reverse, List.append_assoc]
    rw [← List.append_assoc (cs.take k), List.take_append_drop]
  have := toEnd_eq (M := M) (len := len) (by rw [hsy]; exact h)
  have hc : (Doc.mk ((cs.take k).reverse ++ pre.reverse) (cs.drop k ++ post)).cursor = (bytes pre).length + (bytes (cs.take k)).length := by
    simp [Doc.cursor, bytes_append]
  have hbe : (Doc.mk ((cs.take k).reverse ++ pre.reverse) (cs.drop k ++ post)).behind = cs.drop k := by
    show (cs.drop k ++ post).takeWhile (· != .nl) = _
    rw [List.takeWhile_append_of_pos]
    · rcases hl with e | ⟨p, e⟩
      · rw [e]; simp
      · rw [e, List.takeWhile_cons_of_neg (by simp), List.append_nil]
    · intro s hs
      have : s ≠ .nl := fun e => hp (e ▸ List.mem_of_mem_drop hs)
      simpa using this
  rw [hc] at this
  rw [this]
  congr 1
  have h1 : bytes cs = bytes (cs.take k) ++ bytes (cs.drop k) := by
    rw [← bytes_append, List.take_append_drop]
  unfold Doc.toEnd Doc.cursor
  dsimp only
  rw [hbe, h1]
  simp only [List.reverse_append, List.reverse_reverse, bytes_append, List.length_append]
  omega

/-- The number of the line that was clicked: the first visible one and those that lie between it and the click. -/
def clicked (off lh : Nat) (rely : Int) : Nat := (off + rely.tdiv lh).toNat

/-- **C115 (partial)**: a click into a line puts the cursor between two symbols of this line, at the place that is nearest to
the click; only if the click is in the first symbol of the line, the cursor is always put before it. Missing: that it is put
behind the first symbol if that is nearer (`C115_violated`). -/
theorem C115_partial (l : List Sym) (hl : ∀ s ∈ l, s.Ok) (z : Bytes) (w : Bytes → Nat) (hw : Widths w) (off lh : Nat) (hh : 0 < lh)
    (relx rely : Int) (pre cs post : List Sym) (hi : IsLine l (clicked off lh rely) pre cs post) :
    ∃ k, click (bytes l ++ 0 :: z) (bytes l).length w off lh relx rely = .ok ((bytes pre).length + (bytes (cs.take k)).length) ∧
      k ≤ cs.length ∧ (relx ≤ 0 ∨ w (bytes (cs.take 1)) < relx → Nearest w cs relx k) ∧
      (relx ≤ w (bytes (cs.take 1)) → k = 0) := by
  have hH : Holds (bytes l ++ 0 :: z) (bytes l).length l := ⟨hl, ⟨z, rfl⟩, rfl⟩
  have hH' : Holds (bytes l ++ 0 :: z) (bytes l).length (pre ++ cs ++ post) := by rw [← hi.parts]; exact hH
  have hemp : cs = [] → ∀ k, w (bytes (cs.take k)) = 0 := by
    intro h k
    rw [h, List.take_nil, bytes_nil]
    exact hw.1
  have hnil : cs = [] → (bytes cs).length = 0 := by
    intro h
    rw [h]
    rfl
  have hokc : ∀ s ∈ cs, s.Ok := fun s hs => hl s (by rw [hi.parts]; simp [hs])
  have zero : cs = [] → ∃ k, Out.ok ((bytes pre).length + (bytes cs).length) = .ok ((bytes pre).length + (bytes (cs.take k)).length) ∧
      k ≤ cs.length ∧ (relx ≤ 0 ∨ w (bytes (cs.take 1)) < relx → Nearest w cs relx k) ∧
      (relx ≤ w (bytes (cs.take 1)) → k = 0) := by
    intro hcs
    refine ⟨0, by rw [hcs]; rfl, by omega, fun _ => ⟨by omega, fun j _ => ?_⟩, fun _ => rfl⟩
    rw [hemp hcs 0, hemp hcs j]
    exact Nat.le_refl _
  unfold click
  by_cases h0 : (bytes l).length = 0
  · rw [if_pos h0]
    have hl0 : l = [] := by
      have := bytes_len hl
      exact List.length_eq_zero_iff.1 (by omega)
    have hp := hi.parts
    rw [hl0] at hp
    have hp' := List.append_eq_nil_iff.1 hp.symm
    have hp2 := List.append_eq_nil_iff.1 hp'.1
    obtain ⟨k, h1, h2⟩ := zero hp2.2
    refine ⟨k, ?_, h2⟩
    rw [← h1, hp2.1, hp2.2]
    rfl
  · rw [if_neg h0, if_neg (by omega)]
    dsimp only
    have hn := (next_lines (M := bytes l ++ 0 :: z) (len := (bytes l).length) (clicked off lh rely) [] l hH).1 pre cs post hi
    rw [List.nil_append] at hn
    have hn' : again (nextFirst (bytes l ++ 0 :: z) (bytes l).length) ((off : Int) + rely.tdiv lh).toNat 0 = .ok (bytes pre).length := hn
    rw [hn', bind_ok]
    have he := endLine_line hH' hi.plain hi.last 0
    rw [List.take_zero, bytes_nil, List.length_nil, Nat.add_zero] at he
    rw [he, bind_ok]
    by_cases hcs : cs = []
    · rw [if_pos (by rw [hnil hcs]; omega)]
      exact zero hcs
    · have hpos : 0 < cs.length := List.length_pos_iff.2 hcs
      have hbl := bytes_len hokc
      rw [if_neg (by omega)]
      have hseg : segment (bytes l ++ 0 :: z) (bytes pre).length ((bytes pre).length + (bytes cs).length) = bytes cs := by
        unfold segment
        rw [hi.parts, bytes_append, bytes_append, List.append_assoc, List.append_assoc, List.drop_left, Nat.add_sub_cancel_left, List.take_left]
      rw [hseg]
      by_cases hx : (w (bytes cs) : Int) < relx
      · rw [if_pos hx]
        have he2 := endLine_line hH' hi.plain hi.last cs.length
        rw [List.take_length] at he2
        refine ⟨cs.length, by rw [he2, List.take_length], Nat.le_refl _, fun _ => ⟨Nat.le_refl _, fun j hj => ?_⟩, ?_⟩
        · have := take_width hw cs hj
          rw [List.take_length] at *
          unfold dist
          omega
        · intro h5
          have := take_width hw cs (show 1 ≤ cs.length by omega)
          rw [List.take_length] at this
          omega
      · rw [if_neg hx]
        have := near_spec hH' hi.plain hw relx cs.length ((bytes pre).length + (bytes cs).length - (bytes pre).length + 1) (w (bytes cs))
          (Nat.le_refl _) (by omega) (Or.inl ⟨rfl, by omega⟩)
        rw [List.take_length] at this
        exact this

/-- **C115**: a click below the last line puts the cursor at the end of the text. -/
theorem C115_below (l : List Sym) (hl : ∀ s ∈ l, s.Ok) (z : Bytes) (w : Bytes → Nat) (off lh : Nat) (hh : 0 < lh)
    (relx rely : Int) (h : l.count .nl < clicked off lh rely) :
    click (bytes l ++ 0 :: z) (bytes l).length w off lh relx rely = .ok (bytes l).length := by
  have hH : Holds (bytes l ++ 0 :: z) (bytes l).length l := ⟨hl, ⟨z, rfl⟩, rfl⟩
  unfold click
  by_cases h0 : (bytes l).length = 0
  · rw [if_pos h0, h0]
  · rw [if_neg h0, if_neg (by omega)]
    dsimp only
    have hn : again (nextFirst (bytes l ++ 0 :: z) (bytes l).length) ((off : Int) + rely.tdiv lh).toNat 0 = .ok (bytes l).length :=
      (next_lines (clicked off lh rely) [] l hH).2 h
    rw [hn, bind_ok]
    have he := endLine_line (M := bytes l ++ 0 :: z) (len := (bytes l).length) (pre := l) (cs := []) (post := []) (by simpa using hH)
      (by simp) (Or.inl rfl) 0
    simp only [List.take_nil, bytes_nil, List.length_nil, Nat.add_zero] at he
    rw [he, bind_ok, if_pos rfl]

/-- **C115**: every click is into a line or below the last one. -/
theorem C115_lines (l : List Sym) (off lh : Nat) (rely : Int) :
    (∃ pre cs post, IsLine l (clicked off lh rely) pre cs post) ∨ l.count .nl < clicked off lh rely := by
  rcases Nat.lt_or_ge (l.count .nl) (clicked off lh rely) with h | h
  · exact Or.inr h
  · exact Or.inl (line_exists _ l h)

theorem gap_iff (c : UInt8) : gap c = true ↔ Gap c := by
  unfold gap Gap
  simp only [Bool.or_eq_true, beq_iff_eq]
  constructor
  · rintro ((h | h) | h)
    · exact Or.inr (Or.inl h)
    · exact Or.inr (Or.inr h)
    · exact Or.inl h
  · rintro (h | h | h)
    · exact Or.inr h
    · exact Or.inl (Or.inl h)
    · exact Or.inl (Or.inr h)

theorem wordLeft_spec (t z : Bytes) : ∀ i, i ≤ t.length → ∃ b, wordLeft (t ++ z) i = .ok b ∧ b ≤ i ∧
    (∀ k, b ≤ k → k < i → ∃ c, t[k]? = some c ∧ ¬ Gap c) ∧ (b = 0 ∨ ∃ c, t[b - 1]? = some c ∧ Gap c)
  | 0, _ => ⟨0, rfl, Nat.le_refl _, fun k _ h => by omega, Or.inl rfl⟩
  | i + 1, h => by
    have hg : (t ++ z)[i]? = some t[i] := by
      rw [List.getElem?_append_left (by omega), List.getElem?_eq_getElem (by omega)]
    have ht : t[i]? = some t[i] := List.getElem?_eq_getElem (by omega)
    rw [wordLeft, rd_of hg, bind_ok]
    cases hc : gap t[i] with
    | true =>
      rw [if_pos rfl]
      exact ⟨i + 1, rfl, Nat.le_refl _, fun k _ h => by omega, Or.inr ⟨t[i], by simpa using ht, (gap_iff _).1 hc⟩⟩
    | false =>
      rw [if_neg (by simp)]
      obtain ⟨b, h1, h2, h3, h4⟩ := wordLeft_spec t z i (by omega)
      refine ⟨b, h1, by omega, ?_, h4⟩
      intro k hb hk
      by_cases hki : k = i
      · subst hki
        refine ⟨t[k], ht, fun hG => ?_⟩
        rw [(gap_iff _).2 hG] at hc
        cases hc
      · exact h3 k hb (by omega)

theorem wordRight_spec (t z : Bytes) : ∀ (fuel i : Nat), i ≤ t.length → t.length < i + fuel → ∃ e, wordRight (t ++ z) t.length fuel i = .ok e ∧
    i ≤ e ∧ e ≤ t.length ∧ (∀ k, i ≤ k → k < e → ∃ c, t[k]? = some c ∧ ¬ Gap c) ∧ (e = t.length ∨ ∃ c, t[e]? = some c ∧ Gap c)
  | 0, _, _, hf => absurd hf (by omega)
  | fuel + 1, i, h, hf => by
    rw [wordRight]
    by_cases hi : i < t.length
    · have hg : (t ++ z)[i]? = some t[i] := by
        rw [List.getElem?_append_left (by omega), List.getElem?_eq_getElem (by omega)]
      have ht : t[i]? = some t[i] := List.getElem?_eq_getElem (by omega)
      rw [if_pos hi, rd_of hg, bind_ok]
      cases hc : gap t[i] with
      | true =>
        rw [if_pos rfl]
        exact ⟨i, rfl, Nat.le_refl _, h, fun k _ h => by omega, Or.inr ⟨t[i], ht, (gap_iff _).1 hc⟩⟩
      | false =>
        rw [if_neg (by simp)]
        obtain ⟨e, h1, h2, h3, h4, h5⟩ := wordRight_spec t z fuel (i + 1) (by omega) (by omega)
        refine ⟨e, h1, by omega, h3, ?_, h5⟩
        intro k hb hk
        by_cases hki : k = i
        · subst hki
          refine ⟨t[k], ht, fun hG => ?_⟩
          rw [(gap_iff _).2 hG] at hc
          cases hc
        · exact h4 k (by omega) hk
    · rw [if_neg hi]
      exact ⟨i, rfl, Nat.le_refl _, h, fun k _ h => by omega, Or.inl (by omega)⟩

/-- **C115**: a double click selects the word at the cursor: the longest piece without blanks and line ends around it. -/
theorem C115_word (t z : Bytes) (i : Nat) (h : i ≤ t.length) :
    ∃ b e, selectWord (t ++ z) t.length i = .ok (b, e) ∧ WordAt t i b e := by
  obtain ⟨b, h1, h2, h3, h4⟩ := wordLeft_spec t z i h
  obtain ⟨e, k1, k2, k3, k4, k5⟩ := wordRight_spec t z (t.length + 1) i h (by omega)
  refine ⟨b, e, ?_, ⟨h2, k2, k3⟩, ?_, h4, k5⟩
  · rw [selectWord, h1, bind_ok, k1, bind_ok]
  · intro k hb he
    rcases Nat.lt_or_ge k i with h | h
    · exact h3 k hb h
    · exact k4 k h he

/-- The full statement: the cursor is always put at the nearest place of the line. -/
def C115_full : Prop := ∀ (l : List Sym), (∀ s ∈ l, s.Ok) → ∀ (z : Bytes) (w : Bytes → Nat), Widths w → ∀ (off lh : Nat), 0 < lh →
  ∀ (relx rely : Int) (pre cs post : List Sym), IsLine l (clicked off lh rely) pre cs post →
    ∃ k, click (bytes l ++ 0 :: z) (bytes l).length w off lh relx rely = .ok ((bytes pre).length + (bytes (cs.take k)).length) ∧
      Nearest w cs relx k

/-- **C115, violated**: in the line `m`, ten points wide, a click nine points from the left puts the cursor before the letter,
although its end is nearer. -/
theorem C115_violated : click [109, 0] 1 (fun t => 10 * t.length) 0 12 9 3 = .ok 0 ∧
    ¬ Nearest (fun t => 10 * t.length) [.ch [109]] 9 0 := by
  refine ⟨by decide +kernel, ?_⟩
  intro h
  exact absurd (h.2 1 (by decide)) (by decide)

theorem C115_full_false : ¬ C115_full := by
  intro h
  obtain ⟨k, h1, h2⟩ := h [.ch [109]] (by decide) [] (fun t => 10 * t.length) ⟨rfl, fun a b => by simp [Nat.mul_add]⟩ 0 12 (by decide) 9 3
    [] [.ch [109]] [] ⟨rfl, by decide, Or.inl rfl, Or.inl rfl, by decide⟩
  have h3 := h2.1
  match k, h3 with
  | 0, _ => exact C115_violated.2 h2
  | 1, _ => exact absurd (C115_violated.1.symm.trans h1) (by decide)

/-- The hypotheses are met: the second line of `aé`, `bcd`; the click is nearest to the place after `bc`. -/
example : (∀ s ∈ [Sym.ch [97], .ch [195, 169], .nl, .ch [98], .ch [99], .ch [100]], s.Ok) ∧
    Widths (fun t => 10 * t.length) ∧
    IsLine [.ch [97], .ch [195, 169], .nl, .ch [98], .ch [99], .ch [100]] (clicked 0 12 15) [.ch [97], .ch [195, 169], .nl]
      [.ch [98], .ch [99], .ch [100]] [] ∧
    click [97, 195, 169, 13, 10, 98, 99, 100, 0] 8 (fun t => 10 * t.length) 0 12 17 15 = .ok 7 ∧
    click [97, 195, 169, 13, 10, 98, 99, 100, 0] 8 (fun t => 10 * t.length) 0 12 17 40 = .ok 8 ∧
    selectWord [97, 32, 98, 99, 13, 10, 100, 0] 7 3 = .ok (2, 4) :=
  ⟨by decide, ⟨rfl, fun a b => by simp [Nat.mul_add]⟩,
    ⟨rfl, by decide, Or.inr ⟨[.ch [97], .ch [195, 169]], rfl⟩, Or.inl rfl, by decide⟩, by decide +kernel, by decide +kernel, by decide +kernel⟩

end Verif.Props.Click
