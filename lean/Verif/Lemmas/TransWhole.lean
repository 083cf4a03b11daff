import Verif.Lemmas.TransRun

/-!
# Translating whole programs
-/

namespace Verif.Lemmas.TransProg
open Verif (Out)
open Verif.Spec (Dict Node)
open Verif.Spec.Lexer Verif.Spec.Parser Verif.Spec.Retell
open Verif.Model (Text)
open Verif.Model.TransProg
open Verif.Model.Trans (Loaded translate)
open Verif.Model.Lexer (scan skip)

section
variable {d d' : Dict} {L : Loaded} {W : Say} {N : List (List Text)} {prg : Text}

/-- The translator prints the translation of these pieces, and the notebook still knows the places that follow. With the
flag, a message has to end after the pieces. -/
def Runs (d d' : Dict) (L : Loaded) (W : Say) (prg : Text) (k : Bool) (cs : List Cell) : Prop :=
  ∀ (seg : List Piece) (rest u : Text) (b : Book) (pend : Nat → Option Text), seg.map Piece.cell = cs → Laid d d' W seg rest →
    prg = u ++ source seg rest → (k = true → Stop d rest) → Good b (source seg rest).length pend →
    (∀ p, rest.length ≤ p → p ≤ (source seg rest).length → pend p = none) →
    ∃ b', Steps d L prg (source seg rest) b (target seg []) rest b' ∧ Good b' rest.length pend

theorem Runs.weaken {A : List Cell} {k : Bool} (h : Runs d d' L W prg false A) : Runs d d' L W prg k A :=
  fun seg rest u b pend h1 h2 h3 _ => h seg rest u b pend h1 h2 h3 (by intro h; cases h)

theorem Runs.nil {k : Bool} : Runs d d' L W prg k [] := by
  intro seg rest u b pend h _ _ _ hG _
  cases seg with
  | nil => exact ⟨b, Steps.refl, hG⟩
  | cons p s => cases h

/-- After the second pieces a message ends if it does at what follows, or they make it end. -/
def Closes (d d' : Dict) (W : Say) (k : Bool) (B : List Cell) : Prop :=
  ∀ (seg : List Piece) (rest : Text), seg.map Piece.cell = B → Laid d d' W seg rest → (k = true → Stop d rest) →
    Stop d (source seg rest)

theorem Runs.append {A B : List Cell} {j k : Bool} (ha : Runs d d' L W prg j A) (hb : Runs d d' L W prg k B)
    (hc : j = true → Closes d d' W k B) : Runs d d' L W prg k (A ++ B) := by
  intro seg rest u b pend h hl hp hs hG hn
  obtain ⟨sa, sb, rfl, h1, h2⟩ := map_split h
  obtain ⟨l1, l2⟩ := (laid_append sa sb rest).1 hl
  rw [source_append] at hp hG hn ⊢
  have q1 := source_le sb rest
  have q2 := source_le sa (source sb rest)
  obtain ⟨b1, s1, g1⟩ := ha sa (source sb rest) u b pend h1 l1 hp (fun hj => hc hj sb rest h2 l2 hs) hG
    (fun p e1 e2 => hn p (by omega) e2)
  obtain ⟨b2, s2, g2⟩ := hb sb rest (u ++ source sa []) b1 pend h2 l2 (by rw [hp, source_nil sa]; simp) hs g1
    (fun p e1 e2 => hn p e1 (by omega))
  refine ⟨b2, ?_, g2⟩
  rw [target_append, target_nil]
  exact s1.trans s2

theorem Closes.head (hd : GoodDict d) (hk : CalmDict d) {c : Cell} {B : List Cell} {k : Bool} (hc : Ends c) :
    Closes d d' W k (c :: B) := by
  intro seg rest h hl _
  obtain ⟨p, s, rfl, h1, h2⟩ := map_one h
  exact stop_piece hd hk (h1 ▸ hc) hl

theorem Runs.plain (hd : GoodDict d) (K : Knows d d' L W N) {c : Cell} (hc : Plain c) {k : Bool} :
    Runs d d' L W prg k [c] := by
  intro seg rest u b pend h hl hp _ hG _
  obtain ⟨p, s, rfl, h1, h2⟩ := map_one h
  obtain rfl := List.map_eq_nil_iff.1 h2
  obtain ⟨a1, a2, a3, a4, _⟩ := hl
  refine ⟨b, ?_, hG.mono (source_le _ _)⟩
  have := step_plain (L := L) (prg := prg) hd K hc h1 a1 (h1 ▸ a2) (h1 ▸ a3) (h1 ▸ a4) b
  rw [show target [p] [] = p.gap' ++ p.new by show _ ++ [] = _; simp]
  exact this

theorem Runs.word (hd : GoodDict d) (K : Knows d d' L W N) {w : Text} {k : Bool} :
    Runs d d' L W prg k [.word w] := by
  intro seg rest u b pend h hl hp _ hG hn
  obtain ⟨p, s, rfl, h1, h2⟩ := map_one h
  obtain rfl := List.map_eq_nil_iff.1 h2
  obtain ⟨a1, a2, a3, a4, _⟩ := hl
  rw [h1] at a2 a3 a4
  have q := source_le [p] rest
  obtain ⟨b', e, st⟩ := step_word (L := L) (prg := prg) hd K h1 a1 a2 a3.2.2 a4 b
    ((hG rest.length q).1 (hn _ (Nat.le_refl _) q))
  refine ⟨b', ?_, ?_⟩
  · rw [show target [p] [] = p.gap' ++ p.new by show _ ++ [] = _; simp]
    exact st
  · rcases e with rfl | rfl
    · exact hG.mono q
    · exact (hG.mono q).remove

theorem Runs.cons {c : Cell} {B : List Cell} {k : Bool} (ha : Runs d d' L W prg false [c]) (hb : Runs d d' L W prg k B) :
    Runs d d' L W prg k (c :: B) := Runs.append (A := [c]) ha hb (by intro h; cases h)

/-! ## Messages with parameters -/

/-- The arguments that are passed over when the parts of a message are looked for. -/
theorem gather_arg (hd : GoodDict d) (hk : CalmDict d) {rest : Text} (hs : Stop d rest) {ws ws' : List Text} {a : Node}
    {as : List Node} {sa seg : List Piece} {pos : List Nat} (ka : sa.map Piece.cell = cells d W true a)
    (hat : At d d' W rest false ws ws' as seg pos) (hga : gram d 1 a = true) (hg : gramArgs d as = true)
    (hl : Laid d d' W (sa ++ seg) rest) {u : Text} (hp : prg = u ++ source (sa ++ seg) rest) (n : Nat)
    (hn : (source (sa ++ seg) rest).length < n) (m : Msg) (hm : m.name.length + (joined d.param ws).length < 180) :
    gather d prg n (source (sa ++ seg) rest) m =
      .ok ⟨m.book ++ newNotes pos m.count, m.count + ws.length, m.name ++ joined d.param ws⟩ := by
  obtain ⟨l1, l2⟩ := (laid_append sa seg rest).1 hl
  have hc : F d 0 0 (source (sa ++ seg) rest) = F d 0 0 (source seg rest) := by
    rw [source_append]
    exact light_node hd hk a 1 (Nat.le_refl _) hga 0 0 (by intro h; cases h) sa _ ka l1
  rw [gather_congr hc]
  have hlen : ws.length ≤ (source seg rest).length := by
    clear hp hn hm hc l1 hl
    generalize false = f at hat
    induction hat with
    | nil => simp
    | @cons f w w' ws ws' a as pk ps sa seg pos k1 k2 k3 hat ih =>
      unfold gramArgs at hg
      rw [Bool.and_eq_true] at hg
      obtain ⟨_, a2, _, _, _, _, _, _, l3⟩ := l2
      have := ih hg.2 ((laid_append sa seg rest).1 l3).2
      have n1 : 0 < pk.bytes.length := List.length_pos_iff.2 (written_ne hd a2)
      have n3 : (source seg rest).length ≤ (source (sa ++ seg) rest).length := by
        rw [source_append]; exact source_le _ _
      show _ ≤ (pk.gap ++ pk.bytes ++ (ps.gap ++ ps.bytes ++ source (sa ++ seg) rest)).length
      simp only [List.length_append, List.length_cons]
      omega
  have : (source seg rest).length ≤ (source (sa ++ seg) rest).length := by rw [source_append]; exact source_le _ _
  exact gather_args hd hk hs hat hg l2 (u := u ++ source sa []) (by rw [hp, source_append, source_nil sa]; simp) n (by omega) m hm

theorem target_two (pk ps : Piece) (s : List Piece) :
    target (pk :: ps :: s) [] = pk.gap' ++ pk.new ++ (ps.gap' ++ ps.new) ++ target s [] := by
  show _ ++ (_ ++ target s []) = _
  simp

theorem joined_length (p : UInt8) (w : Text) (ws : List Text) :
    (joined p (w :: ws)).length = w.length + 1 + (joined p ws).length := by
  rw [joined_cons]; simp; omega

/-- The later parts of a message with their arguments. -/
theorem run_later (hd : GoodDict d) (hk : CalmDict d) {rest : Text} (hs : Stop d rest)
    {ws ws' : List Text} {as : List Node} {seg : List Piece} {pos : List Nat}
    (hat : At d d' W rest false ws ws' as seg pos) (hg : gramArgs d as = true)
    (ha : ∀ a ∈ as, Runs d d' L W prg false (cells d W true a)) (hl : Laid d d' W seg rest) (hshort : (joined d.param ws).length < 180)
    {u : Text} (hp : prg = u ++ source seg rest) {b : Book} {pend : Nat → Option Text}
    (hG : Good b (source seg rest).length pend)
    (hn : ∀ p, rest.length ≤ p → p ≤ (source seg rest).length → pend p = look pos (ws'.map (· ++ [d'.param])) p) :
    ∃ b', Steps d L prg (source seg rest) b (target seg []) rest b' ∧ Good b' rest.length pend := by
  generalize hf : false = f at hat
  induction hat generalizing u b with
  | nil => exact ⟨b, Steps.refl, hG⟩
  | @cons f w w' ws ws' a as pk ps sa seg pos k1 k2 k3 hat ih =>
    subst hf
    have hpos0 := at_pos hd (At.cons (f := false) k1 k2 k3 hat) hl
    have hlen0 := at_len hat
    obtain ⟨a1, a2, a3, a4, b1, b2, b3, b4, hl'⟩ := hl
    obtain ⟨l1, l2⟩ := (laid_append sa seg rest).1 hl'
    have hpos := at_pos hd hat l2
    unfold gramArgs at hg
    rw [Bool.and_eq_true] at hg
    rw [k1] at a2 a3 a4
    rw [k2] at b2 b3 b4
    have hps : ps.gap = [] := b3
    have hpb : ps.bytes = [d.param] := b2.1
    have e0 : (source (ps :: (sa ++ seg)) rest).length = (source (sa ++ seg) rest).length + 1 := by
      show (ps.gap ++ ps.bytes ++ source (sa ++ seg) rest).length = _
      rw [hps, hpb]; simp
    have e1 : (source (pk :: ps :: (sa ++ seg)) rest).length =
        pk.gap.length + pk.bytes.length + (source (ps :: (sa ++ seg)) rest).length := by
      show (pk.gap ++ pk.bytes ++ _).length = _
      simp; omega
    have e2 : (source seg rest).length ≤ (source (sa ++ seg) rest).length := by
      rw [source_append]; exact source_le _ _
    have e3 := source_le seg rest
    rw [joined_length] at hshort
    have hgat := gather_arg (prg := prg) hd hk hs k3 hat hg.1 hg.2 hl' (u := u ++ pk.gap ++ pk.bytes ++ ps.gap ++ ps.bytes)
      (by rw [hp]; show u ++ (pk.gap ++ pk.bytes ++ (ps.gap ++ ps.bytes ++ _)) = _; simp)
      ((source (sa ++ seg) rest).length + 1) (by omega) ⟨clearMarks b, 0, w ++ [d.param]⟩ (by simp; omega)
    dsimp only at hgat
    have hpend : pend ((source (sa ++ seg) rest).length + 1) = some (w' ++ [d'.param]) := by
      rw [← e0, hn _ (by omega) (by omega)]
      show (if _ = _ then _ else _) = _
      rw [if_pos rfl]
    have hG1 : Good (clearMarks b ++ newNotes pos 0) (source (pk :: ps :: (sa ++ seg)) rest).length pend := by
      refine hG.clear.again fun p hpp => ?_
      have := hpos p hpp
      rw [hn p (by omega) (by omega)]
      show (if _ = _ then _ else _) ≠ _
      rw [if_neg (by omega)]
      obtain ⟨t, ht⟩ := look_some (ts := ws'.map (· ++ [d'.param])) (by simpa using hlen0.2.symm) hpp
      rw [ht]; simp
    have st := step_key (L := L) (d' := d') hd k1 k2 hp a1 a2 hps b2 a4 b4 (by omega) hgat
      (say_later hG1 (by omega) hpend)
    obtain ⟨b2', s2, g2⟩ := ha a List.mem_cons_self sa (source seg rest) (u ++ pk.gap ++ pk.bytes ++ ps.gap ++ ps.bytes)
      (clearMarks b ++ newNotes pos 0) pend k3 l1
      (by rw [hp, ← source_append]; show u ++ (pk.gap ++ pk.bytes ++ (ps.gap ++ ps.bytes ++ _)) = _; simp)
      (by intro h; cases h) (by rw [← source_append]; exact hG1.mono (by omega))
      (fun p h1 h2 => by
        rw [← source_append] at h2
        rw [hn p (by omega) (by omega)]
        show (if _ = _ then _ else _) = _
        rw [if_neg (by omega)]
        exact look_none fun hm => by have := hpos p hm; omega)
    obtain ⟨b3', s3, g3⟩ := ih (u := u ++ pk.gap ++ pk.bytes ++ ps.gap ++ ps.bytes ++ source sa []) hg.2
      (fun a h => ha a (List.mem_cons_of_mem _ h)) l2 (by omega)
      (by rw [hp]; show u ++ (pk.gap ++ pk.bytes ++ (ps.gap ++ ps.bytes ++ source (sa ++ seg) rest)) = _
          rw [source_append, source_nil sa]; simp) g2
      (fun p h1 h2 => by
        rw [hn p (by omega) (by omega)]
        show (if _ = _ then _ else _) = _
        rw [if_neg (by omega)]) rfl
    refine ⟨b3', ?_, g3⟩
    rw [target_two, target_append, target_nil sa]
    rw [source_append] at st
    rw [show source (pk :: ps :: (sa ++ seg)) rest = pk.gap ++ pk.bytes ++ (ps.gap ++ ps.bytes ++ source sa (source seg rest)) by
      rw [← source_append]; rfl]
    exact st.trans (s2.trans s3)

/-- A message with parameters. -/
theorem run_kw (hd : GoodDict d) (hk : CalmDict d) (K : Knows d d' L W N) {ws : List Text} {as : List Node} (hN : ws ∈ N)
    (hne : ws ≠ []) (hlen : ws.length = as.length) (hg : gramArgs d as = true)
    (ha : ∀ a ∈ as, Runs d d' L W prg false (cells d W true a)) :
    Runs d d' L W prg true (cellArgs d W true ws (W.msg ws) as) := by
  intro seg rest u b pend h hl hp hs hG hn
  have hs := hs rfl
  obtain ⟨pos, hat⟩ := at_of (d' := d') (rest := rest) h hlen ((K.len ws hN).trans hlen)
  generalize hw' : W.msg ws = ws' at hat
  generalize hf : true = f at hat
  cases hat with
  | nil => exact absurd rfl hne
  | @cons f w w' ws ws' a as pk ps sa seg pos k1 k2 k3 hat =>
    subst hf
    have hlen0 := at_len hat
    obtain ⟨a1, a2, a3, a4, b1, b2, b3, b4, hl'⟩ := hl
    obtain ⟨l1, l2⟩ := (laid_append sa seg rest).1 hl'
    have hpos := at_pos hd hat l2
    unfold gramArgs at hg
    rw [Bool.and_eq_true] at hg
    rw [k1] at a2 a3 a4
    rw [k2] at b2 b3 b4
    have hps : ps.gap = [] := b3
    have hpb : ps.bytes = [d.param] := b2.1
    have e0 : (source (ps :: (sa ++ seg)) rest).length = (source (sa ++ seg) rest).length + 1 := by
      show (ps.gap ++ ps.bytes ++ source (sa ++ seg) rest).length = _
      rw [hps, hpb]; simp
    have e1 : (source (pk :: ps :: (sa ++ seg)) rest).length =
        pk.gap.length + pk.bytes.length + (source (ps :: (sa ++ seg)) rest).length := by
      show (pk.gap ++ pk.bytes ++ _).length = _
      simp; omega
    have e2 : (source seg rest).length ≤ (source (sa ++ seg) rest).length := by
      rw [source_append]; exact source_le _ _
    have e3 := source_le seg rest
    have hshort := K.short _ hN
    rw [joined_length] at hshort
    have hgat := gather_arg (prg := prg) hd hk hs k3 hat hg.1 hg.2 hl' (u := u ++ pk.gap ++ pk.bytes ++ ps.gap ++ ps.bytes)
      (by rw [hp]; show u ++ (pk.gap ++ pk.bytes ++ (ps.gap ++ ps.bytes ++ _)) = _; simp)
      ((source (sa ++ seg) rest).length + 1) (by omega) ⟨clearMarks b, 0, w ++ [d.param]⟩ (by simp; omega)
    dsimp only at hgat
    have hsay := say_first (L := L) K (w := w) (place := (source (sa ++ seg) rest).length + 1) (clear_marks b) (pos := pos)
      (fun p h => by have := hpos p h; omega)
      ((hG.clear _ (by omega)).1 (hn _ (by omega) (by omega))) hN hw' hlen0.2
    rw [joined_cons, ← hlen0.1] at hsay
    rw [Nat.zero_add] at hgat
    have hG1 : Good (clearMarks b ++ filled pos (ws'.map (· ++ [d'.param]))) (source (pk :: ps :: (sa ++ seg)) rest).length
        (pendWith pos (ws'.map (· ++ [d'.param])) pend) :=
      hG.clear.fill (by simpa using hlen0.2.symm) fun p hpp => hn p (by have := hpos p hpp; omega) (by have := hpos p hpp; omega)
    have hn' : ∀ p, rest.length ≤ p → p ≤ (source (pk :: ps :: (sa ++ seg)) rest).length →
        pendWith pos (ws'.map (· ++ [d'.param])) pend p = look pos (ws'.map (· ++ [d'.param])) p := by
      intro p h1 h2
      unfold pendWith
      rw [hn p h1 h2, Option.or_none]
    have st := step_key (L := L) (d' := d') hd k1 k2 hp a1 a2 hps b2 a4 b4 (by omega) hgat hsay
    obtain ⟨b2', s2, g2⟩ := ha a List.mem_cons_self sa (source seg rest) (u ++ pk.gap ++ pk.bytes ++ ps.gap ++ ps.bytes)
      _ _ k3 l1
      (by rw [hp, ← source_append]; show u ++ (pk.gap ++ pk.bytes ++ (ps.gap ++ ps.bytes ++ _)) = _; simp)
      (by intro h; cases h) (by rw [← source_append]; exact hG1.mono (by omega))
      (fun p h1 h2 => by
        rw [← source_append] at h2
        rw [hn' p (by omega) (by omega)]
        exact look_none fun hm => by have := hpos p hm; omega)
    obtain ⟨b3', s3, g3⟩ := run_later (L := L) (prg := prg) (u := u ++ pk.gap ++ pk.bytes ++ ps.gap ++ ps.bytes ++ source sa [])
      hd hk hs hat hg.2
      (fun a h => ha a (List.mem_cons_of_mem _ h)) l2 (by omega)
      (by rw [hp]; show u ++ (pk.gap ++ pk.bytes ++ (ps.gap ++ ps.bytes ++ source (sa ++ seg) rest)) = _
          rw [source_append, source_nil sa]; simp) g2
      (fun p h1 h2 => hn' p h1 (by omega))
    refine ⟨b3', ?_, ?_⟩
    · rw [target_two, target_append, target_nil sa]
      rw [source_append] at st
      rw [show source (pk :: ps :: (sa ++ seg)) rest = pk.gap ++ pk.bytes ++ (ps.gap ++ ps.bytes ++ source sa (source seg rest)) by
        rw [← source_append]; rfl]
      exact st.trans (s2.trans s3)
    · intro p hp'
      have := g3 p hp'
      unfold pendWith at this
      rw [look_none (fun hm => by have := hpos p hm; omega), Option.none_or] at this
      exact this

/-! ## Trees -/

/-- The parameters of a block: the translator looks at the byte before the parameter sign. -/
theorem run_params (hd : GoodDict d) (K : Knows d d' L W N) (ps : List Text) (seg : List Piece) (rest u : Text)
    (x : UInt8) (hu : u.getLast? = some x) (hx : x ≠ d.param) (b : Book) (pend : Nat → Option Text)
    (h : seg.map Piece.cell = ps.flatMap fun p => [Cell.param, Cell.word p]) (hl : Laid d d' W seg rest)
    (hp : prg = u ++ source seg rest) (hG : Good b (source seg rest).length pend)
    (hn : ∀ p, rest.length ≤ p → p ≤ (source seg rest).length → pend p = none) :
    ∃ b', Steps d L prg (source seg rest) b (target seg []) rest b' ∧ Good b' rest.length pend := by
  induction ps generalizing seg u x b with
  | nil =>
    obtain rfl := List.map_eq_nil_iff.1 h
    exact ⟨b, Steps.refl, hG⟩
  | cons w ps ih =>
    rw [List.flatMap_cons, List.cons_append, List.cons_append, List.nil_append] at h
    obtain ⟨p1, s1, rfl, k1, h⟩ := map_one h
    obtain ⟨p2, seg, rfl, k2, h⟩ := map_one h
    obtain ⟨a1, a2, a3, a4, b1, b2, b3, b4, hl⟩ := hl
    have e1 : source (p1 :: p2 :: seg) rest = p1.gap ++ p1.bytes ++ source (p2 :: seg) rest := rfl
    have e2 : source (p2 :: seg) rest = p2.gap ++ p2.bytes ++ source seg rest := rfl
    have q1 := source_le seg rest
    have q2 : (source seg rest).length ≤ (source (p2 :: seg) rest).length := by rw [e2]; simp; omega
    have q3 : (source (p2 :: seg) rest).length ≤ (source (p1 :: p2 :: seg) rest).length := by rw [e1]; simp; omega
    rw [k1] at a2 a3 a4
    have st1 := step_param (L := L) hd K k1 hp hu hx a1 a2 a4 b
    obtain ⟨b', st2, g2⟩ := Runs.word (prg := prg) (k := false) (w := w) hd K [p2] (source seg rest) (u ++ p1.gap ++ p1.bytes) b pend
      (by simp [k2]) ⟨b1, b2, b3, b4, trivial⟩ (by rw [hp, e1]; simp; rfl) (by intro h; cases h)
      (hG.mono (by exact q3)) (fun p h1 h2 => hn p (by omega) (by have : p ≤ (source (p2 :: seg) rest).length := h2; omega))
    rw [k2] at b2
    obtain ⟨y, hy⟩ : ∃ y, p2.bytes.getLast? = some y := by
      cases h : p2.bytes.getLast? with
      | none => exact absurd (List.getLast?_eq_none_iff.1 h) (written_ne hd b2)
      | some y => exact ⟨y, rfl⟩
    have hy2 : y ≠ d.param := by
      have hm : y ∈ p2.bytes := List.mem_of_getLast? hy
      intro e
      subst e
      rw [b2.1] at hm
      have := (b2.2.2.2.2.1 d.param hm).1
      simp at this
    obtain ⟨b3, st3, g3⟩ := ih seg (u ++ p1.gap ++ p1.bytes ++ p2.gap ++ p2.bytes) y (by rw [List.getLast?_append, hy]; rfl) hy2 b'
      h hl (by rw [hp, e1, e2]; simp) g2 (fun p h1 h2 => hn p h1 (by omega))
    refine ⟨b3, ?_, g3⟩
    have st := st1.trans (st2.trans st3)
    have e3 : target (p1 :: p2 :: seg) [] = p1.gap' ++ p1.new ++ (target [p2] [] ++ target seg []) := by
      show _ ++ (_ ++ _) = _ ++ (_ ++ [] ++ _)
      simp
    rw [e3]
    exact st

theorem Runs.params (hd : GoodDict d) (K : Knows d d' L W N) (ps : List Text) {B : List Cell} (hB : Runs d d' L W prg false B) :
    Runs d d' L W prg false (.bopen :: ps.flatMap (fun p => [.param, .word p]) ++ B) := by
  intro seg rest u b pend h hl hp hs hG hn
  obtain ⟨p0, seg, rfl, k0, h⟩ := map_one h
  obtain ⟨sa, sb, rfl, h1, h2⟩ := map_split h
  obtain ⟨a1, a2, a3, a4, hl⟩ := hl
  obtain ⟨l1, l2⟩ := (laid_append sa sb rest).1 hl
  have e1 : source (p0 :: (sa ++ sb)) rest = source [p0] (source sa (source sb rest)) := by
    show source ([p0] ++ (sa ++ sb)) rest = _
    rw [source_append, source_append]
  have q1 := source_le sb rest
  have q2 := source_le sa (source sb rest)
  have q3 := source_le [p0] (source sa (source sb rest))
  rw [e1] at hp hG hn ⊢
  obtain ⟨b1, st1, g1⟩ := Runs.plain (k := false) (c := .bopen) hd K (by exact trivial) [p0] (source sa (source sb rest)) u b pend (by simp [k0])
    ⟨a1, by have h := a2; rw [source_append] at h; exact h, by have h := a3; rw [source_append] at h; exact h, a4, trivial⟩ hp
    (by intro h; cases h) hG
    (fun p x1 x2 => hn p (by omega) x2)
  rw [k0] at a2
  have hb0 : p0.bytes = [123] := a2
  obtain ⟨b2, st2, g2⟩ := run_params (L := L) (prg := prg) hd K ps sa (source sb rest) (u ++ p0.gap ++ p0.bytes) 123
    (by rw [List.getLast?_append, hb0]; rfl) (fun e => (flat_iff.1 (param_flat hd).1).2.2.1 e.symm) b1 pend h1 l1
    (by rw [hp]; show u ++ (p0.gap ++ p0.bytes ++ source sa (source sb rest)) = _; simp) g1 (fun p x1 x2 => hn p (by omega) (by omega))
  obtain ⟨b3, st3, g3⟩ := hB sb rest (u ++ p0.gap ++ p0.bytes ++ source sa []) b2 pend h2 l2
    (by rw [hp]; show u ++ (p0.gap ++ p0.bytes ++ source sa (source sb rest)) = _; rw [source_nil sa]; simp) (by intro h; cases h) g2
    (fun p x1 x2 => hn p x1 (by omega))
  refine ⟨b3, ?_, g3⟩
  have st := st1.trans (st2.trans st3)
  rw [← target_nil sa, ← target_append, ← target_nil, ← target_append] at st
  exact st

theorem Runs.ref (hd : GoodDict d) (K : Knows d d' L W N) (m : Nat) (n : Text) {k k' : Bool} :
    Runs d d' L W prg k (cells d W k' (.ref m n)) := by
  rw [cells]
  refine Runs.append (j := false) ?_ (Runs.word hd K) (by intro h; cases h)
  split
  · exact Runs.nil
  · split
    · exact Runs.word hd K
    · exact Runs.word hd K

mutual
/-- An expression is translated. -/
theorem run_node (hd : GoodDict d) (hk : CalmDict d) (K : Knows d d' L W N) : ∀ (e : Node) (k : Bool) (r : Nat),
    gram d r e = true → (∀ m ∈ names e, m ∈ N) → Runs d d' L W prg (r == 0) (cells d W k e)
  | .ref m n, k, r, _, _ => Runs.ref hd K m n
  | .num v, k, r, _, _ => by rw [cells]; exact Runs.plain hd K (by exact trivial)
  | .str v, k, r, _, _ => by rw [cells]; exact Runs.plain hd K (by exact trivial)
  | .block ps b, k, r, h, hN => by
    unfold gram at h
    rw [Bool.and_eq_true] at h
    unfold names at hN
    rw [cells, List.append_assoc]
    exact Runs.weaken (Runs.params hd K ps (Runs.append (run_stmts hd hk K b h.2 hN) (Runs.plain hd K (by exact trivial))
      (by intro h; cases h)))
  | .nested e, k, r, h, hN => by
    unfold gram at h
    unfold names at hN
    rw [cells]
    exact Runs.weaken (Runs.cons (Runs.plain hd K (by exact trivial)) (Runs.append (run_node hd hk K e false 0 h hN)
      (Runs.plain hd K (by exact trivial)) (fun _ => Closes.head hd hk (by exact trivial))))
  | .assign r' e, k, r, h, hN => by
    unfold gram at h
    simp only [Bool.and_eq_true, beq_iff_eq] at h
    obtain ⟨⟨⟨h0, h1⟩, h2⟩, h3⟩ := h
    subst h0
    unfold names at hN
    rw [cells]
    cases r' with
    | ref m n =>
      exact Runs.append (j := false) (Runs.ref hd K m n) (Runs.cons (Runs.plain hd K (by exact trivial))
        (run_node hd hk K e k 0 h3 (fun m hm => hN m (List.mem_append_right _ hm)))) (by intro h; cases h)
    | _ => cases h1
  | .msg r' ms, k, r, h, hN => by
    unfold gram at h
    simp only [Bool.and_eq_true] at h
    obtain ⟨⟨⟨h1, h2⟩, _⟩, h3⟩ := h
    unfold names at hN
    rw [cells]
    refine Runs.append (j := false) ?_ (run_msgs hd hk K ms k r false false h3
      (fun m hm => hN m (List.mem_append_right _ hm))) (by intro h; cases h)
    have hN' : ∀ m ∈ names r', m ∈ N := fun m hm => hN m (List.mem_append_left _ hm)
    cases r' with
    | ref m n => exact run_node hd hk K (.ref m n) k 1 (by unfold gram at h2 ⊢; exact h2) hN'
    | num v => exact run_node hd hk K (.num v) k 1 (by unfold gram at h2 ⊢; exact h2) hN'
    | str v => exact run_node hd hk K (.str v) k 1 (by unfold gram at h2 ⊢; exact h2) hN'
    | block ps b => exact run_node hd hk K (.block ps b) k 1 (by unfold gram at h2 ⊢; exact h2) hN'
    | nested e => exact run_node hd hk K (.nested e) k 1 (by unfold gram at h2 ⊢; exact h2) hN'
    | _ => cases h1
  | .ret e, k, r, h, _ => by unfold gram at h; cases h
  | .una n, k, r, h, _ => by unfold gram at h; cases h
  | .bin o a, k, r, h, _ => by unfold gram at h; cases h
  | .kw ps as, k, r, h, _ => by unfold gram at h; cases h
/-- Statements are translated. -/
theorem run_stmts (hd : GoodDict d) (hk : CalmDict d) (K : Knows d d' L W N) : ∀ es : List Node,
    gramStmts d es = true → (∀ m ∈ namesOf es, m ∈ N) → Runs d d' L W prg false (cellStmts d W es)
  | [], _, _ => by rw [cellStmts]; exact Runs.nil
  | e :: es, h, hN => by
    rw [cellStmts]
    unfold namesOf at hN
    have hN1 : ∀ m ∈ names e, m ∈ N := fun m hm => hN m (List.mem_append_left _ hm)
    have hN2 : ∀ m ∈ namesOf es, m ∈ N := fun m hm => hN m (List.mem_append_right _ hm)
    have hc : ∀ B, (true = true) → Closes d d' W false (.eol :: B) := fun B _ => Closes.head hd hk (by exact trivial)
    have hp : ∀ B, Runs d d' L W prg false B → Runs d d' L W prg false (.eol :: B) :=
      fun B hB => Runs.cons (Runs.plain hd K (by exact trivial)) hB
    cases e with
    | ret e =>
      unfold gramStmts at h
      rw [Bool.and_eq_true] at h
      unfold names at hN1
      rw [cells]
      exact Runs.cons (Runs.plain hd K (by exact trivial)) (Runs.append (run_node hd hk K e false 0 h.1 hN1)
        (hp _ (run_stmts hd hk K es h.2 hN2)) (hc _))
    | ref m n =>
      unfold gramStmts at h
      rw [Bool.and_eq_true] at h
      exact Runs.append (run_node hd hk K (.ref m n) false 0 h.1 hN1) (hp _ (run_stmts hd hk K es h.2 hN2)) (hc _)
    | num v =>
      unfold gramStmts at h
      rw [Bool.and_eq_true] at h
      exact Runs.append (run_node hd hk K (.num v) false 0 h.1 hN1) (hp _ (run_stmts hd hk K es h.2 hN2)) (hc _)
    | str v =>
      unfold gramStmts at h
      rw [Bool.and_eq_true] at h
      exact Runs.append (run_node hd hk K (.str v) false 0 h.1 hN1) (hp _ (run_stmts hd hk K es h.2 hN2)) (hc _)
    | block ps b =>
      unfold gramStmts at h
      rw [Bool.and_eq_true] at h
      exact Runs.append (run_node hd hk K (.block ps b) false 0 h.1 hN1) (hp _ (run_stmts hd hk K es h.2 hN2)) (hc _)
    | nested e =>
      unfold gramStmts at h
      rw [Bool.and_eq_true] at h
      exact Runs.append (run_node hd hk K (.nested e) false 0 h.1 hN1) (hp _ (run_stmts hd hk K es h.2 hN2)) (hc _)
    | assign r e =>
      unfold gramStmts at h
      rw [Bool.and_eq_true] at h
      exact Runs.append (run_node hd hk K (.assign r e) false 0 h.1 hN1) (hp _ (run_stmts hd hk K es h.2 hN2)) (hc _)
    | msg r ms =>
      unfold gramStmts at h
      rw [Bool.and_eq_true] at h
      exact Runs.append (run_node hd hk K (.msg r ms) false 0 h.1 hN1) (hp _ (run_stmts hd hk K es h.2 hN2)) (hc _)
    | una n => unfold gramStmts gram at h; cases h
    | bin o a => unfold gramStmts gram at h; cases h
    | kw ps as => unfold gramStmts gram at h; cases h
/-- Messages are translated. -/
theorem run_msgs (hd : GoodDict d) (hk : CalmDict d) (K : Knows d d' L W N) : ∀ (ms : List Node) (k : Bool) (r : Nat) (bin kw : Bool),
    gramMsgs d r bin ms = true → (∀ m ∈ namesOf ms, m ∈ N) → Runs d d' L W prg (r == 0) (cellMsgs d W k kw ms)
  | [], _, _, _, _, _, _ => by rw [cellMsgs]; exact Runs.nil
  | m :: ms, k, r, bin, kw, h, hN => by
    rw [cellMsgs, List.append_assoc]
    unfold namesOf at hN
    have hN1 : ∀ n ∈ names m, n ∈ N := fun n hn => hN n (List.mem_append_left _ hn)
    have hN2 : ∀ n ∈ namesOf ms, n ∈ N := fun n hn => hN n (List.mem_append_right _ hn)
    refine Runs.append (j := false) ?_ ?_ (by intro h; cases h)
    · cases kw with
      | false => exact Runs.nil
      | true => exact Runs.plain hd K (by exact trivial)
    cases m with
    | una n =>
      unfold gramMsgs at h
      simp only [Bool.and_eq_true] at h
      rw [cells]
      exact Runs.append (j := false) (Runs.word hd K) (run_msgs hd hk K ms k r false _ h.2 hN2) (by intro h; cases h)
    | bin o a =>
      unfold gramMsgs at h
      simp only [Bool.and_eq_true] at h
      unfold names at hN1
      rw [cells]
      exact Runs.append (j := false) (Runs.cons (Runs.word hd K) (run_node hd hk K a k 2 h.1.2 hN1))
        (run_msgs hd hk K ms k r true _ h.2 hN2) (by intro h; cases h)
    | kw ps as =>
      unfold gramMsgs at h
      simp only [Bool.and_eq_true, beq_iff_eq, Bool.not_eq_true', List.isEmpty_eq_false_iff] at h
      obtain ⟨⟨⟨⟨⟨h0, h1⟩, h2⟩, _⟩, h3⟩, h4⟩ := h
      subst h0
      unfold names at hN1
      rw [cells]
      refine Runs.append (j := true) (run_kw hd hk K (hN1 ps List.mem_cons_self) h2 h1 h3
        (run_args hd hk K as h3 (fun n hn => hN1 n (List.mem_cons_of_mem _ hn)))) (run_msgs hd hk K ms k 0 false _ h4 hN2) ?_
      intro _
      cases ms with
      | nil =>
        rw [cellMsgs]
        intro seg rest h _ hs
        obtain rfl := List.map_eq_nil_iff.1 h
        exact hs rfl
      | cons m ms =>
        rw [cellMsgs, show isKw (.kw ps as) = true from rfl, if_pos rfl]
        exact Closes.head hd hk (by exact trivial)
    | _ => unfold gramMsgs at h; cases h
/-- Arguments are translated. -/
theorem run_args (hd : GoodDict d) (hk : CalmDict d) (K : Knows d d' L W N) : ∀ as : List Node,
    gramArgs d as = true → (∀ m ∈ namesOf as, m ∈ N) → ∀ a ∈ as, Runs d d' L W prg false (cells d W true a)
  | [], _, _, _, ha => by cases ha
  | e :: as, h, hN, a, ha => by
    unfold gramArgs at h
    rw [Bool.and_eq_true] at h
    unfold namesOf at hN
    rcases List.mem_cons.1 ha with e' | ha
    · rw [e']
      exact run_node hd hk K e true 1 h.1 (fun m hm => hN m (List.mem_append_left _ hm))
    · exact run_args hd hk K as h.2 (fun m hm => hN m (List.mem_append_right _ hm)) a ha
end

/-- Programs are translated. -/
theorem program_runs (hd : GoodDict d) (hk : CalmDict d) {es : List Node} (K : Knows d d' L W (namesOf es)) (hg : gramStmts d es = true)
    {seg : List Piece} {tail : Text} (hc : seg.map Piece.cell = cellStmts d W es) (hl : Laid d d' W seg tail)
    (ht : ∀ c ∈ tail, blank c = true) :
    program d L (source seg tail) = .ok (target seg tail) := by
  obtain ⟨b, ⟨k, h1, h2⟩, _⟩ := run_stmts (prg := source seg tail) hd hk K es hg (fun _ h => h) seg tail [] [] (fun _ => none) hc hl
    rfl (by intro h; cases h) (fun p _ => ⟨fun _ n hn => (by cases hn), fun t h => (by cases h)⟩) (fun _ _ _ => rfl)
  unfold program
  rw [show (source seg tail).length + 1 = ((source seg tail).length - k) + 1 + k by omega, h2]
  have hsk : scan d (skip false tail) = .ok (.fin, [], []) := by
    have : skip false tail = [] := by
      have := Verif.Model.Lexer.skip_over (g := tail) (gap_of (after := []) ht) (by intro c hc; cases hc)
      simpa using this
    rw [this]
    rfl
  rw [loop, hsk, bind_ok]
  show (upTo tail 0).bind _ = _
  have := upTo_left tail []
  simp only [List.append_nil, List.length_nil] at this
  rw [this, bind_ok, ← target_nil]

end

end Verif.Lemmas.TransProg
