import Verif.Lemmas.TransTree

/-!
# Lemmas about translating programs: the notes, and the name of a message
-/

namespace Verif.Lemmas.TransProg
open Verif.Model Verif.Model.TransProg
open Verif.Model.Trans (maxWord)
open Verif.Model.Lexer (isDigit digitAt digitAt_starts pfx_false pfx_iff isDigit_eq startsNone_mem isSpace_eq apart_pfx
  pfx_self)
open Verif.Spec (Dict Node)
open Verif.Spec.Lexer Verif.Spec.Parser
open Verif.Spec.Retell

/-! ## The parts of a message in the program -/

/-- The pieces `seg` (followed by `rest`) are the parts `ws` of a message with their arguments; `pos` are the places of
the parameter signs. -/
inductive At (d d' : Dict) (W : Say) (rest : Text) : Bool → List Text → List Text → List Node → List Piece → List Nat → Prop where
  | nil {f : Bool} : At d d' W rest f [] [] [] [] []
  | cons {f : Bool} {w w' : Text} {ws ws' : List Text} {a : Node} {as : List Node} {pk ps : Piece} {sa seg : List Piece}
      {pos : List Nat} : pk.cell = .key f w w' → ps.cell = .sign → sa.map Piece.cell = cells d W true a →
      At d d' W rest false ws ws' as seg pos →
      At d d' W rest f (w :: ws) (w' :: ws') (a :: as) (pk :: ps :: (sa ++ seg))
        ((source (ps :: (sa ++ seg)) rest).length :: pos)

theorem at_of {d d' : Dict} {W : Say} {rest : Text} {f : Bool} {ws ws' : List Text} {as : List Node} {seg : List Piece}
    (h : seg.map Piece.cell = cellArgs d W f ws ws' as) (h1 : ws.length = as.length) (h2 : ws'.length = as.length) :
    ∃ pos, At d d' W rest f ws ws' as seg pos := by
  induction as generalizing f ws ws' seg with
  | nil =>
    obtain rfl := List.length_eq_zero_iff.1 h1
    obtain rfl := List.length_eq_zero_iff.1 h2
    unfold cellArgs at h
    obtain rfl := List.map_eq_nil_iff.1 h
    exact ⟨[], .nil⟩
  | cons a as ih =>
    cases ws with
    | nil => cases h1
    | cons w ws =>
      cases ws' with
      | nil => cases h2
      | cons w' ws' =>
        rw [cellArgs] at h
        obtain ⟨pk, s1, rfl, k1, h⟩ := map_one h
        obtain ⟨ps, s2, rfl, k2, h⟩ := map_one h
        obtain ⟨sa, seg', rfl, k3, h⟩ := map_split h
        obtain ⟨pos, hpos⟩ := ih h (by simpa using h1) (by simpa using h2)
        exact ⟨_, .cons k1 k2 k3 hpos⟩

/-- The notes made for these places. -/
def newNotes : List Nat → Nat → Book
  | [], _ => []
  | p :: ps, k => ⟨some p, some k, []⟩ :: newNotes ps (k + 1)

/-- The notes once the texts are attached. -/
def filled : List Nat → List Text → Book
  | p :: ps, t :: ts => ⟨some p, none, t⟩ :: filled ps ts
  | _, _ => []

/-- A place from which a message has no further parts. -/
def Stop (d : Dict) (rest : Text) : Prop :=
  ∃ s, F d 0 0 rest = some s ∧ ((d.eol.length < s.length ∧ d.eol.isPrefixOf s = true) ∨
    (d.chain.length < s.length ∧ d.chain.isPrefixOf s = true) ∨ s.head? = some 41)

theorem stop_piece {d d' : Dict} {W : Say} (hd : GoodDict d) (hk : CalmDict d) {p : Piece} {ps : List Piece} {rest : Text}
    (hc : Ends p.cell) (hl : Laid d d' W (p :: ps) rest) : Stop d (source (p :: ps) rest) := by
  obtain ⟨a1, a2, a3, _, _⟩ := hl
  refine ⟨_, F_stop hd hk (.inl hc) a1 a2, ?_⟩
  cases h : p.cell with
  | eol =>
    rw [h] at a2 a3
    rw [show p.bytes = d.eol from a2]
    refine .inl ⟨?_, pfx_self _ _⟩
    have : 0 < (source ps rest).length := List.length_pos_iff.2 a3
    simp; omega
  | chain =>
    rw [h] at a2 a3
    rw [show p.bytes = d.chain from a2]
    refine .inr (.inl ⟨?_, pfx_self _ _⟩)
    have : 0 < (source ps rest).length := List.length_pos_iff.2 a3
    simp; omega
  | pclose =>
    rw [h] at a2
    rw [show p.bytes = [41] from a2]
    exact .inr (.inr rfl)
  | _ => rw [h] at hc; exact hc.elim

theorem gather_congr {d : Dict} {prg a b : Text} (h : F d 0 0 a = F d 0 0 b) (n : Nat) (m : Msg) :
    gather d prg n a m = gather d prg n b m := by
  cases n with
  | zero => rfl
  | succ n =>
    unfold gather
    rw [show forward d ⟨0, 0, false, false⟩ a = forward d ⟨0, 0, false, false⟩ b from h]

theorem gather_stop {d : Dict} {prg rest : Text} (h : Stop d rest) (n : Nat) (m : Msg) : gather d prg n rest m = .ok m := by
  obtain ⟨s, h1, h2⟩ := h
  cases n with
  | zero => rfl
  | succ n =>
    unfold gather
    rw [show forward d ⟨0, 0, false, false⟩ rest = some s from h1]
    dsimp only
    rw [if_pos h2]

theorem backward_word {w : Text} (hw : ∀ c ∈ w, c ≠ 10 ∧ c ≠ 9 ∧ c ≠ 32 ∧ c ≠ 41 ∧ c ≠ 125) {x : UInt8}
    (hx : x = 10 ∨ x = 9 ∨ x = 32) (r : Text) (q : Nat) (hq : q + w.length < 180) :
    backward q (w ++ x :: r) = some (q + w.length) := by
  induction w generalizing q with
  | nil =>
    rw [List.nil_append]
    unfold backward
    rw [if_neg (by unfold maxWord; simp at hq; omega), if_pos]
    · rfl
    · rcases hx with h | h | h
      · exact .inl h
      · exact .inr (.inl h)
      · exact .inr (.inr (.inl h))
  | cons c w ih =>
    obtain ⟨h1, h2, h3, h4, h5⟩ := hw c List.mem_cons_self
    rw [List.cons_append]
    unfold backward
    rw [if_neg (by unfold maxWord; simp at hq; omega), if_neg (by simp [h1, h2, h3, h4, h5]),
      ih (fun c hc => hw c (List.mem_cons_of_mem _ hc)) (q + 1) (by simp at hq; omega)]
    simp; omega

theorem not_blank {c : UInt8} (h : blank c = false) : c ≠ 10 ∧ c ≠ 9 ∧ c ≠ 32 := by
  refine ⟨?_, ?_, ?_⟩ <;> (intro e; rw [e] at h; revert h; decide)

theorem word_bytes {d : Dict} {w rest : Text} (h : Word d w rest) (hf : ∀ c ∈ w, flat c = true) :
    ∀ c ∈ w, c ≠ 10 ∧ c ≠ 9 ∧ c ≠ 32 ∧ c ≠ 41 ∧ c ≠ 125 := by
  intro c hc
  obtain ⟨_, _, _, h4, _⟩ := h
  obtain ⟨a, b, e⟩ := not_blank (h4 c hc).2
  have := flat_iff.1 (hf c hc)
  exact ⟨a, b, e, this.2.1, this.2.2.2⟩

theorem param_bytes {d : Dict} (hd : GoodDict d) :
    d.param ≠ 10 ∧ d.param ≠ 9 ∧ d.param ≠ 32 ∧ d.param ≠ 41 ∧ d.param ≠ 125 := by
  obtain ⟨a, b, e⟩ := not_blank (hd.2.2.2.1 [d.param] (by simp) d.param (by simp)).2
  have := flat_iff.1 (param_flat hd).1
  exact ⟨a, b, e, this.2.1, this.2.2.2⟩

theorem joined_cons (p : UInt8) (w : Text) (ws : List Text) : joined p (w :: ws) = w ++ [p] ++ joined p ws := rfl

/-- Looking for the parts of a message: they are found, and only they. -/
theorem gather_args {d d' : Dict} {W : Say} (hd : GoodDict d) (hk : CalmDict d) {prg rest : Text} (hs : Stop d rest)
    {ws ws' : List Text} {as : List Node} {seg : List Piece} {pos : List Nat}
    (hat : At d d' W rest false ws ws' as seg pos) (hg : gramArgs d as = true) (hl : Laid d d' W seg rest)
    {u : Text} (hp : prg = u ++ source seg rest) (n : Nat) (hn : ws.length < n) (m : Msg)
    (hm : m.name.length + (joined d.param ws).length < 180) :
    gather d prg n (source seg rest) m =
      .ok ⟨m.book ++ newNotes pos m.count, m.count + ws.length, m.name ++ joined d.param ws⟩ := by
  generalize hf : false = f at hat
  induction hat generalizing n m u with
  | nil =>
    rw [show source [] rest = rest from rfl, gather_stop hs]
    simp [newNotes, joined]
  | @cons f w w' ws ws' a as pk ps sa seg pos k1 k2 k3 hat ih =>
    subst hf
    unfold gramArgs at hg
    rw [Bool.and_eq_true] at hg
    obtain ⟨a1, a2, a3, _, b1, b2, b3, _, hl⟩ := hl
    obtain ⟨l1, l2⟩ := (laid_append sa seg rest).1 hl
    rw [k1] at a2 a3
    rw [k2] at b2 b3
    have hgap : ps.gap = [] := b3
    obtain ⟨hbytes, hnone⟩ := b2
    obtain ⟨hpk, hword⟩ := a2
    obtain ⟨hflat, _, hlast⟩ := a3
    have e2 : source (ps :: (sa ++ seg)) rest = d.param :: source (sa ++ seg) rest := by
      show ps.gap ++ ps.bytes ++ _ = _
      rw [hgap, hbytes]; rfl
    have e1 : source (pk :: ps :: (sa ++ seg)) rest = pk.gap ++ w ++ d.param :: source (sa ++ seg) rest := by
      show pk.gap ++ pk.bytes ++ source (ps :: (sa ++ seg)) rest = _
      rw [e2, hpk]
    have f1 : F d 0 0 (source (pk :: ps :: (sa ++ seg)) rest) = some (d.param :: source (sa ++ seg) rest) := by
      have h1 : F d 0 0 (pk.gap ++ pk.bytes ++ source (ps :: (sa ++ seg)) rest) = F d 0 0 (source (ps :: (sa ++ seg)) rest) := by
        refine F_light (c := .key false w w') hd trivial a1 ⟨hpk, hword⟩ ⟨hflat, ?_, hlast⟩
        assumption
      have h2 := F_stop (d := d) hd hk (c := .sign) (.inr rfl) (g := ps.gap) (w := ps.bytes) (rest := source (sa ++ seg) rest)
        b1 ⟨hbytes, hnone⟩
      show F d 0 0 (pk.gap ++ pk.bytes ++ source (ps :: (sa ++ seg)) rest) = _
      rw [h1]
      show F d 0 0 (ps.gap ++ ps.bytes ++ source (sa ++ seg) rest) = _
      rw [h2, hbytes]; rfl
    obtain ⟨n, rfl⟩ : ∃ n', n = n' + 1 := ⟨n - 1, by omega⟩
    rw [joined_cons] at hm
    simp only [List.length_append, List.length_cons, List.length_nil] at hm
    obtain ⟨x, hx, hx3⟩ := hlast rfl
    obtain ⟨g0, hg0⟩ : ∃ g0, pk.gap = g0 ++ [x] := by
      obtain ⟨ys, hys⟩ := List.getLast?_eq_some_iff.1 hx
      exact ⟨ys, hys⟩
    have hpb := param_bytes hd
    have hwb := word_bytes hword hflat
    -- the program up to the sign
    have hprg : prg = u ++ pk.gap ++ w ++ d.param :: source (sa ++ seg) rest := by rw [hp, e1]; simp
    have hlen : prg.length - (d.param :: source (sa ++ seg) rest).length + 1 = (u ++ pk.gap ++ w ++ [d.param]).length := by
      rw [hprg]; simp; omega
    have hrev : (prg.take (prg.length - (d.param :: source (sa ++ seg) rest).length + 1)).reverse =
        (d.param :: w.reverse) ++ x :: (u ++ g0).reverse := by
      rw [hlen, hprg, show u ++ pk.gap ++ w ++ d.param :: source (sa ++ seg) rest =
        (u ++ pk.gap ++ w ++ [d.param]) ++ source (sa ++ seg) rest by simp, List.take_left', hg0]
      · simp
      · rfl
    have hback : backward 0 (prg.take (prg.length - (d.param :: source (sa ++ seg) rest).length + 1)).reverse =
        some (w.length + 1) := by
      rw [hrev, backward_word (by
        intro c hc
        rcases List.mem_cons.1 hc with rfl | hc
        · exact hpb
        · exact hwb c (List.mem_reverse.1 hc)) hx3 _ 0 (by simp; omega)]
      simp
    have hdrop : (prg.drop (prg.length - (d.param :: source (sa ++ seg) rest).length + 1 - (w.length + 1))).take (w.length + 1)
        = w ++ [d.param] := by
      have : prg.length - (d.param :: source (sa ++ seg) rest).length + 1 - (w.length + 1) = (u ++ pk.gap).length := by
        rw [hlen]; simp; omega
      rw [this, hprg, show u ++ pk.gap ++ w ++ d.param :: source (sa ++ seg) rest =
        (u ++ pk.gap) ++ ((w ++ [d.param]) ++ source (sa ++ seg) rest) by simp, List.drop_left' rfl, List.take_left' (by simp)]
    conv => lhs; unfold gather
    rw [show forward d ⟨0, 0, false, false⟩ (source (pk :: ps :: (sa ++ seg)) rest) = _ from f1]
    dsimp only
    rw [hbytes] at hnone
    have hno1 : d.eol.isPrefixOf (d.param :: source (sa ++ seg) rest) = false := startsNone_mem hnone (by simp)
    have hno2 : d.chain.isPrefixOf (d.param :: source (sa ++ seg) rest) = false := startsNone_mem hnone (by simp)
    rw [if_neg (by rw [hno1, hno2]; simp [hpb.2.2.2.1]), if_pos (by simp), hback]
    dsimp only
    rw [if_neg (by unfold maxWord; omega), hdrop, List.drop_succ_cons, List.drop_zero, source_append]
    have hpass := light_node (d' := d') (W := W) hd hk a 1 (Nat.le_refl _) hg.1 0 0 (by intro h; cases h) sa _ k3 l1
    rw [gather_congr hpass, ih hg.2 l2 (u := u ++ pk.gap ++ w ++ [d.param] ++ source sa []) (by
        rw [hprg, source_append]
        have : ∀ (s : List Piece) (r : Text), source s r = source s [] ++ r := by
          intro s r
          induction s with
          | nil => rfl
          | cons p s ih => show _ ++ source s r = _ ++ source s [] ++ r; rw [ih]; simp
        rw [this sa]; simp) n (by simp at hn; omega) _ (by simp only [List.length_append, List.length_cons, List.length_nil]; omega) rfl]
    simp only [addNote, newNotes, joined_cons]
    rw [e2, source_append]
    simp [Nat.add_assoc, Nat.add_comm 1]

theorem source_nil (s : List Piece) (r : Text) : source s r = source s [] ++ r := by
  induction s with
  | nil => rfl
  | cons p s ih => show _ ++ source s r = _ ++ source s [] ++ r; rw [ih]; simp

theorem source_le (s : List Piece) (r : Text) : r.length ≤ (source s r).length := by
  rw [source_nil]; simp

/-- The places are inside the message. -/
theorem at_pos {d d' : Dict} {W : Say} (hd : GoodDict d) {rest : Text} {f : Bool} {ws ws' : List Text} {as : List Node}
    {seg : List Piece} {pos : List Nat} (hat : At d d' W rest f ws ws' as seg pos) (hl : Laid d d' W seg rest) :
    ∀ p ∈ pos, rest.length < p ∧ p < (source seg rest).length := by
  induction hat with
  | nil => intro p hp; cases hp
  | @cons f w w' ws ws' a as pk ps sa seg pos k1 k2 k3 hat ih =>
    obtain ⟨a1, a2, a3, _, b1, b2, b3, _, hl⟩ := hl
    obtain ⟨l1, l2⟩ := (laid_append sa seg rest).1 hl
    have e1 : (source (pk :: ps :: (sa ++ seg)) rest).length =
        pk.gap.length + pk.bytes.length + (source (ps :: (sa ++ seg)) rest).length := by
      show (pk.gap ++ pk.bytes ++ _).length = _
      simp; omega
    have e2 : (source (ps :: (sa ++ seg)) rest).length =
        ps.gap.length + ps.bytes.length + (source (sa ++ seg) rest).length := by
      show (ps.gap ++ ps.bytes ++ _).length = _
      simp; omega
    have n1 : 0 < pk.bytes.length := List.length_pos_iff.2 (written_ne hd a2)
    have n2 : 0 < ps.bytes.length := List.length_pos_iff.2 (written_ne hd b2)
    have n3 : (source seg rest).length ≤ (source (sa ++ seg) rest).length := by
      rw [source_append]; exact source_le _ _
    have n4 := source_le seg rest
    intro p hp
    rcases List.mem_cons.1 hp with rfl | hp
    · omega
    · have := ih l2 p hp
      omega

theorem at_len {d d' : Dict} {W : Say} {rest : Text} {f : Bool} {ws ws' : List Text} {as : List Node}
    {seg : List Piece} {pos : List Nat} (hat : At d d' W rest f ws ws' as seg pos) :
    ws.length = pos.length ∧ ws'.length = pos.length := by
  induction hat with
  | nil => exact ⟨rfl, rfl⟩
  | cons _ _ _ _ ih => simp [ih.1, ih.2]

/-! ## Attaching the texts -/

theorem attach_skip {b : Book} (hb : ∀ n ∈ b, n.mark = none) (n : Note) (r : Book) {k : Nat} (hn : n.mark = some k) (t : Text) :
    attach (b ++ n :: r) k t = .ok (b ++ { n with mark := none, text := t ++ n.text.drop t.length } :: r) := by
  induction b with
  | nil => show attach (n :: r) k t = _; unfold attach; rw [if_pos hn]; rfl
  | cons x b ih =>
    rw [List.cons_append]
    unfold attach
    rw [if_neg (by rw [hb x List.mem_cons_self]; simp), ih (fun n hn => hb n (List.mem_cons_of_mem _ hn))]
    rfl

theorem collect_part {pc : UInt8} {w r : Text} (hw : pc ∉ w ∧ 0 ∉ w) (h0 : pc ≠ 0) (k : Nat) (part : Text) (b : Book) :
    collect pc k part (w ++ pc :: r) b = (attach b k (part ++ w ++ [pc])).bind fun b => collect pc (k + 1) [] r b := by
  induction w generalizing part with
  | nil =>
    rw [List.nil_append]
    conv => lhs; unfold collect
    rw [if_neg h0, if_pos rfl]
    simp
  | cons c w ih =>
    simp only [List.mem_cons, not_or] at hw
    rw [List.cons_append]
    conv => lhs; unfold collect
    rw [if_neg (fun e => hw.2.1 e.symm), if_neg (fun e => hw.1.1 e.symm), ih ⟨hw.1.2, hw.2.2⟩]
    simp

theorem collect_all {pc : UInt8} (h0 : pc ≠ 0) {ws : List Text} (hw : ∀ w ∈ ws, pc ∉ w ∧ 0 ∉ w) {pos : List Nat}
    (hl : ws.length = pos.length) (b : Book) (hb : ∀ n ∈ b, n.mark = none) (k : Nat) :
    collect pc k [] (joined pc ws) (b ++ newNotes pos k) = .ok (b ++ filled pos (ws.map (· ++ [pc]))) := by
  induction ws generalizing pos b k with
  | nil =>
    cases pos with
    | nil => rfl
    | cons p pos => cases hl
  | cons w ws ih =>
    cases pos with
    | nil => cases hl
    | cons p pos =>
      rw [joined_cons, List.append_assoc, List.singleton_append, collect_part (hw w List.mem_cons_self) h0, newNotes, attach_skip hb _ _ rfl]
      show collect pc (k + 1) [] (joined pc ws) _ = _
      have e : b ++ (⟨some p, none, [] ++ w ++ [pc] ++ List.drop ([] ++ w ++ [pc]).length []⟩ : Note) ::
        newNotes pos (k + 1) = (b ++ [⟨some p, none, w ++ [pc]⟩]) ++ newNotes pos (k + 1) := by simp
      refine (congrArg (collect pc (k + 1) [] (joined pc ws)) e).trans ?_
      rw [ih (fun w hw' => hw w (List.mem_cons_of_mem _ hw')) (by simpa using hl) _ (by
        intro n hn
        rcases List.mem_append.1 hn with hn | hn
        · exact hb n hn
        · rw [List.mem_singleton.1 hn])]
      simp [filled]

/-! ## What the notebook knows -/

/-- The notebook knows, for the places up to `N`, exactly the texts `pend`. -/
def Good (b : Book) (N : Nat) (pend : Nat → Option Text) : Prop :=
  ∀ p ≤ N, (pend p = none → ∀ n ∈ b, n.place ≠ some p) ∧
    (∀ t, pend p = some t → ∃ n, searchNote b p = some n ∧ n.mark = none ∧ n.text = t)

theorem Good.mono {b : Book} {N N' : Nat} {pend : Nat → Option Text} (h : Good b N pend) (hn : N' ≤ N) : Good b N' pend :=
  fun p hp => h p (by omega)

theorem search_none {b : Book} {p : Nat} (h : ∀ n ∈ b, n.place ≠ some p) : searchNote b p = none := by
  unfold searchNote
  rw [List.find?_eq_none]
  intro n hn
  simpa using h n hn

theorem search_append {b c : Book} {p : Nat} : searchNote (b ++ c) p = (searchNote b p).or (searchNote c p) := by
  unfold searchNote
  rw [List.find?_append]

theorem search_clear (b : Book) (p : Nat) : searchNote (clearMarks b) p = (searchNote b p).map fun n => { n with mark := none } := by
  unfold searchNote clearMarks
  rw [List.find?_map]
  rfl

theorem Good.clear {b : Book} {N : Nat} {pend : Nat → Option Text} (h : Good b N pend) : Good (clearMarks b) N pend := by
  intro p hp
  obtain ⟨h1, h2⟩ := h p hp
  refine ⟨fun hn n hm => ?_, fun t ht => ?_⟩
  · obtain ⟨m, hm', rfl⟩ := List.mem_map.1 hm
    exact h1 hn m hm'
  · obtain ⟨n, a, b, c⟩ := h2 t ht
    exact ⟨{ n with mark := none }, by rw [search_clear, a]; rfl, rfl, c⟩

theorem search_remove {b : Book} {p : Nat} {n : Note} (h : searchNote b p = some n) (hm : n.mark = none) :
    searchNote (removeMarked b) p = some n := by
  induction b with
  | nil => cases h
  | cons x b ih =>
    unfold searchNote removeMarked at *
    rw [List.map_cons]
    rw [List.find?_cons] at h ⊢
    by_cases hx : x.place = some p
    · simp only [hx, decide_true] at h
      injection h with h
      subst h
      rw [hm]
      simp [hx]
    · simp only [hx, decide_false] at h
      rw [show decide ((if x.mark.isSome = true then (⟨none, none, x.text⟩ : Note) else x).place = some p) = false by
        split <;> simp [hx]]
      exact ih h

theorem Good.remove {b : Book} {N : Nat} {pend : Nat → Option Text} (h : Good b N pend) : Good (removeMarked b) N pend := by
  intro p hp
  obtain ⟨h1, h2⟩ := h p hp
  refine ⟨fun hn n hm => ?_, fun t ht => ?_⟩
  · obtain ⟨m, hm', rfl⟩ := List.mem_map.1 hm
    split
    · simp
    · exact h1 hn m hm'
  · obtain ⟨n, a, b, c⟩ := h2 t ht
    exact ⟨n, search_remove a b, b, c⟩

theorem clear_marks (b : Book) : ∀ n ∈ clearMarks b, n.mark = none := by
  intro n hn
  obtain ⟨m, _, rfl⟩ := List.mem_map.1 hn
  rfl

theorem newNotes_place {pos : List Nat} {k : Nat} : ∀ n ∈ newNotes pos k, ∃ p ∈ pos, n.place = some p := by
  induction pos generalizing k with
  | nil => intro n hn; cases hn
  | cons p pos ih =>
    intro n hn
    rcases List.mem_cons.1 hn with rfl | hn
    · exact ⟨p, List.mem_cons_self, rfl⟩
    · obtain ⟨q, hq, e⟩ := ih n hn
      exact ⟨q, List.mem_cons_of_mem _ hq, e⟩

/-- Notes for places that are known already change nothing. -/
theorem Good.again {b : Book} {N : Nat} {pend : Nat → Option Text} (h : Good b N pend) {pos : List Nat} {k : Nat}
    (hp : ∀ p ∈ pos, pend p ≠ none) : Good (b ++ newNotes pos k) N pend := by
  intro p hN
  obtain ⟨h1, h2⟩ := h p hN
  refine ⟨fun hn n hm => ?_, fun t ht => ?_⟩
  · rcases List.mem_append.1 hm with hm | hm
    · exact h1 hn n hm
    · obtain ⟨q, hq, e⟩ := newNotes_place n hm
      rw [e]
      intro e2
      injection e2 with e2
      subst e2
      exact hp q hq hn
  · obtain ⟨n, a, b, c⟩ := h2 t ht
    exact ⟨n, by rw [search_append, a]; rfl, b, c⟩

/-- The texts for some places. -/
def look : List Nat → List Text → Nat → Option Text
  | p :: ps, t :: ts, q => if q = p then some t else look ps ts q
  | _, _, _ => none

theorem look_none {pos : List Nat} {ts : List Text} {q : Nat} (h : q ∉ pos) : look pos ts q = none := by
  induction pos generalizing ts with
  | nil => rfl
  | cons p pos ih =>
    cases ts with
    | nil => rfl
    | cons t ts =>
      simp only [List.mem_cons, not_or] at h
      unfold look
      rw [if_neg h.1, ih h.2]

theorem look_some {pos : List Nat} {ts : List Text} {q : Nat} (hl : pos.length = ts.length) (h : q ∈ pos) :
    ∃ t, look pos ts q = some t := by
  induction pos generalizing ts with
  | nil => cases h
  | cons p pos ih =>
    cases ts with
    | nil => cases hl
    | cons t ts =>
      unfold look
      by_cases e : q = p
      · exact ⟨t, if_pos e⟩
      · rw [if_neg e]
        rcases List.mem_cons.1 h with h | h
        · exact absurd h e
        · exact ih (by simpa using hl) h

theorem search_filled {pos : List Nat} {ts : List Text} {q : Nat} {t : Text} (h : look pos ts q = some t) :
    ∃ n, searchNote (filled pos ts) q = some n ∧ n.mark = none ∧ n.text = t := by
  induction pos generalizing ts with
  | nil => cases h
  | cons p pos ih =>
    cases ts with
    | nil => cases h
    | cons t' ts =>
      unfold look at h
      unfold filled searchNote
      rw [List.find?_cons]
      by_cases e : q = p
      · rw [if_pos e] at h
        injection h with h
        subst h
        exact ⟨⟨some p, none, t'⟩, by simp [e], rfl, rfl⟩
      · rw [if_neg e] at h
        rw [show decide ((⟨some p, none, t'⟩ : Note).place = some q) = false by simpa using fun h => e h.symm]
        exact ih h

theorem filled_place {pos : List Nat} {ts : List Text} : ∀ n ∈ filled pos ts, ∃ p ∈ pos, n.place = some p := by
  induction pos generalizing ts with
  | nil => intro n hn; cases ts <;> cases hn
  | cons p pos ih =>
    cases ts with
    | nil => intro n hn; cases hn
    | cons t ts =>
      intro n hn
      rcases List.mem_cons.1 hn with rfl | hn
      · exact ⟨p, List.mem_cons_self, rfl⟩
      · obtain ⟨q, hq, e⟩ := ih n hn
        exact ⟨q, List.mem_cons_of_mem _ hq, e⟩

/-- What the notebook knows after the texts of a message have been attached. -/
def pendWith (pos : List Nat) (ts : List Text) (pend : Nat → Option Text) : Nat → Option Text :=
  fun p => (look pos ts p).or (pend p)

theorem Good.fill {b : Book} {N : Nat} {pend : Nat → Option Text} (h : Good b N pend) {pos : List Nat} {ts : List Text}
    (hl : pos.length = ts.length) (hp : ∀ p ∈ pos, pend p = none) : Good (b ++ filled pos ts) N (pendWith pos ts pend) := by
  intro p hN
  obtain ⟨h1, h2⟩ := h p hN
  by_cases hm : p ∈ pos
  · obtain ⟨t, ht⟩ := look_some hl hm
    unfold pendWith
    rw [ht]
    refine ⟨fun h => by simp at h, fun t' ht' => ?_⟩
    simp only [Option.some_or, Option.some.injEq] at ht'
    subst ht'
    rw [search_append, search_none (h1 (hp p hm))]
    exact search_filled ht
  · unfold pendWith
    rw [look_none hm, Option.none_or]
    refine ⟨fun hn n hb => ?_, fun t ht => ?_⟩
    · rcases List.mem_append.1 hb with hb | hb
      · exact h1 hn n hb
      · obtain ⟨q, hq, e⟩ := filled_place n hb
        rw [e]
        intro e2
        injection e2 with e2
        subst e2
        exact hm hq
    · obtain ⟨n, a, b, c⟩ := h2 t ht
      exact ⟨n, by rw [search_append, a]; rfl, b, c⟩

end Verif.Lemmas.TransProg
