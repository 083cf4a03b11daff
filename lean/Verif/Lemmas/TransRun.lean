import Verif.Lemmas.TransNote
import Verif.Props.Translator

/-!
# Lemmas about translating programs: the run of the translator
-/

namespace Verif.Lemmas.TransProg
open Verif.Model Verif.Model.TransProg
open Verif.Model.Trans (maxWord Loaded translate)
open Verif.Model.Lexer (isDigit digitAt digitAt_starts pfx_false pfx_iff isDigit_eq startsNone_mem isSpace_eq apart_pfx
  pfx_self skip scan skip_over written_scan kind value whole Solid readstr readLoop rstep finish RS bflmt)
open Verif.Spec (Dict Node NumPiece numText Separators)
open Verif.Spec.Lexer Verif.Spec.Parser
open Verif.Spec.Retell

theorem bind_ok {α β : Type} (a : α) (f : α → Out β) : (Out.ok a).bind f = f a := rfl

/-! ## Texts -/

theorem readLoop_flat {d : Dict} {t rest : Text} (h1 : ∀ c ∈ t, c ≠ 92)
    (h2 : ∀ i < t.length, startsNone [d.qo, d.qc] (t.drop i ++ d.qc ++ rest) = true) (hq : d.qc ≠ []) (st : RS)
    (hs : st.nest = 0 ∧ st.esc = false ∧ st.acc.length + 10 < st.mem) :
    readLoop d true 0 st (t ++ d.qc ++ rest) = .ok (st.acc ++ t, rest) := by
  obtain ⟨hn, he, hm⟩ := hs
  induction t generalizing st with
  | nil =>
    rw [List.nil_append, List.append_nil]
    cases hqc : d.qc with
    | nil => exact absurd hqc hq
    | cons z k =>
      rw [List.cons_append]
      unfold readLoop
      rw [if_neg]
      · unfold finish
        rw [if_pos (by rw [hqc]; simp), hqc]
        simp
      · rintro ⟨_, h | h | h⟩
        · exact h (by rw [hqc, pfx_iff]; exact ⟨rest, rfl⟩)
        · omega
        · rw [he] at h; cases h
  | cons c t ih =>
    have h0 := h2 0 (by simp)
    rw [List.drop_zero, List.cons_append, List.cons_append] at h0
    have n1 : d.qo.isPrefixOf (c :: (t ++ d.qc ++ rest)) = false := startsNone_mem h0 (by simp)
    have n2 : d.qc.isPrefixOf (c :: (t ++ d.qc ++ rest)) = false := startsNone_mem h0 (by simp)
    have hc := h1 c List.mem_cons_self
    rw [List.cons_append, List.cons_append]
    unfold readLoop
    rw [if_pos ⟨by simp; omega, .inl (by rw [n2]; simp)⟩]
    have hstep : rstep d true st c (t ++ d.qc ++ rest) = .ok (RS.next { st with acc := st.acc ++ [c] }, 0) := by
      unfold rstep
      rw [if_neg (by simp [hc]), if_neg (by simp [he]), if_neg (by simp), if_neg (by simp), if_neg (by rw [n2]; simp),
        if_neg (by rw [n1]; simp)]
      unfold RS.write
      rw [if_pos (by simp; omega)]
      rfl
    rw [hstep]
    dsimp only
    rw [ih (fun c hc => h1 c (List.mem_cons_of_mem _ hc))
      (fun i hi => by simpa using h2 (i + 1) (by simpa using hi)) (RS.next { st with acc := st.acc ++ [c] }) hn rfl (by
        unfold RS.next
        dsimp only
        split <;> simp at * <;> omega)]
    simp [RS.next]

theorem readstr_flat {d : Dict} {t rest : Text} (h1 : ∀ c ∈ t, c ≠ 92)
    (h2 : ∀ i < t.length, startsNone [d.qo, d.qc] (t.drop i ++ d.qc ++ rest) = true) (hq : d.qc ≠ []) :
    readstr d true (t ++ d.qc ++ rest) = .ok (t, rest) := by
  unfold readstr
  rw [readLoop_flat h1 h2 hq ⟨[], 100, 0, false⟩ ⟨rfl, rfl, by simp⟩]
  rfl

/-! ## Numbers -/

/-- The pieces of groups of digits. -/
def groupPieces : List Text → List NumPiece
  | [] => []
  | [g] => g.map .byte
  | g :: gs => g.map .byte ++ .tho :: groupPieces gs

theorem numText_append (a x : Text) (ps qs : List NumPiece) : numText a x (ps ++ qs) = numText a x ps ++ numText a x qs := by
  induction ps with
  | nil => rfl
  | cons p ps ih => cases p <;> simp [numText, ih]

theorem numText_bytes (a x t : Text) : numText a x (t.map .byte) = t := by
  induction t with
  | nil => rfl
  | cons c t ih => simp [numText, ih]

theorem numText_groups (a x : Text) (gs : List Text) : numText a x (groupPieces gs) = x.intercalate gs := by
  induction gs with
  | nil => simp [groupPieces, numText]
  | cons g gs ih =>
    cases gs with
    | nil => rw [groupPieces, numText_bytes, List.intercalate_singleton]
    | cons g2 gs =>
      rw [groupPieces, numText_append, numText_bytes, List.intercalate_cons_cons]
      · simp [numText, ih]
      · simp

theorem group_bytes {gs : List Text} {c : UInt8} (h : NumPiece.byte c ∈ groupPieces gs) : ∃ g ∈ gs, c ∈ g := by
  induction gs with
  | nil => cases h
  | cons g gs ih =>
    cases gs with
    | nil =>
      rw [groupPieces] at h
      obtain ⟨x, hx, e⟩ := List.mem_map.1 h
      injection e with e
      subst e
      exact ⟨g, List.mem_cons_self, hx⟩
    | cons g2 gs =>
      rw [groupPieces] at h
      · rcases List.mem_append.1 h with h | h
        · obtain ⟨x, hx, e⟩ := List.mem_map.1 h
          injection e with e
          subst e
          exact ⟨g, List.mem_cons_self, hx⟩
        · rcases List.mem_cons.1 h with h | h
          · cases h
          · obtain ⟨g', hg, hc⟩ := ih h
            exact ⟨g', List.mem_cons_of_mem _ hg, hc⟩
      · simp

/-- The pieces of the digits after the separator. -/
def fracPieces (f : Text) : List NumPiece := if f = [] then [] else .dec :: f.map .byte

theorem numText_frac (a x f : Text) : numText a x (fracPieces f) = fraction a f := by
  unfold fracPieces fraction
  split
  · rfl
  · simp [numText, numText_bytes]

theorem head_take {t : Text} {c : UInt8} (h : t.head? = some c) : c ∈ t.take 1 := by
  cases t with
  | nil => cases h
  | cons x t => simp at h ⊢; exact h.symm

theorem number_gap {d : Dict} (hs : GoodSeps d) (D X : Verif.Model.Trans.Entry) (hD : D.word = d.dec) (hX : X.word = d.tho)
    {g sign f : Text} {gs : List Text} (hg : ∀ c ∈ g, blank c = true) (h1 : sign = [] ∨ sign = [45])
    (h2 : ∀ x ∈ gs, ∀ c ∈ x, digit c = true) (h3 : ∀ c ∈ f, digit c = true) :
    Verif.Model.Trans.number D X 0 (g ++ (sign ++ d.tho.intercalate gs ++ fraction d.dec f)) =
      g ++ (sign ++ X.tr.intercalate gs ++ fraction D.tr f) := by
  obtain ⟨s1, s2, s3, s4⟩ := hs
  have key := Verif.Props.Trans.C55 D X (g.map .byte ++ (sign.map .byte ++ groupPieces gs ++ fracPieces f)) (by
    rw [hD, hX]
    refine ⟨s1, s2, ?_, ?_⟩
    · unfold apart at s3
      simp only [Bool.and_eq_true, Bool.not_eq_true', pfx_false] at s3
      exact s3
    · intro c hc
      have hcc : blank c = true ∨ digit c = true ∨ c = 45 := by
        rcases List.mem_append.1 hc with hc | hc
        · obtain ⟨x, hx, e⟩ := List.mem_map.1 hc
          injection e with e
          subst e
          exact .inl (hg x hx)
        · rcases List.mem_append.1 hc with hc | hc
          · rcases List.mem_append.1 hc with hc | hc
            · obtain ⟨x, hx, e⟩ := List.mem_map.1 hc
              injection e with e
              subst e
              rcases h1 with h | h
              · rw [h] at hx; cases hx
              · rw [h] at hx; exact .inr (.inr (List.mem_singleton.1 hx))
            · obtain ⟨x, hx, e⟩ := group_bytes hc
              exact .inr (.inl (h2 x hx c e))
          · unfold fracPieces at hc
            split at hc
            · cases hc
            · rcases List.mem_cons.1 hc with hc | hc
              · cases hc
              · obtain ⟨x, hx, e⟩ := List.mem_map.1 hc
                injection e with e
                subst e
                exact .inr (.inl (h3 x hx))
      have : ∀ K : Text, K = d.dec ∨ K = d.tho → K.head? ≠ some c := by
        intro K hK e
        have hm := head_take e
        have h4 := s4 c (by
          rw [List.mem_append]
          rcases hK with h | h
          · rw [h] at hm; exact .inl hm
          · rw [h] at hm; exact .inr hm)
        rcases hcc with h | h | h
        · rw [h4.1] at h; cases h
        · rw [h4.2.1] at h; cases h
        · exact h4.2.2 h
      exact ⟨this _ (.inl rfl), this _ (.inr rfl)⟩)
  simp only [numText_append, numText_bytes, numText_groups, numText_frac] at key
  rw [hD, hX] at key
  exact key

/-! ## What is known of the dictionary -/

/-- The dictionary says what the translation says. -/
structure Knows (d d' : Dict) (L : Loaded) (W : Say) (N : List (List Text)) : Prop where
  pc : L.pc = d'.param
  nul : d'.param ≠ 0
  word : ∀ w, d.param ∉ w → ∃ r, translate d.param L.pc L.dict 116 w 255 true = .ok r ∧
    ((r.found = true ∧ r.out = W.word w) ∨ (r.found = false ∧ W.word w = w))
  len : ∀ ps ∈ N, (W.msg ps).length = ps.length
  short : ∀ ps ∈ N, (joined d.param ps).length < 180
  clean : ∀ ps ∈ N, ∀ w ∈ W.msg ps, d'.param ∉ w ∧ 0 ∉ w
  msg : ∀ ps ∈ N, ∀ w' ws', W.msg ps = w' :: ws' →
    translate d.param L.pc L.dict 116 (joined d.param ps) 180 true = .ok ⟨w' ++ [d'.param], joined d'.param ws', true⟩
  text : ∀ t : Text, t.length ≤ 100 → ∃ r, translate d.param L.pc L.dict 115 t (t.length + 1) false = .ok r ∧
    (if r.found then r.out else t) = W.text t
  long : ∀ t : Text, 100 < t.length → W.text t = t
  sym : ∀ K ∈ [(d.eol, d'.eol), (d.chain, d'.chain), (d.assign, d'.assign), (d.ret, d'.ret), (d.qo, d'.qo), (d.qc, d'.qc),
    ([d.param], [d'.param])], symbol d L K.1 = .ok K.2
  dec : L.dec.word = d.dec ∧ L.dec.tr = d'.dec
  tho : L.tho.word = d.tho ∧ L.tho.tr = d'.tho
  seps : GoodSeps d

/-! ## Steps of the translator -/

/-- From the place `c` the translator gets to `c'`, printing `out`. -/
def Steps (d : Dict) (L : Loaded) (prg c : Text) (b : Book) (out c' : Text) (b' : Book) : Prop :=
  ∃ k, c'.length + k ≤ c.length ∧
    ∀ n, loop d L prg (n + k) c c b = (loop d L prg n c' c' b').bind fun o => .ok (out ++ o)

theorem Steps.refl {d : Dict} {L : Loaded} {prg c : Text} {b : Book} : Steps d L prg c b [] c b := by
  refine ⟨0, by omega, fun n => ?_⟩
  cases loop d L prg n c c b <;> rfl

theorem Steps.trans {d : Dict} {L : Loaded} {prg c c1 c2 o1 o2 : Text} {b b1 b2 : Book} (h1 : Steps d L prg c b o1 c1 b1)
    (h2 : Steps d L prg c1 b1 o2 c2 b2) : Steps d L prg c b (o1 ++ o2) c2 b2 := by
  obtain ⟨k1, l1, e1⟩ := h1
  obtain ⟨k2, l2, e2⟩ := h2
  refine ⟨k2 + k1, by omega, fun n => ?_⟩
  rw [← Nat.add_assoc, e1, e2]
  cases loop d L prg n c2 c2 b2 with
  | ok o => show Out.ok _ = Out.ok _; rw [List.append_assoc]
  | ub => rfl
  | exit => rfl

theorem gap_of {g after : Text} (h : ∀ c ∈ g, blank c = true) : Gap g after := by
  induction g with
  | nil => exact .none _
  | cons c g ih => exact .blank (h c List.mem_cons_self) (ih fun c hc => h c (List.mem_cons_of_mem _ hc))

theorem scan_piece {d : Dict} (hd : GoodDict d) {l : Lexeme} {g b rest : Text} (hg : ∀ c ∈ g, blank c = true)
    (hw : Written d l b rest) (hl : whole l = true) : scan d (skip false (g ++ b ++ rest)) = .ok (kind l, value l, rest) := by
  obtain ⟨h1, h2⟩ := written_scan hd hw
  rw [List.append_assoc, skip_over (gap_of hg) h1]
  exact h2 hl

theorem upTo_left (a rest : Text) : upTo (a ++ rest) rest.length = .ok a := by
  unfold upTo
  rw [if_neg (by simp)]
  simp

theorem upTo_two (a b rest : Text) (n : Nat) (hn : n = b.length) : upTo (a ++ b ++ rest) (rest.length + n) = .ok a := by
  have : rest.length + n = (b ++ rest).length := by simp [hn]; omega
  rw [this, List.append_assoc, upTo_left]

section
variable {d d' : Dict} {L : Loaded} {W : Say} {N : List (List Text)} {prg : Text}

/-- One round that reads one piece. -/
theorem Steps.one {c out c' : Text} {b b' : Book} (hl : c'.length < c.length)
    (h : ∀ n, loop d L prg (n + 1) c c b = (loop d L prg n c' c' b').bind fun o => .ok (out ++ o)) :
    Steps d L prg c b out c' b' := ⟨1, by omega, h⟩

theorem piece_lt (hd : GoodDict d) {l : Lexeme} {g b rest : Text} (hw : Written d l b rest) :
    rest.length < (g ++ b ++ rest).length := by
  have := List.length_pos_iff.2 (written_ne hd hw)
  simp; omega

/-- Symbols, parentheses, blocks, numbers, texts: pieces that do not touch the notebook. -/
def Plain : Cell → Prop
  | .num .. | .lit _ | .popen | .pclose | .bopen | .bclose | .eol | .chain | .assign | .ret => True
  | _ => False

theorem step_plain (hd : GoodDict d) (K : Knows d d' L W N) {c : Cell} (hc : Plain c) {p : Piece} (hp : p.cell = c)
    {rest : Text} (hg : ∀ x ∈ p.gap, blank x = true) (hw : Written d c.lexeme p.bytes rest)
    (hr : Regular d c p.gap p.bytes rest) (hn : New d' W d c p.bytes p.new) (b : Book) :
    Steps d L prg (p.gap ++ p.bytes ++ rest) b (p.gap' ++ p.new) rest b := by
  have sym := K.sym
  simp only [List.mem_cons, List.not_mem_nil, or_false, forall_eq_or_imp, forall_eq] at sym
  obtain ⟨y1, y2, y3, y4, y5, y6, y7⟩ := sym
  refine Steps.one (piece_lt hd hw) fun n => ?_
  have hs := fun h => scan_piece (l := c.lexeme) hd hg hw h
  rw [loop]
  cases c with
  | num a v =>
    rw [hs rfl, bind_ok]
    obtain ⟨sign, gs, f, h1, h2, h3, h4, h5⟩ := hn
    show (loop d L prg n rest rest b).bind _ = _
    have e : (p.gap ++ p.bytes ++ rest).take ((p.gap ++ p.bytes ++ rest).length - rest.length) = p.gap ++ p.bytes := by
      rw [List.take_left']; simp; omega
    rw [e, h4, number_gap K.seps L.dec L.tho K.dec.1 K.tho.1 hg h1 h2 h3, K.dec.2, K.tho.2, ← h5]
    rw [show p.gap' = p.gap by unfold Piece.gap'; rw [hp]]
  | lit t =>
    obtain ⟨hb, _⟩ := hw
    obtain ⟨_, _, r3, r4, _⟩ := hr
    have e1 : p.gap ++ p.bytes ++ rest = p.gap ++ d.qo ++ (t ++ d.qc ++ rest) := by rw [hb]; simp
    have e2 : scan d (skip false (p.gap ++ d.qo ++ (t ++ d.qc ++ rest))) = .ok (.quote, [], t ++ d.qc ++ rest) := by
      have hsol : Solid (d.qo ++ (t ++ d.qc ++ rest)) := by
        have := (written_scan hd (l := .lit t) (b := p.bytes) (rest := rest) ⟨hb, by assumption⟩).1
        rw [hb] at this
        simpa using this
      have := Verif.Model.Lexer.scan_quote d hd.1.2.2.2.2.1 hd.2.1 (t ++ d.qc ++ rest)
      rw [Verif.Model.Lexer.skip_solid hsol] at this
      rw [List.append_assoc, skip_over (gap_of hg) hsol]
      exact this
    rw [e1, e2, bind_ok]
    have e3 : string d L (p.gap ++ d.qo ++ (t ++ d.qc ++ rest)) (t ++ d.qc ++ rest) =
        .ok (p.gap ++ d'.qo ++ W.text t ++ d'.qc, rest) := by
      unfold string
      rw [upTo_two _ _ _ _ rfl, bind_ok, readstr_flat r3 r4 hd.1.2.2.2.2.2, bind_ok]
      dsimp only
      rw [y5, bind_ok]
      by_cases hlen : t.length > 100
      · rw [if_pos hlen, bind_ok, y6, bind_ok, K.long t hlen]
      · obtain ⟨r, h1, h2⟩ := K.text t (by omega)
        rw [if_neg hlen, h1, bind_ok, bind_ok, y6, bind_ok, h2]
    dsimp only
    rw [e3, bind_ok]
    rw [show p.gap' = p.gap by unfold Piece.gap'; rw [hp], show p.new = _ from hn]
    simp
  | popen =>
    rw [hs rfl, bind_ok]
    show (upTo _ _).bind _ = _
    rw [upTo_left, bind_ok, show p.gap' = p.gap by unfold Piece.gap'; rw [hp], show p.new = _ from hn, show p.bytes = _ from hw]
  | pclose =>
    rw [hs rfl, bind_ok]
    show (upTo _ _).bind _ = _
    rw [upTo_left, bind_ok, show p.gap' = p.gap by unfold Piece.gap'; rw [hp], show p.new = _ from hn, show p.bytes = _ from hw]
  | bopen =>
    rw [hs rfl, bind_ok]
    show (upTo _ _).bind _ = _
    rw [upTo_left, bind_ok, show p.gap' = p.gap by unfold Piece.gap'; rw [hp], show p.new = _ from hn, show p.bytes = _ from hw]
  | bclose =>
    rw [hs rfl, bind_ok]
    show (upTo _ _).bind _ = _
    rw [upTo_left, bind_ok, show p.gap' = p.gap by unfold Piece.gap'; rw [hp], show p.new = _ from hn, show p.bytes = _ from hw]
  | eol =>
    rw [hs rfl, bind_ok]
    show (symbol d L d.eol).bind _ = _
    rw [y1, bind_ok, show p.gap' = [] by unfold Piece.gap'; rw [hp], show p.new = _ from hn]
    rfl
  | chain =>
    rw [hs rfl, bind_ok]
    show (symbol d L d.chain).bind _ = _
    rw [y2, bind_ok, show p.gap' = [] by unfold Piece.gap'; rw [hp], show p.new = _ from hn]
    rfl
  | assign =>
    rw [hs rfl, bind_ok]
    show (symbol d L d.assign).bind _ = _
    rw [y3, bind_ok, show p.gap' = [32] by unfold Piece.gap'; rw [hp], show p.new = _ from hn]
    rfl
  | ret =>
    rw [hs rfl, bind_ok]
    show (symbol d L d.ret).bind _ = _
    rw [y4, bind_ok, show p.gap' = [32] by unfold Piece.gap'; rw [hp], show p.new = _ from hn]
    rfl
  | _ => exact hc.elim

/-- A parameter sign that does not follow another one. -/
theorem step_param (hd : GoodDict d) (K : Knows d d' L W N) {p : Piece} (hp : p.cell = .param)
    {rest u : Text} (hprg : prg = u ++ (p.gap ++ p.bytes ++ rest)) {x : UInt8} (hu : u.getLast? = some x) (hx : x ≠ d.param)
    (hg : ∀ x ∈ p.gap, blank x = true) (hw : Written d .colon p.bytes rest) (hn : p.new = [d'.param]) (b : Book) :
    Steps d L prg (p.gap ++ p.bytes ++ rest) b (p.gap' ++ p.new) rest b := by
  have sym := K.sym
  simp only [List.mem_cons, List.not_mem_nil, or_false, forall_eq_or_imp, forall_eq] at sym
  obtain ⟨y1, y2, y3, y4, y5, y6, y7⟩ := sym
  refine Steps.one (piece_lt hd hw) fun n => ?_
  rw [loop, scan_piece (l := .colon) hd hg hw rfl, bind_ok]
  have hul : 0 < u.length := by
    cases u with
    | nil => cases hu
    | cons _ _ => simp
  have e : prg.length - (p.gap ++ p.bytes ++ rest).length - 1 = u.length - 1 := by rw [hprg]; simp
  show (if prg.length ≤ (p.gap ++ p.bytes ++ rest).length then Out.ub else _) = _
  rw [if_neg (by rw [hprg]; simpa using hul), e, hprg, List.getElem?_append_left (by omega), ← List.getLast?_eq_getElem?, hu,
    if_pos (by simpa using hx), y7, bind_ok, show p.gap' = [32] by unfold Piece.gap'; rw [hp], hn]
  rfl

/-- A word that is no part of a message with parameters. -/
theorem step_word (hd : GoodDict d) (K : Knows d d' L W N) {p : Piece} {w : Text} (hp : p.cell = .word w)
    {rest : Text} (hg : ∀ x ∈ p.gap, blank x = true) (hw : Written d (.word w) p.bytes rest)
    (hr : rest.head? ≠ some d.param) (hn : p.new = W.word w) (b : Book) (hb : ∀ n ∈ b, n.place ≠ some rest.length) :
    ∃ b', (b' = b ∨ b' = removeMarked b) ∧ Steps d L prg (p.gap ++ p.bytes ++ rest) b (p.gap' ++ p.new) rest b' := by
  obtain ⟨r, h1, h2⟩ := K.word w (by
    intro h
    have := (hw.2.2.2.2.1 d.param h).1
    simp at this)
  have hscan := scan_piece (l := .word w) hd hg hw rfl
  have hlt := piece_lt (g := p.gap) hd hw
  obtain ⟨hb1, hword⟩ := hw
  have href : ∃ b', (b' = b ∨ b' = removeMarked b) ∧
      ref d L prg (p.gap ++ p.bytes ++ rest) rest w b = .ok (p.gap ++ W.word w, false, b') := by
    unfold ref
    rw [upTo_two _ _ _ _ (by rw [hb1]), bind_ok]
    dsimp only
    rw [if_neg hr]
    have hraw : ((p.gap ++ p.bytes ++ rest).drop p.gap.length).take w.length = w := by
      rw [List.append_assoc, List.drop_left' rfl, hb1, List.take_left' rfl]
    rw [hraw]
    unfold say
    rw [search_none hb]
    dsimp only
    rw [show bflmt = 255 from rfl, h1, bind_ok]
    rcases h2 with ⟨f1, f2⟩ | ⟨f1, f2⟩
    · refine ⟨b, .inl rfl, ?_⟩
      rw [if_pos f1, if_neg (by omega), bind_ok, f2]
    · refine ⟨removeMarked b, .inr rfl, ?_⟩
      rw [if_neg (by rw [f1]; simp), bind_ok, f2]
  obtain ⟨b', hb', href⟩ := href
  refine ⟨b', hb', Steps.one hlt fun n => ?_⟩
  rw [loop, hscan, bind_ok]
  show (ref d L prg _ rest w b).bind _ = _
  rw [href, bind_ok]
  dsimp only
  rw [if_neg (by simp), show p.gap' = p.gap by unfold Piece.gap'; rw [hp], hn]

/-! ## Parts of messages -/

/-- The parameter sign after a part of a message is passed over. -/
theorem loop_sign (hd : GoodDict d) {rest u : Text} (hprg : prg = u ++ d.param :: rest)
    (hw : Written d .colon [d.param] rest) (n : Nat) (b : Book) :
    loop d L prg (n + 1) rest (d.param :: rest) b = (loop d L prg n rest rest b).bind fun o => .ok ([] ++ o) := by
  have hs := scan_piece (l := .colon) (g := []) (b := [d.param]) (rest := rest) hd (by simp) hw rfl
  rw [List.nil_append, List.singleton_append] at hs
  rw [loop, hs, bind_ok]
  show (if prg.length ≤ rest.length then Out.ub else _) = _
  have e : prg.length - rest.length - 1 = u.length := by rw [hprg]; simp; omega
  rw [if_neg (by rw [hprg]; simp; omega), e, hprg, List.getElem?_append_right (by omega), Nat.sub_self,
    if_neg (by simp)]

/-- A part of a message with its parameter sign: what `say` makes of it is printed. -/
theorem step_key (hd : GoodDict d) {f : Bool} {w w' : Text} {pk ps : Piece} (k1 : pk.cell = .key f w w') (k2 : ps.cell = .sign)
    {rest u : Text} (hprg : prg = u ++ (pk.gap ++ pk.bytes ++ (ps.gap ++ ps.bytes ++ rest)))
    (hg : ∀ x ∈ pk.gap, blank x = true) (hw : Written d (.word w) pk.bytes (ps.gap ++ ps.bytes ++ rest))
    (hgap : ps.gap = []) (hw2 : Written d .colon ps.bytes rest) (n1 : pk.new = w') (n2 : ps.new = [d'.param])
    {b b' : Book} {m : Msg} (hlen : w.length + 1 ≤ 180)
    (hgat : gather d prg (rest.length + 1) rest ⟨clearMarks b, 0, w ++ [d.param]⟩ = .ok m)
    (hsay : say d L w (rest.length + 1) true m.name maxWord m.count m.book = .ok (w' ++ [d'.param], true, b')) :
    Steps d L prg (pk.gap ++ pk.bytes ++ (ps.gap ++ ps.bytes ++ rest)) b (pk.gap' ++ pk.new ++ (ps.gap' ++ ps.new)) rest b' := by
  have hscan := scan_piece (l := .word w) hd hg hw rfl
  have hlt := piece_lt (g := pk.gap) hd hw
  have hbs : ps.bytes = [d.param] := hw2.1
  have e2 : ps.gap ++ ps.bytes ++ rest = d.param :: rest := by rw [hgap, hbs]; rfl
  rw [e2] at hprg hw hscan hlt ⊢
  rw [hbs] at hw2
  obtain ⟨hb1, hword⟩ := hw
  rw [hb1] at hprg hscan hlt ⊢
  have href : ref d L prg (pk.gap ++ w ++ d.param :: rest) (d.param :: rest) w b =
      .ok (pk.gap ++ (w' ++ [d'.param]), true, b') := by
    unfold ref
    rw [upTo_two _ _ _ _ rfl, bind_ok]
    dsimp only
    rw [if_pos (by simp), if_neg (by unfold maxWord; omega)]
    have hraw : ((pk.gap ++ w ++ d.param :: rest).drop pk.gap.length).take w.length = w := by
      rw [List.append_assoc, List.drop_left' rfl, List.take_left' rfl]
    rw [hraw, List.drop_succ_cons, List.drop_zero, List.length_cons, hgat, bind_ok, hsay, bind_ok]
  refine ⟨2, by simp at hlt ⊢; omega, fun n => ?_⟩
  rw [show n + 2 = (n + 1) + 1 from rfl, loop, hscan, bind_ok]
  show (ref d L prg _ (d.param :: rest) w b).bind _ = _
  rw [href, bind_ok]
  dsimp only
  rw [if_pos rfl, List.drop_succ_cons, List.drop_zero,
    loop_sign (u := u ++ pk.gap ++ w) hd (by rw [hprg]; simp) hw2]
  rw [show pk.gap' = pk.gap by unfold Piece.gap'; rw [k1], show ps.gap' = [] by unfold Piece.gap'; rw [k2], n1, n2]
  cases loop d L prg n rest rest b' with
  | ok o => show Out.ok _ = Out.ok _; simp
  | ub => rfl
  | exit => rfl

/-- A later part of a message: its text is in the notebook. -/
theorem say_later {w t : Text} {place : Nat} {name : Text} {room count : Nat} {b : Book} {pend : Nat → Option Text} {N' : Nat}
    (hG : Good b N' pend) (hN : place ≤ N') (hp : pend place = some t) :
    say d L w place true name room count b = .ok (t, true, b) := by
  obtain ⟨n, h1, _, h3⟩ := (hG place hN).2 t hp
  unfold say
  rw [h1]
  dsimp only
  rw [h3]

/-- The first part of a message: the message is looked up. -/
theorem say_first (K : Knows d d' L W N) {w : Text} {place : Nat} {b : Book} (hb : ∀ n ∈ b, n.mark = none)
    {pos : List Nat} (hpos : ∀ p ∈ pos, p ≠ place) (hno : ∀ n ∈ b, n.place ≠ some place) {ps : List Text} (hps : ps ∈ N)
    {w' : Text} {ws' : List Text} (hW : W.msg ps = w' :: ws') (hl : ws'.length = pos.length) :
    say d L w place true (joined d.param ps) maxWord pos.length (b ++ newNotes pos 0) =
      .ok (w' ++ [d'.param], true, b ++ filled pos (ws'.map (· ++ [d'.param]))) := by
  unfold say
  rw [search_none (by
    intro n hn
    rcases List.mem_append.1 hn with hn | hn
    · exact hno n hn
    · obtain ⟨p, hp, e⟩ := newNotes_place n hn
      rw [e]
      intro e2
      injection e2 with e2
      exact hpos p hp e2)]
  dsimp only
  rw [show maxWord = 180 from rfl, K.msg ps hps w' ws' hW, bind_ok]
  dsimp only
  rw [if_pos rfl]
  have hcl := K.clean ps hps
  rw [hW] at hcl
  by_cases h0 : pos.length > 0
  · rw [if_pos h0, K.pc, collect_all K.nul (fun w hw => hcl w (List.mem_cons_of_mem _ hw)) hl b hb 0, bind_ok]
  · rw [if_neg h0]
    have : pos = [] := List.length_eq_zero_iff.1 (by omega)
    subst this
    obtain rfl := List.length_eq_zero_iff.1 hl
    rfl

end

end Verif.Lemmas.TransProg
