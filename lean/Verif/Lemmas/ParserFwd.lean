import Verif.Lemmas.Parser
import Verif.Lemmas.LexerFwd

/-!
# Lemmas: how written trees are parsed
-/

namespace Verif.Model.Parser
open Verif.Spec (Dict Node encode)
open Verif.Model.Lexer (Tok LS kind value whole)
open Verif.Spec.Lexer Verif.Spec.Parser

/-! ## Characters of words -/

theorem charCount_encodeChar (c : Char) : charCount (Verif.Spec.encodeChar c) = 1 := by
  obtain ⟨b, bs, h1, h2, _, h4⟩ := Txt.encodeChar_shape c
  rw [h1]
  unfold charCount
  unfold Txt.Cont at h2
  rw [List.countP_cons_of_pos (by have := b.toNat_lt; simp only [decide_eq_true_eq, ne_eq]; omega)]
  have : List.countP (fun b => decide (b.toNat / 64 ≠ 2)) bs = 0 := by
    rw [List.countP_eq_zero]
    intro x hx
    have := h4 x hx
    unfold Txt.Cont at this
    simp only [decide_eq_true_eq, ne_eq, Decidable.not_not]
    omega
  rw [this]

theorem charCount_encode (cs : List Char) : charCount (encode cs) = cs.length := by
  induction cs with
  | nil => rfl
  | cons c cs ih =>
    have : charCount (encode (c :: cs)) = charCount (Verif.Spec.encodeChar c) + charCount (encode cs) := by
      rw [Txt.encode_cons]; unfold charCount; rw [List.countP_append]
    rw [this, charCount_encodeChar, ih, List.length_cons]
    omega

theorem chars_encode {w : Text} (h : ∃ cs : List Char, w = encode cs) (hl : w.length ≤ 255) (s : PS) :
    chars w s = .ok (charCount w) s := by
  obtain ⟨cs, rfl⟩ := h
  unfold chars
  have := Txt.getutf8len_encode cs [] (by omega)
  rw [List.append_nil] at this
  rw [this, charCount_encode]

/-! ## Reading lexemes -/

/-- Token at the start of a sequence of lexemes. -/
def kindOf : List Lexeme → Tok
  | [] => .fin
  | l :: _ => kind l

/-- What reading the first lexeme yields. -/
structure Rd (d : Dict) (ls : List Lexeme) (s s' : PS) : Prop where
  tok : tok d s = .ok (kindOf ls) s'
  old : s'.lx.old = s.lx.code
  older : s'.lx.older = s.lx.old
  err : s'.err = s.err
  lay : ∀ l r, ls = l :: r → whole l = true → val s' = value l ∧ Lay d r s'.lx.code
  lit : ∀ t r, ls = .lit t :: r → ∃ s'', readstr d s' = .ok () s'' ∧ val s'' = t ∧ Lay d r s''.lx.code ∧ s''.err = s.err
  word : ∀ w r, ls = .word w :: r → w.length ≤ 255 ∧ ∀ s, chars w s = .ok (charCount w) s
  fin : ls = [] → Lay d [] s'.lx.code

theorem rd {d : Dict} (hd : GoodDict d) {ls : List Lexeme} {s : PS} (h : Lay d ls s.lx.code) : ∃ s', Rd d ls s s' := by
  cases ls with
  | nil =>
    obtain ⟨lx, h1, h2, h3, h4⟩ := Lexer.tok_lay_nil h
    refine ⟨{ s with lx := lx }, ?_, h2, h3, rfl, ?_, ?_, ?_, fun _ => h4⟩
    · unfold tok; rw [h1]; rfl
    · intro l r h; cases h
    · intro l r h; cases h
    · intro l r h; cases h
  | cons l ls =>
    obtain ⟨lx, h1, h2, h3, h4, h5⟩ := Lexer.tok_lay hd h
    refine ⟨{ s with lx := lx }, ?_, h2, h3, rfl, ?_, ?_, ?_, ?_⟩
    · unfold tok; rw [h1]; rfl
    · intro l' r e hw
      cases e
      exact h4 hw
    · intro t r e
      cases e
      obtain ⟨rest, h6, h7⟩ := h5 t rfl
      refine ⟨{ lx := { lx with code := rest, val := t }, err := s.err }, ?_, rfl, h7, rfl⟩
      unfold readstr Lexer.readstrS
      dsimp only
      rw [h6]
      rfl
    · intro w r e
      cases e
      generalize hcode : s.lx.code = code at h
      cases h with
      | next hg hw hl =>
        obtain ⟨_, _, w2, w3, _⟩ := hw
        exact ⟨w2, fun s => chars_encode w3 w2 s⟩
    · intro h; cases h

/-- Reading the same lexeme again. -/
theorem Rd.again {d : Dict} {ls : List Lexeme} {s s' : PS} (h : Rd d ls s s') : (back s').lx.code = s.lx.code ∧
    (back s').lx.old = s.lx.old ∧ (back s').err = s.err :=
  ⟨h.old, h.older, h.err⟩

/-- For all sufficiently large fuel the outcome is `a`, with the lexemes `rest` left. -/
def Parses (d : Dict) {α : Type} (f : Nat → PR α) (a : α) (err : Bool) (rest : List Lexeme) : Prop :=
  ∃ s', Lay d rest s'.lx.code ∧ s'.err = err ∧ ∃ N, ∀ m, N ≤ m → f m = .ok a s'

/-- What may follow an expression of the given rank. -/
def Follow (k : Nat) (rest : List Lexeme) : Prop :=
  rest = [] ∨ (∃ r, rest = .eol :: r) ∨ (∃ r, rest = .pclose :: r) ∨
  (1 ≤ k ∧ ((∃ r, rest = .chain :: r) ∨ ∃ p r, rest = .word p :: .colon :: r)) ∨
  (k = 2 ∧ ∃ o y r, rest = .word o :: y :: r ∧ y ≠ .colon ∧ charCount o = 1)

theorem kind_colon {y : Lexeme} (h : y ≠ .colon) : kind y ≠ .colon := by
  cases y <;> first | (exact absurd rfl h) | (intro h; cases h)

/-- Two tokens ahead. -/
theorem look2 {d : Dict} (hd : GoodDict d) {l : Lexeme} {ls : List Lexeme} {s : PS} (h : Lay d (l :: ls) s.lx.code)
    (hl : whole l = true) : ∃ s1 s2, Rd d (l :: ls) s s1 ∧ Rd d ls s1 s2 ∧ (back (back s2)).lx.code = s.lx.code ∧
      (back (back s2)).err = s.err := by
  obtain ⟨s1, h1⟩ := rd hd h
  obtain ⟨s2, h2⟩ := rd hd (h1.lay l ls rfl hl).2
  refine ⟨s1, s2, h1, h2, ?_, ?_⟩
  · show s2.lx.older = _
    rw [h2.older, h1.old]
  · show s2.err = _
    rw [h2.err, h1.err]

theorem look2' {d : Dict} (hd : GoodDict d) {rest : List Lexeme} {s : PS} (h : Lay d rest s.lx.code)
    (hl : ∀ l r, rest = l :: r → whole l = true) : ∃ s1 s2, tok d s = .ok (kindOf rest) s1 ∧
      tok d s1 = .ok (kindOf rest.tail) s2 ∧ (back (back s2)).lx.code = s.lx.code ∧ (back (back s2)).err = s.err := by
  cases rest with
  | nil =>
    obtain ⟨s1, h1⟩ := rd hd h
    obtain ⟨s2, h2⟩ := rd hd (h1.fin rfl)
    refine ⟨s1, s2, h1.tok, h2.tok, ?_, ?_⟩
    · show s2.lx.older = _
      rw [h2.older, h1.old]
    · show s2.err = _
      rw [h2.err, h1.err]
  | cons l ls =>
    obtain ⟨s1, s2, h1, h2, h3, h4⟩ := look2 hd h (hl l ls rfl)
    exact ⟨s1, s2, h1.tok, h2.tok, h3, h4⟩

/-! ## Messages that are left to somebody else -/

/-- A keyword part is not taken by an argument. -/
theorem message_part {d : Dict} (hd : GoodDict d) {k : Nat} (hk : 1 ≤ k) {p : Text} {r : List Lexeme} {s : PS}
    (h : Lay d (.word p :: .colon :: r) s.lx.code) :
    ∃ s', (∀ m, message d (m + 1) k s = .ok none s') ∧ s'.lx.code = s.lx.code ∧ s'.err = s.err := by
  obtain ⟨s1, h1⟩ := rd hd h
  obtain ⟨v1, l1⟩ := h1.lay _ _ rfl rfl
  obtain ⟨w1, w2⟩ := h1.word _ _ rfl
  obtain ⟨s2, h2⟩ := rd hd l1
  have l2 : Lay d (.colon :: r) (back s2).lx.code := by rw [h2.again.1]; exact l1
  obtain ⟨s3, h3⟩ := rd hd l2
  have v1' : val s1 = p := v1
  have t2 : kindOf (.colon :: r) = .colon := rfl
  refine ⟨back (back s3), ?_, ?_, ?_⟩
  · intro m
    unfold message
    rw [h1.tok, PR.ok_bind]
    dsimp only
    rw [v1', if_neg (by unfold msgMax; omega), w2 s1, PR.ok_bind, h2.tok, PR.ok_bind, t2]
    rw [if_neg (by rintro ⟨_, _, h⟩; exact h rfl), if_neg (by rintro ⟨_, h⟩; exact h rfl), h3.tok, PR.ok_bind, t2]
    rw [if_pos rfl, if_pos (by omega)]
  · show s3.lx.older = _
    rw [h3.older, h2.again.2.1, h1.old]
  · show s3.err = _
    rw [h3.err, h2.again.2.2, h1.err]

/-- A binary message is not taken by the argument of a binary message. -/
theorem message_bin {d : Dict} (hd : GoodDict d) {o : Text} {y : Lexeme} {r : List Lexeme} {s : PS} (hy : y ≠ .colon)
    (ho : charCount o = 1) (h : Lay d (.word o :: y :: r) s.lx.code) :
    ∃ s', (∀ m, message d (m + 1) 2 s = .ok none s') ∧ s'.lx.code = s.lx.code ∧ s'.err = s.err := by
  obtain ⟨s1, h1⟩ := rd hd h
  obtain ⟨v1, l1⟩ := h1.lay _ _ rfl rfl
  obtain ⟨w1, w2⟩ := h1.word _ _ rfl
  obtain ⟨s2, h2⟩ := rd hd l1
  have v1' : val s1 = o := v1
  refine ⟨back (back s2), ?_, ?_, ?_⟩
  · intro m
    unfold message
    rw [h1.tok, PR.ok_bind]
    dsimp only
    rw [v1', if_neg (by unfold msgMax; omega), w2 s1, PR.ok_bind, h2.tok, PR.ok_bind]
    rw [if_pos ⟨rfl, ho, kind_colon hy⟩]
  · show s2.lx.older = _
    rw [h2.older, h1.old]
  · show s2.err = _
    rw [h2.err, h1.err]

/-- A word at which the messages of an expression end. -/
theorem follow_word {d : Dict} (hd : GoodDict d) {k : Nat} {rest : List Lexeme} {s : PS} {w : Text} {r : List Lexeme}
    (hf : Follow k rest) (hw : rest = .word w :: r) (h : Lay d rest s.lx.code) :
    ∃ s', (∀ m, message d (m + 1) k s = .ok none s') ∧ s'.lx.code = s.lx.code ∧ s'.err = s.err := by
  rcases hf with rfl | ⟨r, rfl⟩ | ⟨r, rfl⟩ | ⟨hk1, hf⟩ | ⟨rfl, o, y, r, rfl, hy, ho⟩
  · cases hw
  · cases hw
  · cases hw
  · rcases hf with ⟨r, rfl⟩ | ⟨p, r, rfl⟩
    · cases hw
    · exact message_part hd hk1 h
  · exact message_bin hd hy ho h

theorem kindOf_ref {rest : List Lexeme} (h : kindOf rest = .ref) : ∃ w r, rest = .word w :: r := by
  cases rest with
  | nil => cases h
  | cons l r => cases l <;> first | exact ⟨_, _, rfl⟩ | cases h

/-- No messages at all. -/
theorem messages_none {d : Dict} (hd : GoodDict d) {k : Nat} {rest : List Lexeme} {s : PS}
    (hf : Follow k rest) (hw : kindOf rest = .ref) (h : Lay d rest s.lx.code) :
    Parses d (fun m => messages d m k [] false s) [] s.err rest := by
  obtain ⟨s1, h1⟩ := rd hd h
  obtain ⟨w, r, hr⟩ := kindOf_ref hw
  have hb : Lay d rest (back s1).lx.code := by rw [h1.again.1]; exact h
  obtain ⟨s2, e1, e2, e3⟩ := follow_word hd hf hr hb
  refine ⟨s2, by rw [e2]; exact hb, by rw [e3]; exact h1.again.2.2, 2, ?_⟩
  intro m hm
  obtain ⟨m, rfl⟩ : ∃ m', m = m' + 2 := ⟨m - 2, by omega⟩
  show messages d (m + 2) k [] false s = _
  unfold messages
  rw [h1.tok, PR.ok_bind, hw, if_pos (Or.inl rfl), if_neg (by intro h; cases h), PR.ok_bind, e1 m, PR.ok_bind]
  dsimp only
  rw [if_pos rfl]

/-- The end of a sequence of messages. -/
theorem messages_end {d : Dict} (hd : GoodDict d) {k : Nat} {acc : List Node} {kw : Bool} {rest : List Lexeme} {s : PS}
    (hkw : 1 ≤ k → kw = false) (hacc : acc ≠ []) (hf : Follow k rest) (h : Lay d rest s.lx.code) :
    Parses d (fun m => messages d m k acc kw s) acc s.err rest := by
  obtain ⟨s1, h1⟩ := rd hd h
  have stop : kindOf rest ≠ .ref → ¬ (kindOf rest = .chain ∧ kw = true) →
      Parses d (fun m => messages d m k acc kw s) acc s.err rest := by
    intro hr hc
    refine ⟨back s1, by rw [h1.again.1]; exact h, h1.again.2.2, 1, ?_⟩
    intro m hm
    obtain ⟨m, rfl⟩ : ∃ m', m = m' + 1 := ⟨m - 1, by omega⟩
    show messages d (m + 1) k acc kw s = _
    unfold messages
    rw [h1.tok, PR.ok_bind, if_neg (fun h => h.elim hr hc), if_neg hacc]
  by_cases hw : kindOf rest = .ref
  · obtain ⟨w, r, hr⟩ := kindOf_ref hw
    have hb : Lay d rest (back s1).lx.code := by rw [h1.again.1]; exact h
    obtain ⟨s2, e1, e2, e3⟩ := follow_word hd hf hr hb
    have hb2 : Lay d rest s2.lx.code := by rw [e2]; exact hb
    obtain ⟨s3, h3⟩ := rd hd hb2
    refine ⟨back s3, by rw [h3.again.1]; exact hb2, by rw [h3.again.2.2, e3]; exact h1.again.2.2, 2, ?_⟩
    intro m hm
    obtain ⟨m, rfl⟩ : ∃ m', m = m' + 2 := ⟨m - 2, by omega⟩
    show messages d (m + 2) k acc kw s = _
    unfold messages
    rw [h1.tok, PR.ok_bind, hw, if_pos (Or.inl rfl), if_neg (by intro h; cases h), PR.ok_bind, e1 m, PR.ok_bind]
    dsimp only
    rw [if_neg hacc, h3.tok, PR.ok_bind]
  · refine stop hw ?_
    rintro ⟨h2, h3⟩
    rcases hf with rfl | ⟨r, rfl⟩ | ⟨r, rfl⟩ | ⟨hk1, hf⟩ | ⟨rfl, o, y, r, rfl, hy, ho⟩
    · cases h2
    · cases h2
    · cases h2
    · rw [hkw hk1] at h3; cases h3
    · exact hw rfl

/-! ## The induction -/

/-- Expressions with at most `n` lexemes are parsed. -/
def ExprOk (d : Dict) (n : Nat) : Prop :=
  ∀ e k rest s, (lexemes d e).length ≤ n → gram d k e = true → k ≤ 2 → Follow k rest →
    Lay d (lexemes d e ++ rest) s.lx.code → Parses d (fun m => expr d m k s) e s.err rest

theorem gram_prim {d : Dict} {e : Node} (k : Nat) (hp : prim e = true) : gram d k e = gram d 0 e := by
  cases e <;> first | (unfold gram; rfl) | (cases hp)

/-- The first lexeme of an expression. -/
theorem lex_head {d : Dict} {k : Nat} {e : Node} (hg : gram d k e = true) :
    ∃ l ls, lexemes d e = l :: ls ∧ l ≠ .colon ∧ l ≠ .bclose ∧ l ≠ .ret := by
  have ref : ∀ m n, ∃ l ls, lexemes d (.ref m n) = l :: ls ∧ l ≠ .colon ∧ l ≠ .bclose ∧ l ≠ .ret := by
    intro m n
    unfold lexemes
    split
    · exact ⟨_, _, rfl, by simp, by simp, by simp⟩
    split
    · exact ⟨_, _, rfl, by simp, by simp, by simp⟩
    · exact ⟨_, _, rfl, by simp, by simp, by simp⟩
  have hprim : ∀ e, prim e = true → ∃ l ls, lexemes d e = l :: ls ∧ l ≠ .colon ∧ l ≠ .bclose ∧ l ≠ .ret := by
    intro e he
    cases e
    case ref m n => exact ref m n
    case num v => exact ⟨.num v, [], by unfold lexemes; rfl, by simp, by simp, by simp⟩
    case str v => exact ⟨.lit v, [], by unfold lexemes; rfl, by simp, by simp, by simp⟩
    case block ps b => exact ⟨.bopen, _, by unfold lexemes; rfl, by simp, by simp, by simp⟩
    case nested e => exact ⟨.popen, _, by unfold lexemes; rfl, by simp, by simp, by simp⟩
    all_goals cases he
  by_cases hp : prim e = true
  · exact hprim e hp
  · cases e
    case assign r e =>
      unfold gram at hg
      simp only [Bool.and_eq_true] at hg
      cases r
      case ref m n =>
        obtain ⟨l, ls, h1, h2⟩ := ref m n
        exact ⟨l, ls ++ .assign :: lexemes d e, by conv => lhs; unfold lexemes
                                                   rw [h1]; rfl, h2⟩
      all_goals (have := hg.1.1.2; cases this)
    case msg r ms =>
      unfold gram at hg
      simp only [Bool.and_eq_true] at hg
      obtain ⟨l, ls, h1, h2⟩ := hprim r hg.1.1.1
      exact ⟨l, ls ++ lexMsgs d false ms, by conv => lhs; unfold lexemes
                                             rw [h1]; rfl, h2⟩
    all_goals first | exact absurd rfl hp | (unfold gram at hg; cases hg)

/-- Statements of a block. -/
theorem statements_ok {d : Dict} (hd : GoodDict d) {n : Nat} (he : ExprOk d n) (es : List Node) (acc : List Node)
    (rest : List Lexeme) (s : PS) (hn : (lexStmts d es).length ≤ n) (hg : gramStmts d es = true)
    (h : Lay d (lexStmts d es ++ .bclose :: rest) s.lx.code) :
    Parses d (fun m => statements d m acc s) (acc ++ es) s.err rest := by
  induction es generalizing acc s with
  | nil =>
    obtain ⟨s1, h1⟩ := rd hd h
    refine ⟨s1, (h1.lay _ _ rfl rfl).2, h1.err, 1, ?_⟩
    intro m hm
    obtain ⟨m, rfl⟩ : ∃ m', m = m' + 1 := ⟨m - 1, by omega⟩
    show statements d (m + 1) acc s = _
    unfold statements
    rw [h1.tok, PR.ok_bind, List.append_nil]
    rfl
  | cons e es ih =>
    unfold lexStmts at hn h
    rw [List.length_append, List.length_cons] at hn
    rw [List.append_assoc, List.cons_append] at h
    -- the expression proper
    have tail : ∀ (e' : Node) (x : Nat → PR Node), Parses d x e' s.err (.eol :: (lexStmts d es ++ .bclose :: rest)) →
        gramStmts d es = true →
        Parses d (fun m => (x m).bind fun e s => (tok d s).bind fun t s =>
          if t = .dot then statements d m (acc ++ [e]) s else .fail) (acc ++ e' :: es) s.err rest := by
      intro e' x hx hg
      obtain ⟨s1, l1, r1, N, hN⟩ := hx
      obtain ⟨s2, h2⟩ := rd hd l1
      obtain ⟨s3, l3, r3, N3, hN3⟩ := ih (acc ++ [e']) s2 (by omega) hg (h2.lay _ _ rfl rfl).2
      refine ⟨s3, l3, by rw [r3, h2.err, r1], max N N3, ?_⟩
      intro m hm
      show (x m).bind _ = _
      rw [hN m (by omega), PR.ok_bind, h2.tok, PR.ok_bind]
      have := hN3 m (by omega)
      rw [List.append_assoc] at this
      exact this
    by_cases hret : ∃ e', e = .ret e'
    · obtain ⟨e', rfl⟩ := hret
      unfold gramStmts at hg
      rw [Bool.and_eq_true] at hg
      have e1 : lexemes d (.ret e') = .ret :: lexemes d e' := by conv => lhs; unfold lexemes
      rw [e1] at h hn
      rw [List.length_cons] at hn
      rw [List.cons_append] at h
      obtain ⟨s1, h1⟩ := rd hd h
      have hb : Lay d (.ret :: (lexemes d e' ++ .eol :: (lexStmts d es ++ .bclose :: rest))) (back s1).lx.code := by
        rw [h1.again.1]; exact h
      obtain ⟨s2, h2⟩ := rd hd hb
      obtain ⟨s3, l3, r3, N3, hN3⟩ := he e' 0 (.eol :: (lexStmts d es ++ .bclose :: rest)) s2 (by omega) hg.1 (by omega)
        (Or.inr (Or.inl ⟨_, rfl⟩)) (h2.lay _ _ rfl rfl).2
      obtain ⟨s4, l4, r4, N4, hN4⟩ := tail (.ret e') (fun m => (tok d (back s1)).bind fun _ s => (expr d m 0 s).bind fun e s => .ok (.ret e) s)
        ⟨s3, l3, by rw [r3, h2.err]; exact h1.again.2.2, N3, fun m hm => by
          show (tok d (back s1)).bind _ = _
          rw [h2.tok, PR.ok_bind]
          have := hN3 m hm
          dsimp only at this
          rw [this]; rfl⟩ hg.2
      refine ⟨s4, l4, r4, N4 + 1, ?_⟩
      intro m hm
      obtain ⟨m, rfl⟩ : ∃ m', m = m' + 1 := ⟨m - 1, by omega⟩
      show statements d (m + 1) acc s = _
      unfold statements
      rw [h1.tok, PR.ok_bind]
      exact hN4 m (by omega)
    · have hg' : gram d 0 e = true ∧ gramStmts d es = true := by
        cases e <;> first | (exact absurd ⟨_, rfl⟩ hret) | (unfold gramStmts at hg; rwa [Bool.and_eq_true] at hg)
      obtain ⟨l, ls, k1, k2, k3, k4⟩ := lex_head hg'.1
      obtain ⟨s1, h1⟩ := rd hd h
      have ht : kindOf (lexemes d e ++ .eol :: (lexStmts d es ++ .bclose :: rest)) = kind l := by rw [k1]; rfl
      obtain ⟨s3, l3, r3, N3, hN3⟩ := he e 0 (.eol :: (lexStmts d es ++ .bclose :: rest)) (back s1) (by omega) hg'.1 (by omega)
        (Or.inr (Or.inl ⟨_, rfl⟩)) (by rw [h1.again.1]; exact h)
      obtain ⟨s4, l4, r4, N4, hN4⟩ := tail e (fun m => expr d m 0 (back s1))
        ⟨s3, l3, by rw [r3]; exact h1.again.2.2, N3, hN3⟩ hg'.2
      refine ⟨s4, l4, r4, N4 + 1, ?_⟩
      intro m hm
      obtain ⟨m, rfl⟩ : ∃ m', m = m' + 1 := ⟨m - 1, by omega⟩
      show statements d (m + 1) acc s = _
      unfold statements
      rw [h1.tok, PR.ok_bind, ht]
      have a1 : kind l ≠ .blockClose := by cases l <;> first | (exact absurd rfl k3) | (intro h; cases h)
      have a2 : kind l ≠ .ret := by cases l <;> first | (exact absurd rfl k4) | (intro h; cases h)
      rw [if_neg a1]
      dsimp only
      rw [if_neg a2]
      exact hN4 m (by omega)

/-- Parameters of a block. -/
theorem params_ok {d : Dict} (hd : GoodDict d) (ps acc : List Text) (rest : List Lexeme) (s0 s : PS) (hr : kindOf rest ≠ .colon)
    (h : Rd d (ps.flatMap (fun p => [.colon, .word p]) ++ rest) s0 s)
    (h0 : Lay d (ps.flatMap (fun p => [.colon, .word p]) ++ rest) s0.lx.code) :
    ∃ s' sr, Rd d rest sr s' ∧ Lay d rest sr.lx.code ∧ sr.err = s0.err ∧ ∃ N, ∀ m, N ≤ m →
      params d m acc (kindOf (ps.flatMap (fun p => [.colon, .word p]) ++ rest)) s = .ok (acc ++ ps) s' := by
  induction ps generalizing acc s0 s with
  | nil =>
    refine ⟨s, s0, h, h0, rfl, 1, ?_⟩
    intro m hm
    obtain ⟨m, rfl⟩ : ∃ m', m = m' + 1 := ⟨m - 1, by omega⟩
    unfold params
    rw [if_neg (by exact hr), List.append_nil]
  | cons p ps ih =>
    have e : (p :: ps).flatMap (fun p => [Lexeme.colon, .word p]) ++ rest =
        .colon :: .word p :: (ps.flatMap (fun p => [.colon, .word p]) ++ rest) := rfl
    rw [e] at h ⊢
    obtain ⟨s1, h1⟩ := rd hd (h.lay _ _ rfl rfl).2
    obtain ⟨v1, l1⟩ := h1.lay _ _ rfl rfl
    obtain ⟨s2, h2⟩ := rd hd l1
    obtain ⟨s', sr, k1, k2, k3, N, hN⟩ := ih (acc ++ [p]) s1 s2 h2 l1
    refine ⟨s', sr, k1, k2, by rw [k3, h1.err, h.err], N + 1, ?_⟩
    intro m hm
    obtain ⟨m, rfl⟩ : ∃ m', m = m' + 1 := ⟨m - 1, by omega⟩
    unfold params
    have v1' : val s1 = p := v1
    rw [if_pos (show kindOf (Lexeme.colon :: _) = Tok.colon from rfl), h1.tok, PR.ok_bind, h2.tok, PR.ok_bind, v1', hN m (by omega), List.append_assoc]
    rfl

/-- Receivers. -/
theorem receiver_ok {d : Dict} (hd : GoodDict d) {n : Nat} (he : ExprOk d n) (e : Node) (rest : List Lexeme) (s : PS)
    (hn : (lexemes d e).length ≤ n + 1) (hp : prim e = true) (hg : gram d 0 e = true)
    (h : Lay d (lexemes d e ++ rest) s.lx.code) : Parses d (fun m => receiver d m s) e s.err rest := by
  cases e
  case num v =>
    unfold lexemes at h
    obtain ⟨s1, h1⟩ := rd hd h
    obtain ⟨s2, h2⟩ := rd hd (s := back s1) (by rw [h1.again.1]; exact h)
    obtain ⟨v2, l2⟩ := h2.lay _ _ rfl rfl
    refine ⟨s2, l2, by rw [h2.err, h1.again.2.2], 1, ?_⟩
    intro m hm
    obtain ⟨m, rfl⟩ : ∃ m', m = m' + 1 := ⟨m - 1, by omega⟩
    show receiver d (m + 1) s = _
    have v2' : val s2 = v := v2
    unfold receiver
    rw [h1.tok, PR.ok_bind]
    show number d (back s1) = _
    unfold number
    rw [h2.tok, PR.ok_bind, v2']
  case str v =>
    unfold lexemes at h
    obtain ⟨s1, h1⟩ := rd hd h
    obtain ⟨s2, h2⟩ := rd hd (s := back s1) (by rw [h1.again.1]; exact h)
    obtain ⟨s3, r3, v3, l3, e3⟩ := h2.lit _ _ rfl
    refine ⟨s3, l3, by rw [e3, h1.again.2.2], 1, ?_⟩
    intro m hm
    obtain ⟨m, rfl⟩ : ∃ m', m = m' + 1 := ⟨m - 1, by omega⟩
    show receiver d (m + 1) s = _
    unfold receiver
    rw [h1.tok, PR.ok_bind]
    show string d (back s1) = _
    unfold string
    rw [h2.tok, PR.ok_bind, r3, PR.ok_bind, v3]
  case ref k v =>
    unfold gram at hg
    simp only [Bool.and_eq_true, decide_eq_true_eq, List.mem_cons, List.not_mem_nil, or_false, not_or] at hg
    obtain ⟨hk, hv1, hv2, hv3⟩ := hg
    have hmv : d.my ≠ d.var := hd.2.2.2.2.2.2.2.2.2.2.2.2.1
    obtain ⟨s1, h1⟩ := rd hd h
    obtain ⟨s2, h2⟩ := rd hd (s := back s1) (by rw [h1.again.1]; exact h)
    have he2 : s2.err = s.err := by rw [h2.err, h1.again.2.2]
    have key : kindOf (lexemes d (.ref k v) ++ rest) = .ref → ∀ s', ref d (back s1) = .ok (.ref k v) s' → ∀ m,
        receiver d (m + 1) s = .ok (.ref k v) s' := by
      intro ht s' hs m
      unfold receiver
      rw [h1.tok, PR.ok_bind, ht]
      exact hs
    have var0 : ∀ (j : Nat) (s' : PS), val s' = v → refVar d j s' = .ok (.ref j v) s' := by
      intro j s' hs
      unfold refVar
      rw [hs, if_neg (fun h => h.elim hv3 hv2)]
    have hk' : k = 0 ∨ k = 1 ∨ k = 2 := by omega
    rcases hk' with rfl | rfl | rfl
    · have e1 : lexemes d (.ref 0 v) ++ rest = .word v :: rest := by unfold lexemes; rfl
      rw [e1] at h2 key
      obtain ⟨v2, l2⟩ := h2.lay _ _ rfl rfl
      have v2' : val s2 = v := v2
      refine ⟨s2, l2, he2, 1, ?_⟩
      intro m hm
      obtain ⟨m, rfl⟩ : ∃ m', m = m' + 1 := ⟨m - 1, by omega⟩
      refine key rfl s2 ?_ m
      unfold ref
      rw [h2.tok, PR.ok_bind, if_neg (by rw [v2']; exact hv1)]
      exact var0 0 s2 v2'
    · have e1 : lexemes d (.ref 1 v) ++ rest = .word d.my :: .word v :: rest := by unfold lexemes; rfl
      rw [e1] at h2 key
      obtain ⟨v2, l2⟩ := h2.lay _ _ rfl rfl
      obtain ⟨s3, h3⟩ := rd hd l2
      obtain ⟨v3, l3⟩ := h3.lay _ _ rfl rfl
      have v2' : val s2 = d.my := v2
      have v3' : val s3 = v := v3
      refine ⟨s3, l3, by rw [h3.err, he2], 1, ?_⟩
      intro m hm
      obtain ⟨m, rfl⟩ : ∃ m', m = m' + 1 := ⟨m - 1, by omega⟩
      refine key rfl s3 ?_ m
      unfold ref
      rw [h2.tok, PR.ok_bind, if_pos v2', h3.tok, PR.ok_bind]
      exact var0 1 s3 v3'
    · have e1 : lexemes d (.ref 2 v) ++ rest = .word d.var :: .word v :: rest := by unfold lexemes; rfl
      rw [e1] at h2 key
      obtain ⟨v2, l2⟩ := h2.lay _ _ rfl rfl
      obtain ⟨s3, h3⟩ := rd hd l2
      obtain ⟨v3, l3⟩ := h3.lay _ _ rfl rfl
      have v2' : val s2 = d.var := v2
      have v3' : val s3 = v := v3
      refine ⟨s3, l3, by rw [h3.err, he2], 1, ?_⟩
      intro m hm
      obtain ⟨m, rfl⟩ : ∃ m', m = m' + 1 := ⟨m - 1, by omega⟩
      refine key rfl s3 ?_ m
      unfold ref
      rw [h2.tok, PR.ok_bind, if_neg (by rw [v2']; exact fun h => hmv h.symm)]
      unfold refVar
      rw [if_pos (Or.inr v2'), h3.tok, PR.ok_bind, v3']
      rfl
  case nested e =>
    have e1 : lexemes d (.nested e) = .popen :: (lexemes d e ++ [.pclose]) := by
      conv => lhs; unfold lexemes
      rfl
    rw [e1] at h hn
    rw [List.length_cons, List.length_append] at hn
    have e2 : .popen :: (lexemes d e ++ [.pclose]) ++ rest = .popen :: (lexemes d e ++ .pclose :: rest) := by simp
    rw [e2] at h
    unfold gram at hg
    obtain ⟨s1, h1⟩ := rd hd h
    obtain ⟨s2, h2⟩ := rd hd (s := back s1) (by rw [h1.again.1]; exact h)
    obtain ⟨s3, l3, r3, N, hN⟩ := he e 0 (.pclose :: rest) s2 (by omega) hg (by omega) (Or.inr (Or.inr (Or.inl ⟨_, rfl⟩)))
      (h2.lay _ _ rfl rfl).2
    obtain ⟨s4, h4⟩ := rd hd l3
    refine ⟨s4, (h4.lay _ _ rfl rfl).2, by rw [h4.err, r3, h2.err, h1.again.2.2], N + 1, ?_⟩
    intro m hm
    obtain ⟨m, rfl⟩ : ∃ m', m = m' + 1 := ⟨m - 1, by omega⟩
    have hN' := hN m (by omega)
    dsimp only at hN'
    show receiver d (m + 1) s = _
    unfold receiver
    rw [h1.tok, PR.ok_bind]
    show (tok d (back s1)).bind _ = _
    rw [h2.tok, PR.ok_bind, hN', PR.ok_bind, h4.tok, PR.ok_bind]
    rfl
  case block ps b =>
    have e1 : lexemes d (.block ps b) ++ rest =
        .bopen :: (ps.flatMap (fun p => [.colon, .word p]) ++ (lexStmts d b ++ .bclose :: rest)) := by
      conv => lhs; unfold lexemes
      simp
    have hlen : (lexStmts d b).length ≤ n := by
      have := congrArg List.length e1
      simp only [List.length_append, List.length_cons] at this
      omega
    rw [e1] at h
    unfold gram at hg
    simp only [Bool.and_eq_true, Bool.not_eq_true'] at hg
    obtain ⟨hne, hg⟩ := hg
    -- what follows the parameters
    have hafter : kindOf (lexStmts d b ++ .bclose :: rest) ≠ .colon ∧
        (b ≠ [] → kindOf (lexStmts d b ++ .bclose :: rest) ≠ .blockClose) := by
      cases b with
      | nil => exact ⟨(by intro h; cases h), fun h => absurd rfl h⟩
      | cons x xs =>
        by_cases hret : ∃ e', x = .ret e'
        · obtain ⟨e', rfl⟩ := hret
          have : kindOf (lexStmts d (.ret e' :: xs) ++ .bclose :: rest) = .ret := by
            unfold lexStmts lexemes; rfl
          rw [this]
          exact ⟨by simp, fun _ => by simp⟩
        · have hg' : gram d 0 x = true := by
            cases x <;> first | (exact absurd ⟨_, rfl⟩ hret) | (unfold gramStmts at hg; rw [Bool.and_eq_true] at hg; exact hg.1)
          obtain ⟨l, ls, k1, k2, k3, k4⟩ := lex_head hg'
          have : kindOf (lexStmts d (x :: xs) ++ .bclose :: rest) = kind l := by
            unfold lexStmts; rw [k1]; rfl
          rw [this]
          exact ⟨kind_colon k2, fun _ => by cases l <;> first | (exact absurd rfl k3) | (intro h; cases h)⟩
    obtain ⟨s1, h1⟩ := rd hd h
    obtain ⟨s2, h2⟩ := rd hd (s := back s1) (by rw [h1.again.1]; exact h)
    have l2 := (h2.lay _ _ rfl rfl).2
    obtain ⟨s3, h3⟩ := rd hd l2
    obtain ⟨s4, sr, k1, k2, k3, N1, hN1⟩ := params_ok hd ps [] _ s2 s3 hafter.1 h3 l2
    obtain ⟨s5, l5, r5, N2, hN2⟩ := statements_ok hd he b [] rest (back s4) hlen hg (by rw [k1.again.1]; exact k2)
    refine ⟨s5, l5, by rw [r5, k1.again.2.2, k3, h2.err, h1.again.2.2], max N1 N2 + 1, ?_⟩
    intro m hm
    obtain ⟨m, rfl⟩ : ∃ m', m = m' + 1 := ⟨m - 1, by omega⟩
    show receiver d (m + 1) s = _
    unfold receiver
    rw [h1.tok, PR.ok_bind]
    show (tok d (back s1)).bind _ = _
    have hnc : kindOf (ps.flatMap (fun p => [.colon, .word p]) ++ (lexStmts d b ++ .bclose :: rest)) ≠ .blockClose := by
      cases ps with
      | nil =>
        refine hafter.2 ?_
        rintro rfl
        cases hne
      | cons p ps => intro h; cases h
    have hN2' := hN2 m (by omega)
    dsimp only at hN2'
    rw [h2.tok, PR.ok_bind, h3.tok, PR.ok_bind, if_neg hnc, hN1 m (by omega), PR.ok_bind, hN2', PR.ok_bind]
    rfl
  all_goals cases hp

/-! ## Messages -/

/-- What may follow a keyword message. -/
def KwEnd (rest : List Lexeme) : Prop :=
  rest = [] ∨ (∃ r, rest = .eol :: r) ∨ (∃ r, rest = .pclose :: r) ∨ ∃ r, rest = .chain :: r

theorem partsLen_append (a b : List Text) : partsLen (a ++ b) = partsLen a + partsLen b := by
  unfold partsLen
  rw [List.map_append, List.sum_append]

theorem partsLen_cons (p : Text) (b : List Text) : partsLen (p :: b) = p.length + 1 + partsLen b := by
  unfold partsLen
  rw [List.map_cons, List.sum_cons]

theorem keywords_ok {d : Dict} (hd : GoodDict d) {n : Nat} (he : ExprOk d n) (as : List Node) (a : Node) (ps done : List Text)
    (dargs : List Node) (rest : List Lexeme) (s : PS) (hlen : ps.length = as.length)
    (hn : (lexemes d a).length + (lexArgs d ps as).length ≤ n) (hga : gram d 1 a = true) (hg : gramArgs d as = true)
    (hsum : partsLen (done ++ ps) ≤ 255) (hend : KwEnd rest)
    (h : Lay d (lexemes d a ++ (lexArgs d ps as ++ rest)) s.lx.code) :
    Parses d (fun m => keywords d m done dargs s) (some (.kw (done ++ ps) (dargs ++ a :: as))) s.err rest := by
  induction as generalizing a ps done dargs s with
  | nil =>
    cases ps with
    | cons p ps => cases hlen
    | nil =>
      have e1 : lexArgs d [] [] = [] := by unfold lexArgs; rfl
      rw [e1, List.nil_append] at h
      have hfol : Follow 1 rest := by
        rcases hend with h | h | h | h
        · exact Or.inl h
        · exact Or.inr (Or.inl h)
        · exact Or.inr (Or.inr (Or.inl h))
        · exact Or.inr (Or.inr (Or.inr (Or.inl ⟨by omega, Or.inl h⟩)))
      obtain ⟨s1, l1, r1, N, hN⟩ := he a 1 rest s (by omega) hga (by omega) hfol h
      obtain ⟨s2, h2⟩ := rd hd l1
      refine ⟨back s2, by rw [h2.again.1]; exact l1, by rw [h2.again.2.2, r1], N + 1, ?_⟩
      intro m hm
      obtain ⟨m, rfl⟩ : ∃ m', m = m' + 1 := ⟨m - 1, by omega⟩
      show keywords d (m + 1) done dargs s = _
      have hN' := hN m (by omega)
      dsimp only at hN'
      unfold keywords
      rw [hN', PR.ok_bind, h2.tok, PR.ok_bind, if_pos, List.append_nil]
      rcases hend with rfl | ⟨r, rfl⟩ | ⟨r, rfl⟩ | ⟨r, rfl⟩ <;> rfl
  | cons a2 as ih =>
    cases ps with
    | nil => cases hlen
    | cons p ps =>
      have e1 : lexArgs d (p :: ps) (a2 :: as) = .word p :: .colon :: (lexemes d a2 ++ lexArgs d ps as) := by
        conv => lhs; unfold lexArgs
        rfl
      rw [e1] at h hn
      simp only [List.length_cons, List.length_append] at hn hlen
      unfold gramArgs at hg
      rw [Bool.and_eq_true] at hg
      simp only [List.cons_append, List.append_assoc] at h
      obtain ⟨s1, l1, r1, N, hN⟩ := he a 1 _ s (by omega) hga (by omega)
        (Or.inr (Or.inr (Or.inr (Or.inl ⟨by omega, Or.inr ⟨p, _, rfl⟩⟩)))) h
      obtain ⟨s2, h2⟩ := rd hd l1
      obtain ⟨v2, l2⟩ := h2.lay _ _ rfl rfl
      have v2' : val s2 = p := v2
      obtain ⟨s3, h3⟩ := rd hd l2
      obtain ⟨v3, l3⟩ := h3.lay _ _ rfl rfl
      have hsum' : partsLen done + (p.length + 1 + partsLen ps) ≤ 255 := by
        rw [← partsLen_cons, ← partsLen_append]; exact hsum
      obtain ⟨s4, l4, r4, N4, hN4⟩ := ih a2 ps (done ++ [p]) (dargs ++ [a]) { s3 with err := s3.err || false } (by omega)
        (by omega) hg.1 hg.2 (by rw [List.append_assoc]; exact hsum) l3
      refine ⟨s4, l4, ?_, max N N4 + 1, ?_⟩
      · rw [r4]
        show (s3.err || false) = s.err
        rw [Bool.or_false, h3.err, h2.err, r1]
      intro m hm
      obtain ⟨m, rfl⟩ : ∃ m', m = m' + 1 := ⟨m - 1, by omega⟩
      show keywords d (m + 1) done dargs s = _
      have hN' := hN m (by omega)
      have hN4' := hN4 m (by omega)
      dsimp only at hN' hN4'
      rw [List.append_assoc, List.append_assoc] at hN4'
      unfold keywords
      rw [hN', PR.ok_bind, h2.tok, PR.ok_bind, if_neg (by intro h; cases h), if_pos (show kindOf (Lexeme.word _ :: _) = Tok.ref from rfl), v2',
        if_neg (by unfold msgMax; omega), if_neg (by unfold msgMax; omega), h3.tok, PR.ok_bind]
      exact hN4'

/-- Messages start with a word. -/
theorem lex_msg {d : Dict} {k : Nat} {b : Bool} {m : Node} {ms : List Node} (hg : gramMsgs d k b (m :: ms) = true) :
    (∃ n, m = .una n ∧ b = false ∧ charCount n ≠ 1 ∧ gramMsgs d k false ms = true) ∨
    (∃ o a, m = .bin o a ∧ k ≤ 1 ∧ charCount o = 1 ∧ gram d 2 a = true ∧ gramMsgs d k true ms = true) ∨
    (∃ p ps a as, m = .kw (p :: ps) (a :: as) ∧ k = 0 ∧ ps.length = as.length ∧ partsLen (p :: ps) ≤ 255 ∧
      gram d 1 a = true ∧ gramArgs d as = true ∧ gramMsgs d k false ms = true) := by
  cases m
  case una n =>
    unfold gramMsgs at hg
    simp only [Bool.and_eq_true, Bool.not_eq_true', bne_iff_ne, ne_eq] at hg
    exact Or.inl ⟨n, rfl, hg.1.1, hg.1.2, hg.2⟩
  case bin o a =>
    unfold gramMsgs at hg
    simp only [Bool.and_eq_true, decide_eq_true_eq, beq_iff_eq] at hg
    exact Or.inr (Or.inl ⟨o, a, rfl, hg.1.1.1, hg.1.1.2, hg.1.2, hg.2⟩)
  case kw ps as =>
    unfold gramMsgs at hg
    simp only [Bool.and_eq_true, decide_eq_true_eq, beq_iff_eq] at hg
    obtain ⟨⟨⟨⟨⟨h1, h2⟩, h3⟩, h4⟩, h5⟩, h6⟩ := hg
    cases ps with
    | nil => cases h3
    | cons p ps =>
      cases as with
      | nil => cases h2
      | cons a as =>
        unfold gramArgs at h5
        rw [Bool.and_eq_true] at h5
        simp only [List.length_cons, Nat.add_right_cancel_iff] at h2
        exact Or.inr (Or.inr ⟨p, ps, a, as, rfl, h1, h2, h4, h5.1, h5.2, h6⟩)
  all_goals (unfold gramMsgs at hg; cases hg)

/-- The lexemes after a message do not start with the parameter sign. -/
theorem after_msg {d : Dict} {k : Nat} {b kw : Bool} {ms : List Node} {rest : List Lexeme} (hg : gramMsgs d k b ms = true)
    (hf : Follow k rest) : kindOf (lexMsgs d kw ms ++ rest) ≠ .colon := by
  cases ms with
  | nil =>
    unfold lexMsgs
    rcases hf with rfl | ⟨r, rfl⟩ | ⟨r, rfl⟩ | ⟨hk1, ⟨r, rfl⟩ | ⟨p, r, rfl⟩⟩ | ⟨rfl, o, y, r, rfl, hy, ho⟩ <;>
      (intro h; cases h)
  | cons m ms =>
    unfold lexMsgs
    cases kw
    · rcases lex_msg hg with ⟨n, rfl, _⟩ | ⟨o, a, rfl, _⟩ | ⟨p, ps, a, as, rfl, _⟩ <;>
        (first | unfold lexemes | skip) <;> (first | unfold lexArgs | skip) <;> (intro h; cases h)
    · intro h; cases h

theorem message_ok {d : Dict} (hd : GoodDict d) {n : Nat} (he : ExprOk d n) (k : Nat) (b : Bool) (m : Node) (ms : List Node)
    (rest : List Lexeme) (s : PS) (hn : (lexemes d m).length ≤ n) (hg : gramMsgs d k b (m :: ms) = true)
    (hf : Follow k rest) (h : Lay d (lexemes d m ++ (lexMsgs d (isKw m) ms ++ rest)) s.lx.code) :
    kindOf (lexemes d m ++ (lexMsgs d (isKw m) ms ++ rest)) = .ref ∧
    Parses d (fun f => message d f k s) (some m) s.err (lexMsgs d (isKw m) ms ++ rest) := by
  rcases lex_msg hg with ⟨w, rfl, hb, hc, hg'⟩ | ⟨o, a, rfl, hk, ho, hga, hg'⟩ | ⟨p, ps, a, as, rfl, hk, hl, hs, hga, hgs, hg'⟩
  · have e1 : lexemes d (.una w) = [.word w] := by unfold lexemes; rfl
    rw [e1] at h ⊢
    refine ⟨rfl, ?_⟩
    have hnc := after_msg (kw := isKw (.una w)) hg' hf
    have h' : Lay d (.word w :: (lexMsgs d (isKw (.una w)) ms ++ rest)) s.lx.code := h
    generalize lexMsgs d (isKw (.una w)) ms ++ rest = tl at h' hnc
    obtain ⟨s1, h1⟩ := rd hd h'
    obtain ⟨v1, l1⟩ := h1.lay _ _ rfl rfl
    obtain ⟨w1, w2⟩ := h1.word _ _ rfl
    obtain ⟨s2, h2⟩ := rd hd l1
    have l2 : Lay d tl (back s2).lx.code := by rw [h2.again.1]; exact l1
    obtain ⟨s3, h3⟩ := rd hd l2
    have v1' : val s1 = w := v1
    refine ⟨back s3, by rw [h3.again.1]; exact l2, by rw [h3.again.2.2, h2.again.2.2, h1.err], 1, ?_⟩
    intro f hf
    obtain ⟨f, rfl⟩ : ∃ m', f = m' + 1 := ⟨f - 1, by omega⟩
    show message d (f + 1) k s = _
    unfold message
    rw [h1.tok, PR.ok_bind]
    dsimp only
    rw [v1', if_neg (by unfold msgMax; omega), w2 s1, PR.ok_bind, h2.tok, PR.ok_bind,
      if_neg (by rintro ⟨_, h, _⟩; exact hc h), if_neg (by rintro ⟨h, _⟩; exact hc h), h3.tok, PR.ok_bind, if_neg hnc]
  · have e1 : lexemes d (.bin o a) = .word o :: lexemes d a := by conv => lhs; unfold lexemes
    rw [e1] at h hn ⊢
    refine ⟨rfl, ?_⟩
    rw [List.length_cons] at hn
    obtain ⟨y, ys, hy, hyc, _⟩ := lex_head hga
    have hfol : Follow 2 (lexMsgs d (isKw (.bin o a)) ms ++ rest) := by
      cases ms with
      | nil =>
        unfold lexMsgs
        rcases hf with hf | hf | hf | ⟨hk1, hf⟩ | ⟨rfl, _⟩
        · exact Or.inl hf
        · exact Or.inr (Or.inl hf)
        · exact Or.inr (Or.inr (Or.inl hf))
        · exact Or.inr (Or.inr (Or.inr (Or.inl ⟨by omega, hf⟩)))
        · omega
      | cons m2 ms =>
        have ek : isKw (.bin o a) = false := rfl
        rw [ek]
        unfold lexMsgs
        rcases lex_msg hg' with ⟨w, rfl, hb, _⟩ | ⟨o2, a2, rfl, _, ho2, hga2, _⟩ | ⟨p, ps, a2, as, rfl, _⟩
        · cases hb
        · obtain ⟨z, zs, hz, hzc, _⟩ := lex_head hga2
          refine Or.inr (Or.inr (Or.inr (Or.inr ⟨rfl, o2, z, zs ++ lexMsgs d (isKw (.bin o2 a2)) ms ++ rest, ?_, hzc, ho2⟩)))
          have e2 : lexemes d (.bin o2 a2) = .word o2 :: lexemes d a2 := by conv => lhs; unfold lexemes
          rw [e2, hz]
          rfl
        · refine Or.inr (Or.inr (Or.inr (Or.inl ⟨by omega, Or.inr ⟨p, lexemes d a2 ++ lexArgs d ps as ++
            lexMsgs d (isKw (.kw (p :: ps) (a2 :: as))) ms ++ rest, ?_⟩⟩)))
          have e2 : lexemes d (.kw (p :: ps) (a2 :: as)) = .word p :: .colon :: (lexemes d a2 ++ lexArgs d ps as) := by
            conv => lhs; unfold lexemes lexArgs
            rfl
          rw [e2]
          rfl
    have h' : Lay d (.word o :: (lexemes d a ++ (lexMsgs d (isKw (.bin o a)) ms ++ rest))) s.lx.code := h
    generalize lexMsgs d (isKw (.bin o a)) ms ++ rest = tl at h' hfol
    obtain ⟨s1, h1⟩ := rd hd h'
    obtain ⟨v1, l1⟩ := h1.lay _ _ rfl rfl
    obtain ⟨w1, w2⟩ := h1.word _ _ rfl
    obtain ⟨s2, h2⟩ := rd hd l1
    have l2 : Lay d (lexemes d a ++ tl) (back s2).lx.code := by rw [h2.again.1]; exact l1
    obtain ⟨s3, l3, r3, N, hN⟩ := he a 2 tl (back s2) (by omega) hga (by omega) hfol l2
    have v1' : val s1 = o := v1
    have hla : kindOf (lexemes d a ++ tl) ≠ .colon := by rw [hy]; exact kind_colon hyc
    refine ⟨s3, l3, by rw [r3, h2.again.2.2, h1.err], N + 1, ?_⟩
    intro f hf
    obtain ⟨f, rfl⟩ : ∃ m', f = m' + 1 := ⟨f - 1, by omega⟩
    show message d (f + 1) k s = _
    have hN' := hN f (by omega)
    dsimp only at hN'
    unfold message
    rw [h1.tok, PR.ok_bind]
    dsimp only
    rw [v1', if_neg (by unfold msgMax; omega), w2 s1, PR.ok_bind, h2.tok, PR.ok_bind, if_neg (by rintro ⟨h, _⟩; omega),
      if_pos ⟨ho, hla⟩, hN', PR.ok_bind]
  · subst hk
    have e1 : lexemes d (.kw (p :: ps) (a :: as)) = .word p :: .colon :: (lexemes d a ++ lexArgs d ps as) := by
      conv => lhs; unfold lexemes lexArgs
      rfl
    rw [e1] at h hn ⊢
    refine ⟨rfl, ?_⟩
    simp only [List.length_cons, List.length_append] at hn
    have hend : KwEnd (lexMsgs d (isKw (.kw (p :: ps) (a :: as))) ms ++ rest) := by
      have ek : isKw (.kw (p :: ps) (a :: as)) = true := rfl
      rw [ek]
      cases ms with
      | nil =>
        unfold lexMsgs
        rcases hf with hf | hf | hf | ⟨hk1, hf⟩ | ⟨h, _⟩
        · exact Or.inl hf
        · exact Or.inr (Or.inl hf)
        · exact Or.inr (Or.inr (Or.inl hf))
        · omega
        · omega
      | cons m2 ms =>
        unfold lexMsgs
        exact Or.inr (Or.inr (Or.inr ⟨_, rfl⟩))
    have h' : Lay d (.word p :: .colon :: (lexemes d a ++ (lexArgs d ps as ++
        (lexMsgs d (isKw (.kw (p :: ps) (a :: as))) ms ++ rest)))) s.lx.code := by
      simpa only [List.cons_append, List.append_assoc] using h
    generalize lexMsgs d (isKw (.kw (p :: ps) (a :: as))) ms ++ rest = tl at h' hend
    obtain ⟨s1, h1⟩ := rd hd h'
    obtain ⟨v1, l1⟩ := h1.lay _ _ rfl rfl
    obtain ⟨w1, w2⟩ := h1.word _ _ rfl
    obtain ⟨s2, h2⟩ := rd hd l1
    obtain ⟨s3, h3⟩ := rd hd (s := back s2) (by rw [h2.again.1]; exact l1)
    obtain ⟨s4, h4⟩ := rd hd (s := back s3) (by rw [h3.again.1, h2.again.1]; exact l1)
    obtain ⟨s5, l5, r5, N, hN⟩ := keywords_ok hd he as a ps [p] [] tl s4 hl (by omega) hga hgs hs hend (h4.lay _ _ rfl rfl).2
    have v1' : val s1 = p := v1
    refine ⟨s5, l5, by rw [r5, h4.err, h3.again.2.2, h2.again.2.2, h1.err], N + 1, ?_⟩
    intro f hf
    obtain ⟨f, rfl⟩ : ∃ m', f = m' + 1 := ⟨f - 1, by omega⟩
    show message d (f + 1) 0 s = _
    have hN' := hN f (by omega)
    dsimp only at hN'
    rw [partsLen_cons] at hs
    unfold message
    rw [h1.tok, PR.ok_bind]
    dsimp only
    rw [v1', if_neg (by unfold msgMax; omega), w2 s1, PR.ok_bind, h2.tok, PR.ok_bind,
      if_neg (by rintro ⟨h, _⟩; omega), if_neg (by rintro ⟨_, h⟩; exact h rfl), h3.tok, PR.ok_bind, if_pos (show kindOf (Lexeme.colon :: _) = Tok.colon from rfl),
      if_neg (by omega), if_neg (by unfold msgMax; omega), h4.tok, PR.ok_bind, hN']
    rfl

theorem messages_ok {d : Dict} (hd : GoodDict d) {n : Nat} (he : ExprOk d n) (k : Nat) (ms : List Node) (b : Bool) (acc : List Node)
    (kw : Bool) (rest : List Lexeme) (s : PS) (hn : (lexMsgs d kw ms).length ≤ n) (hg : gramMsgs d k b ms = true)
    (hkw : 1 ≤ k → kw = false) (hf : Follow k rest) (hne : acc ++ ms ≠ []) (h : Lay d (lexMsgs d kw ms ++ rest) s.lx.code) :
    Parses d (fun m => messages d m k acc kw s) (acc ++ ms) s.err rest := by
  induction ms generalizing b acc kw s with
  | nil =>
    rw [List.append_nil] at hne ⊢
    unfold lexMsgs at h
    exact messages_end hd hkw hne hf h
  | cons m ms ih =>
    unfold lexMsgs at h hn
    simp only [List.length_append] at hn
    have hnext : ∃ b', gramMsgs d k b' ms = true := by
      rcases lex_msg hg with ⟨w, rfl, _, _, hg'⟩ | ⟨o, a, rfl, _, _, _, hg'⟩ | ⟨p, ps, a, as, rfl, _, _, _, _, _, hg'⟩
      · exact ⟨_, hg'⟩
      · exact ⟨_, hg'⟩
      · exact ⟨_, hg'⟩
    have hkw' : 1 ≤ k → isKw m = false := by
      intro hk
      rcases lex_msg hg with ⟨w, rfl, _⟩ | ⟨o, a, rfl, _⟩ | ⟨p, ps, a, as, rfl, h0, _⟩
      · rfl
      · rfl
      · omega
    obtain ⟨b', hg'⟩ := hnext
    -- where the message starts
    have start : ∃ s1, Lay d (lexemes d m ++ (lexMsgs d (isKw m) ms ++ rest)) s1.lx.code ∧ s1.err = s.err ∧
        ∀ f s2, message d f k s1 = .ok (some m) s2 →
          messages d (f + 1) k acc kw s = messages d f k (acc ++ [m]) (isKw m) s2 := by
      cases kw with
      | false =>
        have h' : Lay d (lexemes d m ++ (lexMsgs d (isKw m) ms ++ rest)) s.lx.code := by
          simpa only [if_neg (by simp : ¬ (false = true)), List.nil_append, List.append_assoc] using h
        have hr := (message_ok hd he k b m ms rest s (by omega) hg hf h').1
        obtain ⟨s1, h1⟩ := rd hd h'
        refine ⟨back s1, by rw [h1.again.1]; exact h', h1.again.2.2, ?_⟩
        intro f s2' hm
        conv => lhs; unfold messages
        rw [h1.tok, PR.ok_bind, hr, if_pos (Or.inl rfl), if_neg (by intro h; cases h), PR.ok_bind, hm,
          PR.ok_bind]
        cases m <;> rfl
      | true =>
        have h' : Lay d (.chain :: (lexemes d m ++ (lexMsgs d (isKw m) ms ++ rest))) s.lx.code := by
          simpa only [if_true, List.cons_append, List.nil_append, List.append_assoc] using h
        obtain ⟨s1, h1⟩ := rd hd h'
        have l1 := (h1.lay _ _ rfl rfl).2
        have hr := (message_ok hd he k b m ms rest s1 (by omega) hg hf l1).1
        obtain ⟨s2, h2⟩ := rd hd l1
        refine ⟨back s2, by rw [h2.again.1]; exact l1, by rw [h2.again.2.2, h1.err], ?_⟩
        intro f s2' hm
        conv => lhs; unfold messages
        rw [h1.tok, PR.ok_bind, if_pos (Or.inr ⟨rfl, rfl⟩), if_pos (show kindOf (Lexeme.chain :: _) = Tok.chain from rfl), h2.tok,
          PR.ok_bind, hr, if_pos rfl, PR.ok_bind, hm, PR.ok_bind]
        cases m <;> rfl
    obtain ⟨s1, l1, r1, hrun⟩ := start
    obtain ⟨_, s2, l2, r2, N2, hN2⟩ := message_ok hd he k b m ms rest s1 (by omega) hg hf l1
    obtain ⟨s3, l3, r3, N3, hN3⟩ := ih b' (acc ++ [m]) (isKw m) s2 (by omega) hg' hkw' (by simp) l2
    refine ⟨s3, l3, by rw [r3, r2, r1], max N2 N3 + 1, ?_⟩
    intro f hf
    obtain ⟨f, rfl⟩ : ∃ m', f = m' + 1 := ⟨f - 1, by omega⟩
    show messages d (f + 1) k acc kw s = _
    have hN2' := hN2 f (by omega)
    have hN3' := hN3 f (by omega)
    dsimp only at hN2' hN3'
    rw [List.append_assoc] at hN3'
    rw [hrun f s2 hN2']
    exact hN3'

theorem follow_whole {k : Nat} {rest : List Lexeme} (hf : Follow k rest) : ∀ l r, rest = l :: r → whole l = true := by
  intro l r h
  rcases hf with rfl | ⟨r, rfl⟩ | ⟨r, rfl⟩ | ⟨hk1, ⟨r, rfl⟩ | ⟨p, r, rfl⟩⟩ | ⟨rfl, o, y, r, rfl, hy, ho⟩ <;> cases h <;> rfl

theorem expr_ok {d : Dict} (hd : GoodDict d) (n : Nat) : ExprOk d n := by
  induction n with
  | zero =>
    intro e k rest s hn hg
    obtain ⟨l, ls, h, _⟩ := lex_head hg
    rw [h] at hn
    simp at hn
  | succ n ih =>
    intro e k rest s hn hg hk hf h
    by_cases hp : prim e = true
    · -- a receiver without messages
      obtain ⟨s1, l1, r1, N, hN⟩ := receiver_ok hd ih e rest s hn hp (by rw [← gram_prim k hp]; exact hg) h
      obtain ⟨s2, s3, t2, t3, b1, b2⟩ := look2' hd l1 (follow_whole hf)
      have lb : Lay d rest (back (back s3)).lx.code := by rw [b1]; exact l1
      have hN' : ∀ m, N ≤ m → receiver d m s = .ok e s1 := hN
      have stop : ends (kindOf rest) = true → Parses d (fun m => expr d m k s) e s.err rest := by
        intro he
        refine ⟨back (back s3), lb, by rw [b2, r1], N + 1, ?_⟩
        intro m hm
        obtain ⟨m, rfl⟩ : ∃ m', m = m' + 1 := ⟨m - 1, by omega⟩
        show expr d (m + 1) k s = _
        unfold expr
        rw [hN' m (by omega), PR.ok_bind, t2, PR.ok_bind, t3, PR.ok_bind]
        dsimp only
        generalize kindOf rest = t at he
        rw [if_neg (by rintro ⟨_, rfl, _⟩; cases he), if_neg (by rintro rfl; cases he), if_neg (by rintro rfl; cases he),
          if_neg (by rintro rfl; cases he), if_pos he]
      have word : kindOf rest = .ref → Parses d (fun m => expr d m k s) e s.err rest := by
        intro hr
        by_cases hc : k = 1 ∧ kindOf rest.tail = .colon
        · refine ⟨back (back s3), lb, by rw [b2, r1], N + 1, ?_⟩
          intro m hm
          obtain ⟨m, rfl⟩ : ∃ m', m = m' + 1 := ⟨m - 1, by omega⟩
          show expr d (m + 1) k s = _
          unfold expr
          rw [hN' m (by omega), PR.ok_bind, t2, PR.ok_bind, t3, PR.ok_bind]
          dsimp only
          rw [if_pos ⟨hc.1, hr, hc.2⟩]
        · obtain ⟨s4, l4, r4, N4, hN4⟩ := messages_none hd hf hr lb
          obtain ⟨s5, h5⟩ := rd hd l4
          refine ⟨back s5, by rw [h5.again.1]; exact l4, by rw [h5.again.2.2, r4, b2, r1], max N N4 + 1, ?_⟩
          intro m hm
          obtain ⟨m, rfl⟩ : ∃ m', m = m' + 1 := ⟨m - 1, by omega⟩
          show expr d (m + 1) k s = _
          have hN4' := hN4 m (by omega)
          dsimp only at hN4'
          unfold expr
          rw [hN' m (by omega), PR.ok_bind, t2, PR.ok_bind, t3, PR.ok_bind]
          dsimp only
          rw [hr, if_neg (by rintro ⟨h1, _, h2⟩; exact hc ⟨h1, h2⟩), if_neg (by simp), if_neg (by simp), if_neg (by simp),
            if_neg (by intro h; cases h), hN4', PR.ok_bind, if_pos rfl, h5.tok, PR.ok_bind]
      rcases hf with rfl | ⟨r, rfl⟩ | ⟨r, rfl⟩ | ⟨hk1, ⟨r, rfl⟩ | ⟨p, r, rfl⟩⟩ | ⟨rfl, o, y, r, rfl, hy, ho⟩
      · exact stop rfl
      · exact stop rfl
      · exact stop rfl
      · exact stop rfl
      · exact word rfl
      · exact word rfl
    · cases e
      case assign r e =>
        unfold gram at hg
        simp only [Bool.and_eq_true, beq_iff_eq] at hg
        obtain ⟨⟨⟨rfl, hr⟩, hgr⟩, hge⟩ := hg
        cases r
        case ref j v =>
          have e1 : lexemes d (.assign (.ref j v) e) = lexemes d (.ref j v) ++ .assign :: lexemes d e := by
            conv => lhs; unfold lexemes
          rw [e1] at h hn
          rw [List.length_append, List.length_cons] at hn
          rw [List.append_assoc, List.cons_append] at h
          obtain ⟨s1, l1, r1, N, hN⟩ := receiver_ok hd ih (.ref j v) _ s (by omega) rfl hgr h
          obtain ⟨s2, s3, t2, t3, b1, b2⟩ := look2' hd l1 (by intro l r h; cases h; rfl)
          have lb : Lay d (.assign :: (lexemes d e ++ rest)) (back (back s3)).lx.code := by rw [b1]; exact l1
          obtain ⟨s4, h4⟩ := rd hd lb
          obtain ⟨s5, l5, r5, N5, hN5⟩ := ih e 0 rest s4 (by omega) hge (by omega) hf (h4.lay _ _ rfl rfl).2
          refine ⟨s5, l5, by rw [r5, h4.err, b2, r1], max N N5 + 1, ?_⟩
          intro m hm
          obtain ⟨m, rfl⟩ : ∃ m', m = m' + 1 := ⟨m - 1, by omega⟩
          show expr d (m + 1) 0 s = _
          have hN' := hN m (by omega)
          have hN5' := hN5 m (by omega)
          dsimp only at hN' hN5'
          have tk : kindOf (.assign :: (lexemes d e ++ rest)) = .assign := rfl
          unfold expr
          rw [hN', PR.ok_bind, t2, PR.ok_bind, t3, PR.ok_bind]
          dsimp only
          rw [tk, if_neg (by rintro ⟨h, _⟩; cases h), if_neg (by simp), if_neg (by simp), if_pos rfl, h4.tok, PR.ok_bind,
            hN5', PR.ok_bind]
        all_goals cases hr
      case msg r ms =>
        unfold gram at hg
        simp only [Bool.and_eq_true, Bool.not_eq_true', List.isEmpty_eq_false_iff] at hg
        obtain ⟨⟨⟨hpr, hgr⟩, hne⟩, hgm⟩ := hg
        have e1 : lexemes d (.msg r ms) = lexemes d r ++ lexMsgs d false ms := by conv => lhs; unfold lexemes
        rw [e1] at h hn
        rw [List.length_append] at hn
        rw [List.append_assoc] at h
        obtain ⟨y, ys, hy, _⟩ := lex_head hgr
        have hpos : 1 ≤ (lexemes d r).length := by rw [hy]; simp
        obtain ⟨s1, l1, r1, N, hN⟩ := receiver_ok hd ih r _ s (by omega) hpr hgr h
        -- the first two lexemes of the messages
        have hfirst : ∃ w tl, lexMsgs d false ms ++ rest = .word w :: tl ∧ (k = 1 → kindOf tl ≠ .colon) := by
          cases ms with
          | nil => exact absurd rfl hne
          | cons m ms =>
            unfold lexMsgs
            rcases lex_msg hgm with ⟨w, rfl, hb, _, hg'⟩ | ⟨o, a, rfl, _, ho, hga, hg'⟩ | ⟨p, ps, a, as, rfl, h0, _⟩
            · refine ⟨w, lexMsgs d (isKw (.una w)) ms ++ rest, ?_, fun _ => after_msg hg' hf⟩
              unfold lexemes; rfl
            · refine ⟨o, lexemes d a ++ (lexMsgs d (isKw (.bin o a)) ms ++ rest), ?_, ?_⟩
              · have e2 : lexemes d (.bin o a) = .word o :: lexemes d a := by conv => lhs; unfold lexemes
                rw [e2]; simp
              · obtain ⟨z, zs, hz, hzc, _⟩ := lex_head hga
                intro _
                rw [hz]; exact kind_colon hzc
            · have e2 : lexemes d (.kw (p :: ps) (a :: as)) = .word p :: .colon :: (lexemes d a ++ lexArgs d ps as) := by
                conv => lhs; unfold lexemes lexArgs
                rfl
              rw [e2]
              exact ⟨p, _, rfl, fun h1 => by omega⟩
        obtain ⟨w, tl, hw, htl⟩ := hfirst
        obtain ⟨s2, s3, t2, t3, b1, b2⟩ := look2' hd l1 (by rw [hw]; intro l r h; cases h; rfl)
        have lb : Lay d (lexMsgs d false ms ++ rest) (back (back s3)).lx.code := by rw [b1]; exact l1
        obtain ⟨s4, l4, r4, N4, hN4⟩ := messages_ok hd ih k ms false [] false rest _ (by omega) hgm (fun _ => rfl) hf
          (by simpa using hne) lb
        refine ⟨s4, l4, by rw [r4, b2, r1], max N N4 + 1, ?_⟩
        intro m hm
        obtain ⟨m, rfl⟩ : ∃ m', m = m' + 1 := ⟨m - 1, by omega⟩
        show expr d (m + 1) k s = _
        have hN' := hN m (by omega)
        have hN4' := hN4 m (by omega)
        dsimp only at hN' hN4'
        rw [hw] at t2 t3
        have tk : kindOf (.word w :: tl) = .ref := rfl
        rw [tk] at t2
        have tk2 : (Lexeme.word w :: tl).tail = tl := rfl
        rw [tk2] at t3
        unfold expr
        rw [hN', PR.ok_bind, t2, PR.ok_bind, t3, PR.ok_bind]
        dsimp only
        rw [if_neg (by rintro ⟨h, _, h2⟩; exact htl h h2), if_neg (by simp), if_neg (by simp), if_neg (by simp),
          if_neg (by intro h; cases h), hN4', PR.ok_bind, if_neg (by simpa using hne)]
        rfl
      all_goals first | exact absurd rfl hp | (unfold gram at hg; cases hg)

/-! ## Fuel -/

/-- More fuel changes nothing but a missing answer. -/
def Le {α : Type} (a b : PR α) : Prop := a = .more ∨ a = b

theorem Le.refl {α : Type} (a : PR α) : Le a a := Or.inr rfl

theorem Le.bind {α β : Type} {a b : PR α} {f g : α → PS → PR β} (h : Le a b) (hf : ∀ x s, Le (f x s) (g x s)) :
    Le (a.bind f) (b.bind g) := by
  rcases h with rfl | rfl
  · exact Or.inl rfl
  · cases a with
    | ok x s => exact hf x s
    | _ => exact Or.inr rfl

theorem Le.ite {α : Type} {c : Prop} [Decidable c] {a b a' b' : PR α} (h1 : c → Le a a') (h2 : ¬ c → Le b b') :
    Le (if c then a else b) (if c then a' else b') := by
  by_cases h : c
  · rw [if_pos h, if_pos h]; exact h1 h
  · rw [if_neg h, if_neg h]; exact h2 h

theorem params_mono {d : Dict} (n : Nat) : ∀ ps t s, Le (params d n ps t s) (params d (n + 1) ps t s) := by
  induction n with
  | zero => intro ps t s; exact Or.inl rfl
  | succ n ih =>
    intro ps t s
    rw [params, params]
    refine Le.ite (fun _ => ?_) (fun _ => Le.refl _)
    exact Le.bind (Le.refl _) fun _ _ => Le.bind (Le.refl _) fun _ _ => ih _ _ _

/-- All of the parser at fuel `n`. -/
structure Mono (d : Dict) (n : Nat) : Prop where
  expr : ∀ k s, Le (expr d n k s) (expr d (n + 1) k s)
  receiver : ∀ s, Le (receiver d n s) (receiver d (n + 1) s)
  statements : ∀ a s, Le (statements d n a s) (statements d (n + 1) a s)
  messages : ∀ k a b s, Le (messages d n k a b s) (messages d (n + 1) k a b s)
  message : ∀ k s, Le (message d n k s) (message d (n + 1) k s)
  keywords : ∀ ps as s, Le (keywords d n ps as s) (keywords d (n + 1) ps as s)

theorem mono {d : Dict} (n : Nat) : Mono d n := by
  induction n with
  | zero =>
    constructor <;> intros <;> left
    · unfold expr; rfl
    · unfold receiver; rfl
    · unfold statements; rfl
    · unfold messages; rfl
    · unfold message; rfl
    · unfold keywords; rfl
  | succ n ih =>
    constructor
    · intro k s
      rw [expr, expr]
      refine Le.bind (ih.receiver _) fun r s => Le.bind (Le.refl _) fun _ _ => Le.bind (Le.refl _) fun _ _ => ?_
      refine Le.ite (fun _ => Le.refl _) fun _ => Le.ite (fun _ => Le.refl _) fun _ => Le.ite (fun _ => Le.refl _) fun _ =>
        Le.ite (fun _ => ?_) fun _ => Le.ite (fun _ => Le.refl _) fun _ => ?_
      · cases r <;> first
          | exact Le.bind (Le.refl _) fun _ _ => Le.bind (ih.expr _ _) fun _ _ => Le.refl _
          | exact Le.refl _
      · exact Le.bind (ih.messages _ _ _ _) fun _ _ => Le.refl _
    · intro s
      rw [receiver, receiver]
      refine Le.bind (Le.refl _) fun t s => ?_
      cases t
      case blockOpen =>
        refine Le.bind (Le.refl _) fun _ _ => Le.bind (Le.refl _) fun t s => Le.ite (fun _ => Le.refl _) fun _ => ?_
        exact Le.bind (params_mono _ _ _ _) fun _ _ => Le.bind (ih.statements _ _) fun _ _ => Le.refl _
      case parOpen =>
        exact Le.bind (Le.refl _) fun _ _ => Le.bind (ih.expr _ _) fun _ _ => Le.refl _
      all_goals exact Le.refl _
    · intro a s
      rw [statements, statements]
      refine Le.bind (Le.refl _) fun t s => Le.ite (fun _ => Le.refl _) fun _ => ?_
      refine Le.bind (Le.ite (fun _ => ?_) fun _ => ih.expr _ _) fun _ _ => Le.bind (Le.refl _) fun _ _ =>
        Le.ite (fun _ => ih.statements _ _) fun _ => Le.refl _
      exact Le.bind (Le.refl _) fun _ _ => Le.bind (ih.expr _ _) fun _ _ => Le.refl _
    · intro k a b s
      rw [messages, messages]
      refine Le.bind (Le.refl _) fun t s => Le.ite (fun _ => ?_) fun _ => Le.refl _
      refine Le.bind (Le.refl _) fun _ _ => Le.bind (ih.message _ _) fun m s => ?_
      cases m with
      | none => exact Le.refl _
      | some m => exact ih.messages _ _ _ _
    · intro k s
      rw [message, message]
      refine Le.bind (Le.refl _) fun _ s => Le.ite (fun _ => Le.refl _) fun _ => ?_
      refine Le.bind (Le.refl _) fun _ s => Le.bind (Le.refl _) fun _ s => Le.ite (fun _ => Le.refl _) fun _ =>
        Le.ite (fun _ => Le.bind (ih.expr _ _) fun _ _ => Le.refl _) fun _ => ?_
      refine Le.bind (Le.refl _) fun _ s => Le.ite (fun _ => Le.ite (fun _ => Le.refl _) fun _ =>
        Le.ite (fun _ => Le.refl _) fun _ => ?_) fun _ => Le.refl _
      exact Le.bind (Le.refl _) fun _ _ => ih.keywords _ _ _
    · intro ps as s
      rw [keywords, keywords]
      refine Le.bind (ih.expr _ _) fun _ s => Le.bind (Le.refl _) fun _ _ => Le.ite (fun _ => Le.refl _) fun _ =>
        Le.ite (fun _ => ?_) fun _ => ih.keywords _ _ _
      refine Le.ite (fun _ => Le.refl _) fun _ => Le.ite (fun _ => Le.refl _) fun _ => ?_
      exact Le.bind (Le.refl _) fun _ _ => ih.keywords _ _ _

theorem program_mono1 {d : Dict} (n : Nat) : ∀ a s, Le (program d n a s) (program d (n + 1) a s) := by
  induction n with
  | zero => intro a s; exact Or.inl rfl
  | succ n ih =>
    intro a s
    rw [program, program]
    refine Le.bind (Le.refl _) fun t s => Le.ite (fun _ => Le.refl _) fun _ => ?_
    refine Le.bind (Le.ite (fun _ => ?_) fun _ => (mono n).expr _ _) fun _ _ => Le.bind (Le.refl _) fun _ _ =>
      Le.ite (fun _ => ih _ _) fun _ => Le.refl _
    exact Le.bind (Le.refl _) fun _ _ => Le.bind ((mono n).expr _ _) fun _ _ => Le.refl _

theorem program_mono {d : Dict} {n : Nat} {a : List Node} {s : PS} (h : program d n a s ≠ .more) (m : Nat) :
    program d (n + m) a s = program d n a s := by
  induction m with
  | zero => rfl
  | succ m ih =>
    rcases program_mono1 (d := d) (n + m) a s with h1 | h1
    · rw [ih] at h1
      exact absurd h1 h
    · rw [← ih, h1]
      rfl

/-! ## Programs -/

theorem program_ok {d : Dict} (hd : GoodDict d) (es acc : List Node) (s : PS) (hg : gramStmts d es = true)
    (h : Lay d (lexStmts d es) s.lx.code) :
    ∃ s', s'.err = s.err ∧ ∃ N, ∀ m, N ≤ m → program d m acc s = .ok (acc ++ es) s' := by
  induction es generalizing acc s with
  | nil =>
    have h' : Lay d [] s.lx.code := by unfold lexStmts at h; exact h
    obtain ⟨s1, h1⟩ := rd hd h'
    obtain ⟨s2, h2⟩ := rd hd (s := back s1) (by rw [h1.again.1]; exact h')
    refine ⟨s2, by rw [h2.err, h1.again.2.2], 1, ?_⟩
    intro m hm
    obtain ⟨m, rfl⟩ : ∃ m', m = m' + 1 := ⟨m - 1, by omega⟩
    rw [program, h1.tok, PR.ok_bind]
    dsimp only
    rw [if_pos (show kindOf [] = Tok.fin from rfl), h2.tok, PR.ok_bind, List.append_nil]
  | cons e es ih =>
    by_cases hret : ∃ e', e = .ret e'
    · obtain ⟨e', rfl⟩ := hret
      have e1 : lexStmts d (.ret e' :: es) = .ret :: (lexemes d e' ++ .eol :: lexStmts d es) := by
        conv => lhs; unfold lexStmts lexemes
        simp
      rw [e1] at h
      unfold gramStmts at hg
      rw [Bool.and_eq_true] at hg
      obtain ⟨s1, h1⟩ := rd hd h
      obtain ⟨s2, h2⟩ := rd hd (s := back s1) (by rw [h1.again.1]; exact h)
      obtain ⟨s3, l3, r3, N3, hN3⟩ := expr_ok hd _ e' 0 (.eol :: lexStmts d es) s2 (Nat.le_refl _) hg.1 (by omega)
        (Or.inr (Or.inl ⟨_, rfl⟩)) (h2.lay _ _ rfl rfl).2
      obtain ⟨s4, h4⟩ := rd hd l3
      obtain ⟨s5, r5, N5, hN5⟩ := ih (acc ++ [.ret e']) s4 hg.2 (h4.lay _ _ rfl rfl).2
      refine ⟨s5, by rw [r5, h4.err, r3, h2.err, h1.again.2.2], max N3 N5 + 1, ?_⟩
      intro m hm
      obtain ⟨m, rfl⟩ : ∃ m', m = m' + 1 := ⟨m - 1, by omega⟩
      have hN3' := hN3 m (by omega)
      dsimp only at hN3'
      rw [program, h1.tok, PR.ok_bind]
      dsimp only
      rw [if_neg (by intro h; cases h), if_pos (show kindOf (Lexeme.ret :: _) = Tok.ret from rfl), h2.tok, PR.ok_bind, hN3',
        PR.ok_bind, PR.ok_bind, h4.tok, PR.ok_bind, if_pos (show kindOf (Lexeme.eol :: _) = Tok.dot from rfl),
        hN5 m (by omega), List.append_assoc]
      rfl
    · have hg' : gram d 0 e = true ∧ gramStmts d es = true := by
        cases e <;> first | (exact absurd ⟨_, rfl⟩ hret) | (unfold gramStmts at hg; rw [Bool.and_eq_true] at hg; exact hg)
      have e1 : lexStmts d (e :: es) = lexemes d e ++ .eol :: lexStmts d es := by
        conv => lhs; unfold lexStmts
      rw [e1] at h
      obtain ⟨l, ls, k1, k2, k3, k4⟩ := lex_head hg'.1
      obtain ⟨s1, h1⟩ := rd hd h
      obtain ⟨s3, l3, r3, N3, hN3⟩ := expr_ok hd _ e 0 (.eol :: lexStmts d es) (back s1) (Nat.le_refl _) hg'.1 (by omega)
        (Or.inr (Or.inl ⟨_, rfl⟩)) (by rw [h1.again.1]; exact h)
      obtain ⟨s4, h4⟩ := rd hd l3
      obtain ⟨s5, r5, N5, hN5⟩ := ih (acc ++ [e]) s4 hg'.2 (h4.lay _ _ rfl rfl).2
      refine ⟨s5, by rw [r5, h4.err, r3, h1.again.2.2], max N3 N5 + 1, ?_⟩
      intro m hm
      obtain ⟨m, rfl⟩ : ∃ m', m = m' + 1 := ⟨m - 1, by omega⟩
      have hN3' := hN3 m (by omega)
      dsimp only at hN3'
      have hk : kindOf (lexemes d e ++ .eol :: lexStmts d es) = kind l := by rw [k1]; rfl
      have hk2 : kind l ≠ .fin := by cases l <;> (intro h; cases h)
      have hk3 : kind l ≠ .ret := by cases l <;> first | exact absurd rfl k4 | (intro h; cases h)
      rw [program, h1.tok, PR.ok_bind, hk]
      dsimp only
      rw [if_neg hk2, if_neg hk3, hN3',
        PR.ok_bind, h4.tok, PR.ok_bind, if_pos (show kindOf (Lexeme.eol :: _) = Tok.dot from rfl),
        hN5 m (by omega), List.append_assoc]
      rfl

/-- The round trip. -/
theorem parse_ok {d : Dict} (hd : GoodDict d) {es : List Node} {prg : Text} (hg : gramStmts d es = true)
    (h : Lay d (lexStmts d es) prg) : ∃ s', s'.err = false ∧ parse d prg = .ok es s' := by
  obtain ⟨s', h1, N, hN⟩ := program_ok hd es [] ⟨Lexer.load prg, false⟩ hg h
  refine ⟨s', h1, ?_⟩
  have hne : program d (4 * prg.length + 8) [] ⟨Lexer.load prg, false⟩ ≠ .more :=
    (program_fine hd.1 _ _ _ (by show 4 * prg.length + 3 ≤ 4 * prg.length + 8; omega)).ne_more
  unfold parse
  rw [← program_mono hne N, hN _ (by omega)]
  rfl

end Verif.Model.Parser
