import Verif.Lemmas.LexerTok

/-!
# Properties of the lexer: C32, C33, C49, C50, C51
-/

namespace Verif.Props.Lexer
open Verif.Model Verif.Model.Lexer
open Verif.Spec (Dict english)
open Verif.Spec.Lexer

/-- A dictionary with typographic quotes and other symbols of several bytes (the symbols of `i18n/zh`, with the
thousands separator of `i18n/cs`). -/
def unicode : Dict where
  eol := [0xe3, 0x80, 0x82]
  chain := [44]
  assign := [0xe2, 0x89, 0x94]
  ret := [0xe2, 0x86, 0xb2]
  qo := [0xe2, 0x80, 0x98]
  qc := [0xe2, 0x80, 0x99]
  tho := [0xe2, 0x80, 0x89]
  dec := [44]
  my := [0xe2, 0x9a, 0xbf]
  var := [0xe2, 0x98, 0x9e]
  param := 58

/-! ## C32: `code` and back -/

/-- Reads a text literal at the start of a program: the token, the text, and what remains. -/
def readLiteral (d : Dict) (prg : Text) : Out (Tok × Text × Text) := do
  let (t, s) ← tok d (load prg)
  let s ← readstrS d false s
  .ok (t, s.val, s.code)

/-- C32, part: a text without NUL, backslash or the symbols for line break and tabulator, without a piece of a quote at
its end, and with quotes among its first 128 bytes only, is read back unchanged from its `code`, whatever follows.
Missing: the other texts (see `C32_violated`). -/
theorem C32_partial (d : Dict) (hu : Usable d) (hg : GoodQuotes d) (t : Text) (h : Survives d t) :
    ∃ c, toCode d t = .ok c ∧ ∀ k, readLiteral d (c ++ k) = .ok (.quote, t, k) := by
  refine ⟨_, toCode_eq d hg h, fun k => ?_⟩
  unfold readLiteral tok load
  dsimp only
  rw [List.append_assoc, List.append_assoc, scan_quote d hu.2.2.2.2.1 hg, Out.ok_bind, Out.ok_bind]
  unfold readstrS
  dsimp only
  rw [readstr_enc d hu.2.2.2.2 hg k t (fit_of_survives h)]
  rfl

/-- English: `say ['hi'], "x"` with a line break and a quote. -/
example : Usable english ∧ GoodQuotes english ∧
    Survives english [115, 97, 121, 10, 91, 39, 104, 105, 39, 93, 44, 34, 120, 34] := by decide +kernel

/-- Typographic quotes, and a text with such quotes and a non-ASCII letter. -/
example : Usable unicode ∧ GoodQuotes unicode ∧
    Survives unicode [0xe2, 0x80, 0x98, 0xc3, 0xa9, 0xe2, 0x80, 0x99, 46] := by decide +kernel

/-- C32 fails: a backslash in front of a letter, the symbol for a line break, a quote after the first 128 bytes, and a
NUL byte change the text; for a text that ends in the middle of a quote, memory behind the text is read. -/
theorem C32_violated :
    (∃ t c v k, toCode english t = .ok c ∧ readLiteral english c = .ok (.quote, v, k) ∧ t = [92, 110] ∧ v = [10]) ∧
    (∃ t c v k, toCode english t = .ok c ∧ readLiteral english c = .ok (.quote, v, k) ∧
      t = [0xe2, 0x86, 0xb5] ∧ v = [10]) ∧
    (∃ t c v k, toCode english t = .ok c ∧ readLiteral english c = .ok (.quote, v, k) ∧
      t = List.replicate 128 97 ++ [39, 93, 98] ∧ v = List.replicate 128 97) ∧
    (∃ t c v k, toCode english t = .ok c ∧ readLiteral english c = .ok (.quote, v, k) ∧ t = [97, 97, 97, 0, 98] ∧
      v = [97]) ∧
    toCode english [104, 105, 39] = .ub := by
  refine ⟨⟨_, _, _, [], rfl, ?_, rfl, rfl⟩, ⟨_, _, _, [], rfl, ?_, rfl, rfl⟩,
    ⟨_, [91, 39] ++ List.replicate 128 97 ++ [39, 93, 98, 39, 93], _, [98, 39, 93], ?_, ?_, rfl, rfl⟩,
    ⟨_, _, _, [], rfl, ?_, rfl, rfl⟩, ?_⟩ <;> decide +kernel

/-! ## C51: nested quotes -/

/-- C51: a text literal may contain quoted pieces, to any depth: it ends at the closing quote that belongs to its
opening quote, and the bytes in between are the text. -/
theorem C51 (d : Dict) (hu : Usable d) (hg : GoodQuotes d) (ha : ApartQuotes d) (body k : Text)
    (h : Nested d body (d.qc ++ k)) : readLiteral d (d.qo ++ body ++ d.qc ++ k) = .ok (.quote, body, k) := by
  unfold readLiteral tok load
  dsimp only
  have e : d.qo ++ body ++ d.qc ++ k = d.qo ++ (body ++ (d.qc ++ k)) := by simp only [List.append_assoc]
  rw [e, scan_quote d hu.2.2.2.2.1 hg, Out.ok_bind, Out.ok_bind]
  unfold readstrS
  dsimp only
  rw [readstr_nested d hu.2.2.2.2 hg ha h]
  rfl

/-- `a['b['c']']d`, in English, followed by `.`. -/
example : ApartQuotes english ∧ Nested english
    [97, 91, 39, 98, 91, 39, 99, 39, 93, 39, 93, 100] (english.qc ++ [46]) :=
  ⟨by decide +kernel, .byte (by decide) (by decide +kernel)
    (.quoted (b := [98, 91, 39, 99, 39, 93]) (rest := [100])
      (.byte (by decide) (by decide +kernel)
        (.quoted (b := [99]) (rest := []) (.byte (by decide) (by decide +kernel) (.nil _)) (.nil _)))
      (.byte (by decide) (by decide +kernel) (.nil _)))⟩

/-- The typographic quotes are apart as well. -/
example : ApartQuotes unicode := by decide +kernel

/-! ## C33: the token buffer -/

/-- The lexer functions the parser calls. -/
inductive Call where
  | tok | putback | read

/-- One call. -/
def call (d : Dict) (s : LS) : Call → Out LS
  | .tok => do
    let (_, s) ← tok d s
    .ok s
  | .putback => .ok (putback s)
  | .read => readstrS d false s

/-- Any sequence of calls. -/
def calls (d : Dict) : List Call → LS → Out LS
  | [], s => .ok s
  | c :: cs, s => do
    let s ← call d s c
    calls d cs s

/-- C33, part: in a program without 256 consecutive bytes free of blanks, whatever sequence of tokens, put-backs and
text literals is read, no buffer is overrun. Missing: longer words, see `C33_violated`. -/
theorem C33_partial (d : Dict) (hs : SolidSeparators d) (hq : d.qo.length ≤ 10 ∧ d.qc.length ≤ 10)
    (hu : Usable d) (prg : Text) (hp : ShortWords prg) (cs : List Call) : ∃ s, calls d cs (load prg) = .ok s := by
  suffices H : ∀ (cs : List Call) (s : LS), s.code <:+ prg → s.old <:+ prg → s.older <:+ prg →
      ∃ s', calls d cs s = .ok s' from H cs (load prg) (List.suffix_refl _) (List.suffix_refl _) (List.suffix_refl _)
  intro cs
  induction cs with
  | nil => intro s _ _ _; exact ⟨s, rfl⟩
  | cons c cs ih =>
    intro s h1 h2 h3
    unfold calls
    cases c with
    | tok =>
      have hsk := List.IsSuffix.trans (skip_suffix false s.code) h1
      obtain ⟨⟨t, v, rest⟩, hsc⟩ := scan_safe d hs _ (wd_short (shortWords_suffix hp hsk))
      have ht : tok d s = .ok (t, ⟨rest, s.code, s.old, v⟩) := by unfold tok; rw [hsc]; rfl
      have hr := (tok_suffix hu ht).1
      unfold call
      rw [ht]
      exact ih _ (List.IsSuffix.trans hr h1) h1 h2
    | putback => exact ih _ h2 h3 h3
    | read =>
      obtain ⟨v, rest, h4, h5⟩ := readstr_safe d hq false s.code
      unfold call readstrS
      rw [h4]
      exact ih _ (List.IsSuffix.trans h5 h1) h2 h3

/-- A program of 400 bytes with two words of 199 bytes, in English. -/
example : SolidSeparators english ∧ (english.qo.length ≤ 10 ∧ english.qc.length ≤ 10) ∧ Usable english ∧
    ShortWords (List.replicate 199 97 ++ [32] ++ List.replicate 199 98 ++ [46]) := by decide +kernel

/-- C33: reading a text literal never overruns its buffer, whatever the program is (also in the mode of the
translator). -/
theorem C33_literals (d : Dict) (hq : d.qo.length ≤ 10 ∧ d.qc.length ≤ 10) (ig : Bool) (prg : Text) :
    ∃ v rest, readstr d ig prg = .ok (v, rest) ∧ rest <:+ prg := readstr_safe d hq ig prg

/-- A literal of 300 bytes, longer than the first allocation of 100 bytes. -/
example : (readstr english false (List.replicate 300 97 ++ [39, 93])).sat (fun p => p.1.length == 300) = true := by
  decide +kernel

/-- C33 fails: a name of 256 bytes and a number of 256 digits are stored beyond the end of the buffer; a name of 255
bytes is the longest one that is not. -/
theorem C33_violated :
    calls english [.tok] (load (List.replicate 256 97)) = .ub ∧
    calls english [.tok] (load (List.replicate 256 49)) = .ub ∧
    ∃ s, calls english [.tok] (load (List.replicate 255 97)) = .ok s ∧ s.val = List.replicate 255 97 := by
  refine ⟨Out.of_isUb (by decide +kernel), Out.of_isUb (by decide +kernel), ?_⟩
  obtain ⟨s, h1, h2⟩ := Out.of_sat (o := calls english [.tok] (load (List.replicate 255 97)))
    (p := fun s => s.val == List.replicate 255 97) (by decide +kernel)
  exact ⟨s, h1, eq_of_beq h2⟩

/-! ## C49: progress -/

/-- C49: every token other than the end of the program takes at least one byte, tokens are read from left to right, and
the end of the program is reported exactly when nothing but blanks and comments is left. -/
theorem C49_progress (d : Dict) (hu : Usable d) (s s' : LS) (t : Tok) (h : tok d s = .ok (t, s')) :
    s'.code <:+ s.code ∧ (t ≠ .fin → s'.code.length < s.code.length) ∧ (t = .fin ↔ Gap s.code []) := by
  obtain ⟨h1, h2⟩ := tok_suffix hu h
  refine ⟨h1, fun hf => ?_, ?_⟩
  · rcases h2 with h2 | h2
    · exact absurd h2.1 hf
    · exact h2.2
  · constructor
    · intro hf
      rcases h2 with h2 | h2
      · obtain ⟨pre, h3, h4, _⟩ := skip_gap false s.code
        rw [h2.2.1, List.append_nil] at h3
        have h4 := h4 rfl
        rw [h2.2.1, ← h3] at h4
        exact h4
      · exact absurd hf h2.1
    · intro hg
      have hsk : ∀ {pre after : Text}, Gap pre after → after = [] → skip false pre = [] := by
        intro pre after hg
        induction hg with
        | none => intro _; rfl
        | @blank c pre after hb _ ih =>
          intro h
          unfold skip
          rw [if_pos (by rw [isSpace_eq]; exact hb)]
          exact ih h
        | @comment b pre after hb _ ih =>
          intro h
          show skip false (35 :: (b ++ 10 :: pre)) = []
          unfold skip
          rw [if_neg (by decide), if_pos (by decide)]
          clear hg
          induction b with
          | nil => rw [List.nil_append]; unfold skip; rw [if_pos (by decide)]; exact ih h
          | cons x b ihb =>
            rw [List.cons_append]
            unfold skip
            rw [if_neg (by simpa using hb x List.mem_cons_self)]
            exact ihb (fun c hc => hb c (List.mem_cons_of_mem _ hc))
        | @last b hb =>
          intro _
          unfold skip
          rw [if_neg (by decide), if_pos (by decide)]
          clear hg
          induction b with
          | nil => rfl
          | cons x b ihb =>
            unfold skip
            rw [if_neg (by simpa using hb x List.mem_cons_self)]
            exact ihb (fun c hc => hb c (List.mem_cons_of_mem _ hc))
      have h3 := (tok_code h).1
      rw [hsk hg rfl] at h3
      unfold scan at h3
      simp only [Out.ok.injEq, Prod.mk.injEq] at h3
      exact h3.1.symm

/-- `x # c` reads a reference, then the end. -/
example : (tok english (load [120, 32, 35, 99])).sat (fun p => p.1 == .ref && p.2.code == [32, 35, 99]) = true := by
  decide +kernel

/-- C49: reading tokens ends: after as many tokens as the program has bytes, the end has been reached. -/
theorem C49_ends (d : Dict) (hu : Usable d) (prg : Text) (s : LS)
    (h : calls d (List.replicate prg.length .tok) (load prg) = .ok s) : ∃ s', tok d s = .ok (.fin, s') := by
  suffices H : ∀ (n : Nat) (s0 : LS), s0.code.length ≤ n → calls d (List.replicate n .tok) s0 = .ok s → s.code = [] by
    have hs := H prg.length (load prg) (Nat.le_refl _) h
    exact ⟨_, by unfold tok; rw [hs]; rfl⟩
  intro n
  induction n with
  | zero =>
    intro s0 hl h
    cases h
    exact List.length_eq_zero_iff.1 (by omega)
  | succ n ih =>
    intro s0 hl h
    rw [List.replicate_succ] at h
    unfold calls at h
    obtain ⟨s1, h1, h2⟩ := Out.bind_eq_ok.1 h
    unfold call at h1
    obtain ⟨⟨t, s2⟩, h3, h4⟩ := Out.bind_eq_ok.1 h1
    cases h4
    refine ih s1 ?_ h2
    rcases (tok_suffix hu h3).2 with h5 | h5
    · rw [h5.2.2]; simp
    · omega

/-- `a b` in three calls. -/
example : (calls english (List.replicate 3 .tok) (load [97, 32, 98])).sat (fun s => s.code == []) = true := by
  decide +kernel

/-! ## C50: the value of a token -/

/-- C50, part: a reference is the longest piece of the program without delimiters at its place, and its value is exactly
that piece if there is no `#` in it. Missing: words with `#`, see `C50_violated`. -/
theorem C50_partial (d : Dict) (hu : Usable d) (s s' : LS) (h : tok d s = .ok (.ref, s')) :
    ∃ pre w : Text, s.code = pre ++ w ++ s'.code ∧ Gap pre (w ++ s'.code) ∧ w ≠ [] ∧
      (35 ∉ w → s'.val = w) ∧ Stops d s'.code ∧
      (∀ i < w.length, ∀ K ∈ [d.eol, d.qo, d.assign, d.chain], ¬ K <+: w.drop i ++ s'.code) ∧
      (∀ c ∈ w, c ∉ [40, 41, d.param] ∧ blank c = false) := by
  obtain ⟨pre, h1, h2, _⟩ := skip_gap false s.code
  have h3 := scan_ref (tok_code h).1
  obtain ⟨w, h4, h5, h6, h7⟩ := refLoop_val d hu.2.2.1 h3
  have hw : w ≠ [] := by
    rintro rfl
    rcases (tok_suffix hu h).2 with h8 | h8
    · exact absurd h8.1 (by simp)
    · rcases (scan_suffix d hu (fun c r h => (skip_head h).1) (tok_code h).1).2 with h9 | h9
      · exact absurd h9.1 (by simp)
      · rw [List.nil_append] at h4
        rw [h4] at h9; omega
  have hpos : 0 < w.length := List.length_pos_iff.2 hw
  refine ⟨pre, w, by rw [List.append_assoc, ← h4]; exact h1, by rw [← h4]; exact h2 rfl, hw, ?_, h6,
    fun i hi => (h7 i hi).1, (h7 0 hpos).2⟩
  intro hn
  have := h5 hn
  rwa [List.nil_append] at this

/-- ` ab:` after a blank. -/
example : (tok english (load [32, 97, 98, 58])).sat (fun p => p.1 == .ref && p.2.val == [97, 98]) = true := by
  decide +kernel

/-- C50 fails: the comment sign inside of a word does not start a comment, and `ab#cd` is read as the name `acd`. -/
theorem C50_violated : ∃ s', tok english (load [97, 98, 35, 99, 100]) = .ok (.ref, s') ∧ s'.val = [97, 99, 100] :=
  ⟨_, rfl, by decide +kernel⟩

/-- C50: a number token consists of an optional minus sign, groups of digits separated by the thousands separator of the
language, and possibly its decimal separator with digits; its value is the same number without separators and with a
decimal point. -/
theorem C50_number (d : Dict) (hdec : d.dec.length = 1) (s s' : LS) (h : tok d s = .ok (.number, s')) :
    ∃ (pre sign : Text) (gs : List Text) (f : Text),
      s.code = pre ++ (sign ++ d.tho.intercalate gs ++ fraction d.dec f) ++ s'.code ∧
      Gap pre (sign ++ d.tho.intercalate gs ++ fraction d.dec f ++ s'.code) ∧
      (sign = [] ∨ sign = [45]) ∧ gs ≠ [] ∧ (∀ g ∈ gs, g ≠ [] ∧ ∀ c ∈ g, digit c = true) ∧
      (∀ c ∈ f, digit c = true) ∧ s'.val = sign ++ gs.flatten ++ fraction [46] f := by
  obtain ⟨pre, h1, h2, _⟩ := skip_gap false s.code
  obtain ⟨c, r, h3, h4, h5⟩ := scan_number (tok_code h).1
  obtain ⟨sign, gs, f, h6, h7, h8, h9, h10, h11⟩ := number_val d hdec h5 h4
  refine ⟨pre, sign, gs, f, ?_, ?_, h6, h7, h8, h9, h11⟩
  · rw [h3, h10] at h1
    rw [h1]
    simp only [List.append_assoc]
  · rw [← h10, ← h3]; exact h2 rfl

/-- `-1,234.50.` in English. -/
example : english.dec.length = 1 ∧ (tok english (load [45, 49, 44, 50, 51, 52, 46, 53, 48, 46])).sat
    (fun p => p.1 == .number && p.2.val == [45, 49, 50, 51, 52, 46, 53, 48] && p.2.code == [46]) = true := by
  decide +kernel

end Verif.Props.Lexer
