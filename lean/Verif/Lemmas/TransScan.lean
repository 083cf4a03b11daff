import Verif.Model.TransProg
import Verif.Spec.TransProg
import Verif.Lemmas.LexerFwd

/-!
# Lemmas about translating programs: looking ahead

`forward` passes over the pieces of an argument, whatever stands in parentheses, blocks and texts, and stops at the end of
the argument.
-/

namespace Verif.Lemmas.TransProg
open Verif.Model Verif.Model.TransProg
open Verif.Model.Lexer (isDigit digitAt digitAt_starts pfx_false pfx_iff isDigit_eq startsNone_mem isSpace_eq apart_pfx
  pfx_self)
open Verif.Spec (Dict Node)
open Verif.Spec.Lexer Verif.Spec.Parser
open Verif.Spec.Retell

/-! ## One byte -/

theorem still_calm {d : Dict} {s : Text} (h : Calm d s) : stillNumber d s = false := by
  have hk : ∀ K ∈ [d.dec, d.tho], sepGoes K s = false := by
    intro K hK
    unfold sepGoes
    by_cases hp : K <+: s
    · rw [digitAt_starts, h.2 K hK hp, Bool.and_false]
    · rw [pfx_false.2 hp, Bool.and_false, Bool.false_and]
  unfold stillNumber
  rw [digitAt_starts, h.1, hk d.dec (by simp), hk d.tho (by simp)]
  rfl

/-- Where no number can go on, the flag does not matter. -/
theorem forward_calm {d : Dict} {n b : Nat} {q f : Bool} {s : Text} (h : Calm d s) :
    forward d ⟨n, b, q, f⟩ s = forward d ⟨n, b, q, false⟩ s := by
  cases s with
  | nil => rfl
  | cons c r =>
    unfold forward
    dsimp only
    rw [still_calm h, Bool.and_false, Bool.and_false]

theorem flat_iff {c : UInt8} : flat c = true ↔ c ≠ 40 ∧ c ≠ 41 ∧ c ≠ 123 ∧ c ≠ 125 := by
  unfold flat
  simp

/-- A byte outside texts that is no parenthesis and starts no text: only the flag changes, unless it is one to stop at. -/
theorem forward_byte {d : Dict} {n b : Nat} {f : Bool} {c : UInt8} {r : Text} (hc : flat c = true)
    (hq : d.qo.isPrefixOf (c :: r) = false)
    (hs : 0 < n ∨ 0 < b ∨ (c ≠ d.param ∧ d.eol.isPrefixOf (c :: r) = false ∧ d.chain.isPrefixOf (c :: r) = false)) :
    ∃ f', (digit c = false → f = false → f' = false) ∧
      forward d ⟨n, b, false, f⟩ (c :: r) = forward d ⟨n, b, false, f'⟩ r := by
  obtain ⟨h1, h2, h3, h4⟩ := flat_iff.1 hc
  conv => enter [1, f', 2]; lhs; unfold forward
  dsimp only
  rw [if_neg (by simp [h1]), if_neg (by simp [h2]), if_neg (by simp [h3]), if_neg (by simp [h4]), if_neg (by simp [hq]),
    if_neg (by simp), if_neg (by simp)]
  by_cases hd : (f && stillNumber d (c :: r)) = false ∧ isDigit c = true
  · refine ⟨true, ?_, by rw [if_pos hd]⟩
    intro h
    rw [isDigit_eq, h] at hd
    cases hd.2
  · refine ⟨f && stillNumber d (c :: r), fun _ h => by rw [h]; rfl, ?_⟩
    rw [if_neg hd, if_neg]
    rintro ⟨a1, _, a3, _, a5⟩
    rcases hs with hs | hs | ⟨b1, b2, b3⟩
    · omega
    · omega
    · rcases a5 with h | h | h | h
      · rw [b3] at h; cases h
      · rw [b2] at h; cases h
      · exact h2 h
      · exact b1 h

/-- Stopping. -/
theorem forward_stop {d : Dict} {c : UInt8} {r : Text} (hc : c ≠ 40 ∧ c ≠ 123 ∧ digit c = false)
    (hq : d.qo.isPrefixOf (c :: r) = false)
    (hs : c = d.param ∨ d.eol.isPrefixOf (c :: r) = true ∨ d.chain.isPrefixOf (c :: r) = true ∨ c = 41) :
    forward d ⟨0, 0, false, false⟩ (c :: r) = some (c :: r) := by
  unfold forward
  dsimp only
  rw [if_neg (by simp [hc.1]), if_neg (by simp), if_neg (by simp [hc.2.1]), if_neg (by simp), if_neg (by simp [hq]),
    if_neg (by simp), if_neg (by simp), if_neg (by rw [isDigit_eq, hc.2.2]; simp), if_pos]
  refine ⟨rfl, rfl, rfl, rfl, ?_⟩
  rcases hs with h | h | h | h
  · exact .inr (.inr (.inr h))
  · exact .inr (.inl h)
  · exact .inl h
  · exact .inr (.inr (.inl h))

/-! ## Several bytes -/

theorem quiet_tail {d : Dict} {c : UInt8} {b rest : Text} (h : Quiet d (c :: b) rest) : Quiet d b rest := by
  intro i hi
  have := h (i + 1) (by simpa using hi)
  simpa using this

/-- Bytes to pass over at any depth. -/
theorem forward_quiet {d : Dict} {n b : Nat} {w rest : Text} (h : Quiet d w rest) (f : Bool) :
    ∃ f', ((∀ c ∈ w, digit c = false) → f = false → f' = false) ∧
      forward d ⟨n, b, false, f⟩ (w ++ rest) = forward d ⟨n, b, false, f'⟩ rest := by
  induction w generalizing f with
  | nil => exact ⟨f, fun _ h => h, rfl⟩
  | cons c w ih =>
    have h0 := h 0 (by simp)
    simp only [List.drop_zero, List.take_succ_cons, List.take_zero, List.mem_singleton, forall_eq] at h0
    obtain ⟨⟨h1, h2⟩, h3⟩ := h0
    obtain ⟨f1, g1, e1⟩ := forward_byte (d := d) (n := n) (b := b) (f := f) (r := w ++ rest) h1 (startsNone_mem h3 (by simp))
      (.inr (.inr ⟨h2, startsNone_mem h3 (by simp), startsNone_mem h3 (by simp)⟩))
    obtain ⟨f2, g2, e2⟩ := ih (quiet_tail h) f1
    refine ⟨f2, fun hh hf => g2 (fun c hc => hh c (List.mem_cons_of_mem _ hc)) (g1 (hh c List.mem_cons_self) hf), ?_⟩
    rw [List.cons_append, e1, e2]

/-- Bytes to pass over inside parentheses or a block. -/
theorem forward_deep {d : Dict} {n b : Nat} (hn : 0 < n ∨ 0 < b) {w rest : Text} (h : ∀ c ∈ w, flat c = true)
    (hq : ∀ i < w.length, d.qo.isPrefixOf (w.drop i ++ rest) = false) (f : Bool) :
    ∃ f', ((∀ c ∈ w, digit c = false) → f = false → f' = false) ∧
      forward d ⟨n, b, false, f⟩ (w ++ rest) = forward d ⟨n, b, false, f'⟩ rest := by
  induction w generalizing f with
  | nil => exact ⟨f, fun _ h => h, rfl⟩
  | cons c w ih =>
    have h0 := hq 0 (by simp)
    obtain ⟨f1, g1, e1⟩ := forward_byte (d := d) (n := n) (b := b) (f := f) (r := w ++ rest) (h c List.mem_cons_self) h0
      (by rcases hn with h | h; exact .inl h; exact .inr (.inl h))
    obtain ⟨f2, g2, e2⟩ := ih (fun c hc => h c (List.mem_cons_of_mem _ hc))
      (fun i hi => by simpa using hq (i + 1) (by simpa using hi)) f1
    refine ⟨f2, fun hh hf => g2 (fun c hc => hh c (List.mem_cons_of_mem _ hc)) (g1 (hh c List.mem_cons_self) hf), ?_⟩
    rw [List.cons_append, e1, e2]

theorem pass_quiet {d : Dict} {n b : Nat} {w rest : Text} (h : Quiet d w rest) (hc : Calm d rest) (f : Bool) :
    forward d ⟨n, b, false, f⟩ (w ++ rest) = forward d ⟨n, b, false, false⟩ rest := by
  obtain ⟨f', _, e⟩ := forward_quiet (d := d) (n := n) (b := b) h f
  rw [e, forward_calm hc]

theorem pass_nodigit {d : Dict} {n b : Nat} {w rest : Text} (h : Quiet d w rest) (hw : ∀ c ∈ w, digit c = false) :
    forward d ⟨n, b, false, false⟩ (w ++ rest) = forward d ⟨n, b, false, false⟩ rest := by
  obtain ⟨f', hf, e⟩ := forward_quiet (d := d) (n := n) (b := b) h false
  rw [e, hf hw rfl]

/-- Inside a text: everything up to the closing quote is passed over. -/
theorem forward_text {d : Dict} {n b : Nat} {w rest : Text} (hw : ∀ i < w.length, d.qc.isPrefixOf (w.drop i ++ rest) = false)
    (f : Bool) : ∃ f', forward d ⟨n, b, true, f⟩ (w ++ rest) = forward d ⟨n, b, true, f'⟩ rest := by
  induction w generalizing f with
  | nil => exact ⟨f, rfl⟩
  | cons c w ih =>
    have h0 : d.qc.isPrefixOf (c :: (w ++ rest)) = false := hw 0 (by simp)
    have ih := ih (fun i hi => by simpa using hw (i + 1) (by simpa using hi))
    rw [List.cons_append]
    conv => enter [1, f']; lhs; unfold forward
    dsimp only
    rw [if_neg (by simp), if_neg (by simp), if_neg (by simp), if_neg (by simp), if_neg (by simp),
      if_neg (by simp [h0])]
    by_cases h1 : c = 92
    · rw [if_pos (by simp [h1])]
      exact ih _
    · rw [if_neg (by simp [h1])]
      by_cases h2 : (f && stillNumber d (c :: (w ++ rest))) = false ∧ isDigit c = true
      · rw [if_pos h2]; exact ih _
      · rw [if_neg h2, if_neg (by simp)]; exact ih _

/-- A quoted text. -/
theorem forward_quoted {d : Dict} (hu : Usable d) (hg : GoodQuotes d) {n b : Nat} {t rest : Text}
    (h1 : ∀ i < t.length, startsNone [d.qo, d.qc] (t.drop i ++ d.qc ++ rest) = true)
    (h2 : ∀ i < d.qo.length, 0 < i → startsNone [d.qc] (d.qo.drop i ++ t ++ d.qc ++ rest) = true)
    (h3 : Quiet d (d.qc.drop 1) rest) (h4 : Calm d rest) :
    forward d ⟨n, b, false, false⟩ (d.qo ++ t ++ d.qc ++ rest) = forward d ⟨n, b, false, false⟩ rest := by
  obtain ⟨_, _, _, _, u5, u6⟩ := hu
  obtain ⟨_, _, g3, _, _, _⟩ := hg
  cases hqo : d.qo with
  | nil => exact absurd hqo u5
  | cons a o =>
    cases hqc : d.qc with
    | nil => exact absurd hqc u6
    | cons z k =>
      have ha := g3 a (by rw [hqo]; simp)
      simp only [List.mem_cons, List.not_mem_nil, or_false, not_or] at ha
      have e : a :: o ++ t ++ z :: k ++ rest = a :: (o ++ t ++ (z :: (k ++ rest))) := by simp
      have hp : d.qo.isPrefixOf (a :: (o ++ t ++ (z :: (k ++ rest)))) = true := by
        rw [pfx_iff, hqo]
        exact ⟨t ++ (z :: (k ++ rest)), by simp⟩
      rw [e]
      conv => lhs; unfold forward
      dsimp only
      rw [if_neg (by simp [ha]), if_neg (by simp [ha]), if_neg (by simp [ha]), if_neg (by simp [ha]),
        if_pos ⟨rfl, hp⟩]
      obtain ⟨f', hf⟩ := forward_text (d := d) (n := n) (b := b) (w := o ++ t) (rest := z :: (k ++ rest)) (by
        intro i hi
        by_cases hio : i < o.length
        · have := startsNone_mem (h2 (i + 1) (by rw [hqo]; simpa using hio) (by omega)) (K := d.qc) (by simp)
          rw [hqo, List.drop_succ_cons] at this
          rw [List.drop_append_of_le_length (by omega)]
          rw [show List.drop i o ++ t ++ z :: (k ++ rest) = List.drop i o ++ t ++ d.qc ++ rest by rw [hqc]; simp]
          exact this
        · have hlt : i - o.length < t.length := by simp at hi; omega
          have := startsNone_mem (h1 (i - o.length) hlt) (K := d.qc) (by simp)
          rw [List.drop_append, List.drop_eq_nil_of_le (by omega), List.nil_append,
            show List.drop (i - o.length) t ++ z :: (k ++ rest) = List.drop (i - o.length) t ++ d.qc ++ rest by rw [hqc]; simp]
          exact this) (false && stillNumber d (a :: (o ++ t ++ (z :: (k ++ rest)))))
      rw [hf]
      conv => lhs; unfold forward
      dsimp only
      rw [if_neg (by simp), if_neg (by simp), if_neg (by simp), if_neg (by simp), if_neg (by simp),
        if_pos ⟨rfl, by rw [pfx_iff, hqc]; exact ⟨rest, by simp⟩⟩]
      rw [hqc, List.drop_succ_cons, List.drop_zero] at h3
      exact pass_quiet h3 h4 _

/-! ## Pieces -/

/-- Looking ahead from a state outside texts. -/
abbrev F (d : Dict) (n b : Nat) (s : Text) : Option Text := forward d ⟨n, b, false, false⟩ s

theorem blank_flat {c : UInt8} (h : blank c = true) : flat c = true ∧ digit c = false := by
  unfold blank at h
  simp only [List.mem_cons, List.not_mem_nil, or_false, decide_eq_true_eq] at h
  rcases h with h | h | h | h <;> (rw [h]; decide)

theorem pfx_head {K r : Text} {c : UInt8} (hK : K ≠ []) (h : ∀ x ∈ K.take 1, x ≠ c) : K.isPrefixOf (c :: r) = false := by
  cases K with
  | nil => exact absurd rfl hK
  | cons x K =>
    rw [pfx_false]
    rintro ⟨z, hz⟩
    injection hz with hz _
    exact h x (by simp) hz

theorem blank_starts {d : Dict} (hd : GoodDict d) {c : UInt8} (h : blank c = true) (r : Text) :
    c ≠ d.param ∧ startsNone [d.eol, d.chain, d.qo] (c :: r) = true := by
  obtain ⟨hu, hq, _, hh, _⟩ := hd
  obtain ⟨u1, u2, _, _, u5, _⟩ := hu
  have hne : ∀ x : UInt8, blank x = false → x ≠ c := by
    intro x hx e
    rw [e, h] at hx; cases hx
  refine ⟨fun e => hne d.param (hh [d.param] (by simp) d.param (by simp)).2 e.symm, ?_⟩
  unfold startsNone
  simp only [List.all_cons, List.all_nil, Bool.and_true, Bool.and_eq_true, Bool.not_eq_true']
  exact ⟨pfx_head u1 fun x hx => hne x (hh d.eol (by simp) x hx).2,
    pfx_head u2 fun x hx => hne x (hh d.chain (by simp) x hx).2, pfx_head u5 fun x hx => hne x (hq.2.2.1 x hx).1⟩

theorem gap_quiet {d : Dict} (hd : GoodDict d) {g : Text} (hg : ∀ c ∈ g, blank c = true) (rest : Text) :
    Quiet d g rest := by
  intro i hi
  have e : g.drop i = g[i] :: g.drop (i + 1) := List.drop_eq_getElem_cons hi
  have hb := hg g[i] (List.getElem_mem hi)
  rw [e]
  refine ⟨?_, (blank_starts hd hb _).2⟩
  intro c hc
  simp only [List.take_succ_cons, List.take_zero, List.mem_singleton] at hc
  rw [hc]
  exact ⟨(blank_flat hb).1, (blank_starts hd hb []).1⟩

theorem F_gap {d : Dict} (hd : GoodDict d) {n b : Nat} {g : Text} (hg : ∀ c ∈ g, blank c = true) (rest : Text) :
    F d n b (g ++ rest) = F d n b rest :=
  pass_nodigit (gap_quiet hd hg rest) (fun c hc => (blank_flat (hg c hc)).2)

theorem word_quiet {d : Dict} {w rest : Text} (h : Word d w rest) (hf : ∀ c ∈ w, flat c = true) : Quiet d w rest := by
  obtain ⟨_, _, _, h4, _, _, h7, _⟩ := h
  intro i hi
  refine ⟨?_, ?_⟩
  · intro c hc
    have hm : c ∈ w := List.mem_of_mem_drop (List.mem_of_mem_take hc)
    refine ⟨hf c hm, ?_⟩
    have := (h4 c hm).1
    simp only [List.mem_cons, List.not_mem_nil, or_false, not_or] at this
    exact this.2.2.2
  · have := h7 i hi
    unfold startsNone at *
    simp only [List.all_cons, List.all_nil, Bool.and_true, Bool.and_eq_true] at *
    exact ⟨this.1, this.2.2.2.1, this.2.1⟩

/-- Pieces that are passed over at any depth. -/
def Light : Cell → Prop
  | .word _ | .key .. | .lit _ => True
  | .num arg _ => arg = true
  | _ => False

theorem F_light {d : Dict} (hd : GoodDict d) {n b : Nat} {c : Cell} (hl : Light c) {g w rest : Text}
    (hg : ∀ x ∈ g, blank x = true) (hw : Written d c.lexeme w rest) (hr : Regular d c g w rest) :
    F d n b (g ++ w ++ rest) = F d n b rest := by
  rw [List.append_assoc, F_gap hd hg]
  cases c with
  | word v =>
    obtain ⟨rfl, hw⟩ := hw
    exact pass_quiet (word_quiet hw hr.1) hr.2.1 _
  | key f v v' =>
    obtain ⟨rfl, hw⟩ := hw
    exact pass_quiet (word_quiet hw hr.1) hr.2.1 _
  | num a v => exact pass_quiet (hr.2.2.2 hl) hr.2.1 _
  | lit t =>
    obtain ⟨rfl, _⟩ := hw
    exact forward_quoted hd.1 hd.2.1 hr.2.2.2.1 hr.2.2.2.2 hr.2.1 hr.1
  | _ => exact hl.elim

theorem param_flat {d : Dict} (hd : GoodDict d) : flat d.param = true ∧ digit d.param = false ∧
    ∀ r, d.qo.isPrefixOf (d.param :: r) = false := by
  obtain ⟨hu, hq, _, hh, _, _, _, _, _, _, hp, _⟩ := hd
  have h := (hh [d.param] (by simp) d.param (by simp)).1
  simp only [List.mem_cons, List.not_mem_nil, or_false, not_or] at h
  refine ⟨flat_iff.2 ⟨h.2.1, h.2.2.1, h.2.2.2.1, h.2.2.2.2⟩, hp, fun r => pfx_head hu.2.2.2.2.1 fun x hx e => ?_⟩
  have := (hq.2.2.1 x hx).2
  simp [e] at this

/-- Pieces that are passed over inside parentheses and blocks. -/
def Heavy : Cell → Prop
  | .num .. | .eol | .chain | .assign | .ret | .sign | .param => True
  | _ => False

theorem symbol_bytes {d : Dict} (hc : CalmDict d) {K : Text} (hK : K ∈ [d.eol, d.chain, d.assign, d.ret, [58, 61]])
    (rest : Text) : (∀ c ∈ K, flat c = true) ∧ (∀ c ∈ K, digit c = false) ∧
      ∀ i < K.length, d.qo.isPrefixOf (K.drop i ++ rest) = false := by
  obtain ⟨h1, h2⟩ := hc K hK
  exact ⟨fun c h => (h1 c h).1, fun c h => (h1 c h).2, fun i hi => apart_pfx (h2 i hi) rest⟩

theorem F_heavy {d : Dict} (hd : GoodDict d) (hc : CalmDict d) {n b : Nat} (hn : 0 < n ∨ 0 < b) {c : Cell} (hl : Heavy c)
    {g w rest : Text} (hg : ∀ x ∈ g, blank x = true) (hw : Written d c.lexeme w rest) (hr : Regular d c g w rest) :
    F d n b (g ++ w ++ rest) = F d n b rest := by
  rw [List.append_assoc, F_gap hd hg]
  have sym : ∀ K ∈ [d.eol, d.chain, d.assign, d.ret, [58, 61]], F d n b (K ++ rest) = F d n b rest := by
    intro K hK
    obtain ⟨h1, h2, h3⟩ := symbol_bytes hc hK rest
    obtain ⟨f', hf, e⟩ := forward_deep (d := d) hn h1 h3 false
    rw [F, e, hf h2 rfl]
  have par : F d n b (d.param :: rest) = F d n b rest := by
    obtain ⟨h1, h2, h3⟩ := param_flat hd
    obtain ⟨f', hf, e⟩ := forward_byte (d := d) (n := n) (b := b) (f := false) h1 (h3 rest)
      (by rcases hn with h | h; exact .inl h; exact .inr (.inl h))
    rw [F, e, hf h2 rfl]
  cases c with
  | num a v =>
    obtain ⟨h1, h2, h3, _⟩ := hr
    obtain ⟨f', hf, e⟩ := forward_deep (d := d) hn h1 (fun i hi => startsNone_mem (h3 i hi) (by simp)) false
    rw [F, e, forward_calm h2]
  | eol => rw [show w = d.eol from hw]; exact sym _ (by simp)
  | chain => rw [show w = d.chain from hw]; exact sym _ (by simp)
  | assign =>
    rcases hw with h | h <;> (rw [h]; exact sym _ (by simp))
  | ret => rw [hw.1]; exact sym _ (by simp)
  | sign => rw [hw.1]; exact par
  | param => rw [hw.1]; exact par
  | _ => exact hl.elim

theorem qo_paren {d : Dict} (hd : GoodDict d) {c : UInt8} (h : c ∈ ([40, 41, 123, 125] : List UInt8)) (r : Text) :
    d.qo.isPrefixOf (c :: r) = false := by
  obtain ⟨hu, hq, _⟩ := hd
  refine pfx_head hu.2.2.2.2.1 fun x hx e => ?_
  have := (hq.2.2.1 x hx).2
  rw [e] at this
  simp only [List.mem_cons, List.not_mem_nil, or_false, not_or] at this h
  rcases h with h | h | h | h <;> simp [h] at this

theorem F_popen {d : Dict} {n b : Nat} (r : Text) : F d n b (40 :: r) = F d (n + 1) b r := by
  show forward d _ _ = _
  conv => lhs; unfold forward
  dsimp only
  rw [if_pos ⟨rfl, rfl⟩]
  rfl

theorem F_pclose {d : Dict} {n b : Nat} (r : Text) : F d (n + 1) b (41 :: r) = F d n b r := by
  show forward d _ _ = _
  conv => lhs; unfold forward
  dsimp only
  rw [if_neg (by decide), if_pos ⟨rfl, by omega, rfl⟩]
  rfl

theorem F_bopen {d : Dict} {n b : Nat} (r : Text) : F d n b (123 :: r) = F d n (b + 1) r := by
  show forward d _ _ = _
  conv => lhs; unfold forward
  dsimp only
  rw [if_neg (by decide), if_neg (fun h => absurd h.2.2 (by decide)), if_pos ⟨rfl, rfl⟩]
  rfl

theorem F_bclose {d : Dict} {n b : Nat} (r : Text) : F d n (b + 1) (125 :: r) = F d n b r := by
  show forward d _ _ = _
  conv => lhs; unfold forward
  dsimp only
  rw [if_neg (by decide), if_neg (fun h => absurd h.2.2 (by decide)), if_neg (by decide), if_pos ⟨rfl, by omega, rfl⟩]
  rfl

/-- Pieces at which a message ends. -/
def Ends : Cell → Prop
  | .eol | .chain | .pclose => True
  | _ => False

theorem sym_head {d : Dict} (hd : GoodDict d) (hc : CalmDict d) {K : Text} (hK : K ∈ [d.eol, d.chain]) (rest : Text) :
    ∃ c r, K = c :: r ∧ (c ≠ 40 ∧ c ≠ 123 ∧ digit c = false) ∧ d.qo.isPrefixOf (c :: (r ++ rest)) = false := by
  have hne : K ≠ [] := by
    simp only [List.mem_cons, List.not_mem_nil, or_false] at hK
    rcases hK with h | h <;> rw [h]
    · exact hd.1.1
    · exact hd.1.2.1
  have hm : K ∈ [d.eol, d.chain, d.assign, d.ret, [58, 61]] := by
    simp only [List.mem_cons, List.not_mem_nil, or_false] at hK ⊢
    rcases hK with h | h
    · exact .inl h
    · exact .inr (.inl h)
  obtain ⟨h1, h2, h3⟩ := symbol_bytes hc hm rest
  cases K with
  | nil => exact absurd rfl hne
  | cons c r =>
    have := flat_iff.1 (h1 c List.mem_cons_self)
    exact ⟨c, r, rfl, ⟨this.1, this.2.2.1, h2 c List.mem_cons_self⟩, h3 0 (by simp)⟩

/-- The next stop is such a piece, or the next parameter sign. -/
theorem F_stop {d : Dict} (hd : GoodDict d) (hc : CalmDict d) {c : Cell} (hl : Ends c ∨ c = .sign) {g w rest : Text}
    (hg : ∀ x ∈ g, blank x = true) (hw : Written d c.lexeme w rest) : F d 0 0 (g ++ w ++ rest) = some (w ++ rest) := by
  rw [List.append_assoc, F_gap hd hg]
  cases c with
  | eol =>
    obtain ⟨c, r, e, h1, h2⟩ := sym_head hd hc (K := d.eol) (by simp) rest
    rw [show w = d.eol from hw, e]
    exact forward_stop h1 h2 (.inr (.inl (by rw [e]; exact pfx_self (c :: r) rest)))
  | chain =>
    obtain ⟨c, r, e, h1, h2⟩ := sym_head hd hc (K := d.chain) (by simp) rest
    rw [show w = d.chain from hw, e]
    exact forward_stop h1 h2 (.inr (.inr (.inl (by rw [e]; exact pfx_self (c :: r) rest))))
  | pclose =>
    rw [show w = [41] from hw]
    exact forward_stop (by decide) (qo_paren hd (by simp) rest) (.inr (.inr (.inr rfl)))
  | sign =>
    obtain ⟨h1, h2, h3⟩ := param_flat hd
    have := flat_iff.1 h1
    rw [hw.1]
    exact forward_stop ⟨this.1, this.2.2.1, h2⟩ (h3 rest) (.inl rfl)
  | _ => rcases hl with hl | hl <;> first | exact hl.elim | cases hl

end Verif.Lemmas.TransProg
