import Verif.Lemmas.Generate
import Verif.Props.Translator

/-!
# Properties of making dictionaries from headers (C80)
-/

namespace Verif.Props.Gen
open Verif Verif.Model Verif.Model.Trans Verif.Model.Gen Verif.Spec Verif.Lemmas.Trans Verif.Lemmas.Gen

/-- A name that starts with `CTR_DICT_`. -/
def dictKey (k : List UInt8) : List UInt8 := [67, 84, 82, 95, 68, 73, 67, 84, 95] ++ k

/-- `CTR_DICT_NUM_DEC_SEP`. -/
def kDec : List UInt8 := dictKey [78, 85, 77, 95, 68, 69, 67, 95, 83, 69, 80]

/-- `CTR_DICT_NUM_THO_SEP`. -/
def kTho : List UInt8 := dictKey [78, 85, 77, 95, 84, 72, 79, 95, 83, 69, 80]

/-- `CTR_DICT_CODEGEN_A`. -/
def kGen : List UInt8 := dictKey [67, 79, 68, 69, 71, 69, 78, 95, 65]

/-- `CTR_DICT_RUN`. -/
def kRun : List UInt8 := dictKey [82, 85, 78]

/-- `CTR_DICT_END`. -/
def kEnd : List UInt8 := dictKey [69, 78, 68]

/-- `CTR_DICT_ADD`. -/
def kAdd : List UInt8 := dictKey [65, 68, 68]

/-- A header in one language: a text for code, both separators, the parameter sign, `run`, `end`, `add:and:`. -/
def one : List HLine :=
  [⟨kGen, [32], [40, 120, 41], none⟩, ⟨kDec, [32, 9], [46], none⟩, ⟨kTho, [32], [44], none⟩,
   ⟨dictKey [80], [32], [58], none⟩, ⟨kRun, [32, 32], [114, 117, 110], none⟩, ⟨kEnd, [32], [101, 110, 100], none⟩,
   ⟨kAdd, [32], [97, 58, 98, 58], none⟩]

/-- The same in another language; the word for `end` is the one for `run`, with a note. -/
def two : List HLine :=
  [⟨kGen, [32], [40, 121, 41], none⟩, ⟨kDec, [32], [44], none⟩, ⟨kTho, [32], [46], none⟩,
   ⟨dictKey [80], [32], [59], none⟩, ⟨kRun, [32], [108, 111], none⟩, ⟨kEnd, [32], [108, 111], some [101]⟩,
   ⟨kAdd, [32], [99, 100, 59, 101, 59], none⟩]

instance (l : HLine) : Decidable (∀ n, l.note = some n → n.length < 179 ∧ ∀ c ∈ n, c ≠ 0 ∧ ¬ Blank c) :=
  match h : l.note with
  | none => isTrue (by intro n hn; cases hn)
  | some n =>
    if h' : n.length < 179 ∧ ∀ c ∈ n, c ≠ 0 ∧ ¬ Blank c then
      isTrue (by intro m hm; injection hm with hm; subst hm; exact h')
    else isFalse (fun hh => h' (hh n rfl))

/-- Whether a line of a header is written in the usual form. -/
def plainB (l : HLine) : Bool :=
  decide (l.key ≠ []) && decide (∀ c ∈ l.key, c ≠ 0 ∧ ¬ Blank c) && decide (l.key.length < 180) && decide (l.gap ≠ []) &&
  decide (∀ c ∈ l.gap, Blank c) && decide (l.word ≠ []) && decide (∀ c ∈ l.word, c ≠ 0 ∧ c ≠ 34) &&
  decide (l.word.length < 180) && decide (∀ n, l.note = some n → n.length < 179 ∧ ∀ c ∈ n, c ≠ 0 ∧ ¬ Blank c)

theorem plainB_iff {l : HLine} (h : plainB l = true) : l.Plain := by
  simp only [plainB, Bool.and_eq_true, decide_eq_true_eq] at h
  obtain ⟨⟨⟨⟨⟨⟨⟨⟨h1, h2⟩, h3⟩, h4⟩, h5⟩, h6⟩, h7⟩, h8⟩, h9⟩ := h
  exact ⟨h1, h2, h3, h4, h5, h6, h7, h8, h9⟩

theorem plains {ls : List HLine} (h : ls.all plainB = true) : ∀ l ∈ ls, l.Plain :=
  fun l hl => plainB_iff (List.all_eq_true.1 h l hl)

theorem plainsNone {ls : List HLine} (h : ls.all (fun l => plainB l && decide (l.note = none)) = true) :
    ∀ l ∈ ls, l.Plain ∧ l.note = none := by
  intro l hl
  have := List.all_eq_true.1 h l hl
  rw [Bool.and_eq_true, decide_eq_true_eq] at this
  exact ⟨plainB_iff this.1, this.2⟩

theorem one_plain : ∀ l ∈ one, l.Plain ∧ l.note = none := plainsNone (by decide +kernel)

theorem two_plain : ∀ l ∈ two, l.Plain := plains (by decide +kernel)

/-- **C80** (partial): from two headers that agree line by line, exactly the dictionary of their words is made, in the
order of the headers: every word with its translation and its note, the separators, and lines for texts for the name asked
for. Missing: notes in the first header and on lines for code, empty words, and more than one name to ask for. -/
theorem C80_partial (keys : Option Text) (ns : List Text) (hk : (keys = none ∧ ns = []) ∨ keys = some (commas ns))
    (h1 : ns.length ≤ 1) (hns : ∀ n ∈ ns, n ≠ [] ∧ 44 ∉ n) (as bs : List HLine)
    (ha : ∀ a ∈ as, a.Plain ∧ a.note = none) (hb : ∀ b ∈ bs, b.Plain) (hc : NoCodeNotes as bs) (hs : SameKeys as bs) :
    generate keys (header as) (header bs) = .ok (dictFile (dictOf ns as bs)) := by
  have hn : names keys = ns := by
    rcases hk with ⟨rfl, rfl⟩ | rfl
    · rfl
    · exact parts_commas ns hns
  rw [(generate_eq keys ha hb hc).1 hs, hn, dictSeq_short ns as bs h1]

example : (some kRun = none ∧ [kRun] = []) ∨ some kRun = some (commas [kRun]) := .inr rfl

example : NoCodeNotes one two ∧ SameKeys one two ∧ (∀ n ∈ [kRun], n ≠ [] ∧ 44 ∉ n) ∧
    dictOf [kRun] one two =
      [⟨100, [46], none, [44]⟩, ⟨120, [44], none, [46]⟩, ⟨116, [58], none, [59]⟩, ⟨116, [114, 117, 110], none, [108, 111]⟩,
       ⟨115, [114, 117, 110], none, [108, 111]⟩, ⟨116, [101, 110, 100], some [101], [108, 111]⟩,
       ⟨116, [97, 58, 98, 58], none, [99, 100, 59, 101, 59]⟩] := by
  decide +kernel

/-- **C80**: headers that do not agree end the program with an error; no dictionary is made from them. -/
theorem C80_mismatch (keys : Option Text) (as bs : List HLine) (ha : ∀ a ∈ as, a.Plain ∧ a.note = none)
    (hb : ∀ b ∈ bs, b.Plain) (hc : NoCodeNotes as bs) (hs : ¬ SameKeys as bs) :
    generate keys (header as) (header bs) = .exit :=
  (generate_eq keys ha hb hc).2 hs

example : ¬ SameKeys one (two.drop 1) ∧ NoCodeNotes one (two.drop 1) := by decide +kernel

/-- **C80**: whatever names are asked for, every word and every separator gets its line; the lines for texts are at least
those for the first name, and at most those for all of them. -/
theorem C80_words (ns : List Text) (hns : ∀ n ∈ ns, n ≠ [] ∧ 44 ∉ n) (as bs : List HLine)
    (ha : ∀ a ∈ as, a.Plain ∧ a.note = none) (hb : ∀ b ∈ bs, b.Plain) (hc : NoCodeNotes as bs) (hs : SameKeys as bs) :
    ∃ ls, generate (some (commas ns)) (header as) (header bs) = .ok (dictFile ls) ∧
      ls.filter (fun l => l.ty ≠ 115) = dictOf [] as bs ∧
      (dictOf (ns.take 1) as bs).Sublist ls ∧ ls.Sublist (dictOf ns as bs) := by
  have hn : names (some (commas ns)) = ns := parts_commas ns hns
  refine ⟨_, (generate_eq _ ha hb hc).1 hs, dictSeq_words _ as bs, ?_⟩
  rw [hn]
  exact dictSeq_between ns ns as bs (fun _ h => h) (fun _ h => List.mem_of_mem_take h) (fun _ h => h) (fun _ h => h)

example : (∀ n ∈ [kRun, kEnd], n ≠ [] ∧ 44 ∉ n) ∧ (dictOf [kRun] one two).length = 7 ∧
    (dictOf [kRun, kEnd] one two).length = 8 := by decide +kernel

/-- **C80**: whatever the two files contain, no byte outside the buffers is written, as long as no word is too long. -/
theorem C80_safe (keys : Option Text) (f g : Text) (hf : Airy f) (hg : Airy g) : generate keys f g ≠ .ub := by
  have := loop_safe (f.length + 1) ⟨f, g, [], [], [], [], [], keys, []⟩ hf hg (Nat.lt_succ_self _)
  unfold generate
  cases h : loop (f.length + 1) ⟨f, g, [], [], [], [], [], keys, []⟩ with
  | ok s => intro h'; cases h'
  | ub => exact absurd h this
  | exit => intro h'; cases h'

/-- A file shorter than 180 bytes. -/
example : Airy ([35, 100, 101, 102, 34, 34, 34, 10] ++ header (one.take 1)) := by
  intro t ht _
  have := ht.length_le
  have : ([35, 100, 101, 102, 34, 34, 34, 10] ++ header (one.take 1)).length = 41 := by decide +kernel
  omega

theorem dictOf_plain {ns : List Text} {as bs : List HLine} (ha : ∀ a ∈ as, a.Plain ∧ 35 ∉ a.word)
    (hb : ∀ b ∈ bs, b.Plain ∧ 35 ∉ b.word ∧ ∀ n, b.note = some n → 34 ∉ n ∧ 35 ∉ n) : ∀ l ∈ dictOf ns as bs, l.Plain := by
  induction as generalizing bs with
  | nil => intro l hl; cases hl
  | cons a as ih =>
    cases bs with
    | nil => intro l hl; cases hl
    | cons b bs =>
      intro l hl
      unfold dictOf at hl
      rcases List.mem_append.1 hl with hl | hl
      · obtain ⟨pa, qa⟩ := ha a (by simp)
        obtain ⟨pb, qb, rb⟩ := hb b (by simp)
        have hw : ∀ c ∈ a.word, c ≠ 0 ∧ c ≠ 34 ∧ c ≠ 35 := fun c hc =>
          ⟨(pa.wordBytes c hc).1, (pa.wordBytes c hc).2, fun e => qa (e ▸ hc)⟩
        have ht : ∀ c ∈ b.word, c ≠ 0 ∧ c ≠ 34 ∧ c ≠ 35 := fun c hc =>
          ⟨(pb.wordBytes c hc).1, (pb.wordBytes c hc).2, fun e => qb (e ▸ hc)⟩
        have hn : ∀ n, b.note = some n → ∀ c ∈ n, c ≠ 0 ∧ c ≠ 34 ∧ c ≠ 35 := fun n hn c hc =>
          ⟨((pb.noteBytes n hn).2 c hc).1, fun e => (rb n hn).1 (e ▸ hc), fun e => (rb n hn).2 (e ▸ hc)⟩
        have l1 := pa.wordShort
        have l2 := pb.wordShort
        have main : ∀ (ty : UInt8) (m : Option (List UInt8)), (ty = 116 ∨ ty = 115 ∨ ty = 100 ∨ ty = 120) →
            (m = none ∨ m = b.note) → (⟨ty, a.word, m, b.word⟩ : DLine).Plain := by
          intro ty m hty hm
          refine ⟨hty, pa.word, pb.word, hw, ht, ?_, fun _ => ⟨by dsimp only; omega, by dsimp only; omega⟩,
            by dsimp only; omega⟩
          intro n e
          rcases hm with rfl | rfl
          · cases e
          · exact hn n e
        unfold dictLines at hl
        split at hl
        · cases hl
        · split at hl
          · simp only [List.mem_singleton] at hl; subst hl; exact main 100 none (by simp) (.inl rfl)
          · split at hl
            · simp only [List.mem_singleton] at hl; subst hl; exact main 120 none (by simp) (.inl rfl)
            · rcases List.mem_cons.1 hl with rfl | hl
              · exact main 116 b.note (by simp) (.inr rfl)
              · split at hl
                · simp only [List.mem_singleton] at hl; subst hl; exact main 115 none (by simp) (.inl rfl)
                · cases hl
      · exact ih (fun x hx => ha x (List.mem_cons_of_mem _ hx)) (fun x hx => hb x (List.mem_cons_of_mem _ hx)) l hl

theorem mem_dictOf {ns : List Text} {as bs : List HLine} {a b : HLine} (h : (a, b) ∈ as.zip bs) {l : DLine}
    (hl : l ∈ dictLines ns a b) : l ∈ dictOf ns as bs := by
  induction as generalizing bs with
  | nil => cases h
  | cons x as ih =>
    cases bs with
    | nil => cases h
    | cons y bs =>
      unfold dictOf
      rw [List.zip_cons_cons] at h
      rcases List.mem_cons.1 h with h | h
      · injection h with h1 h2
        subst h1 h2
        exact List.mem_append_left _ hl
      · exact List.mem_append_right _ (ih h)

/-- **C80**: a dictionary made from two headers translates: it is accepted (if no word has two translations, no
translation two words without a note, and both separators are there), and every word of the first header becomes the word
of the second header for the same name. -/
theorem C80_translates (p : UInt8) (as bs : List HLine) (ha : ∀ a ∈ as, a.Plain ∧ a.note = none ∧ 35 ∉ a.word)
    (hb : ∀ b ∈ bs, b.Plain ∧ 35 ∉ b.word ∧ ∀ n, b.note = some n → 34 ∉ n ∧ 35 ∉ n) (hc : NoCodeNotes as bs)
    (hs : SameKeys as bs) (hf : NotesFit (dictOf [] as bs)) (hco : Consistent (dictOf [] as bs))
    (hcm : Complete (dictOf [] as bs)) (he : EndsWithWord (dictOf [] as bs)) :
    ∃ out L, generate none (header as) (header bs) = .ok out ∧ load p out = .ok L ∧
      ∀ a b, (a, b) ∈ as.zip bs → ¬ a.Code → ¬ b.Code → ¬ a.Decimal → ¬ a.Thousand → ∀ room,
        ((a.word.drop 1).count p = (b.word.drop 1).count L.pc → ∃ x y, SplitAtSign L.pc b.word x y ∧
          translate p L.pc L.dict 116 a.word room true = .ok ⟨x, y, true⟩) ∧
        ((a.word.drop 1).count p ≠ (b.word.drop 1).count L.pc → ∀ into,
          translate p L.pc L.dict 116 a.word room into = .exit) := by
  have hp : ∀ l ∈ dictOf [] as bs, l.Plain := dictOf_plain (fun a h => ⟨(ha a h).1, (ha a h).2.2⟩) hb
  obtain ⟨L, hL⟩ := (Trans.C38_load p _ hp hf).1 ⟨hco, hcm⟩
  refine ⟨_, L, C80_partial none [] (.inl ⟨rfl, rfl⟩) (Nat.zero_le _) (by intro n hn; cases hn) as bs
    (fun a h => ⟨(ha a h).1, (ha a h).2.1⟩) (fun b h => (hb b h).1) hc hs, hL, ?_⟩
  intro a b hab n1 n2 n3 n4 room
  have hl : (⟨116, a.word, b.note, b.word⟩ : DLine) ∈ dictOf [] as bs := by
    refine mem_dictOf hab ?_
    unfold dictLines
    rw [if_neg (fun h => h.elim n1 n2), if_neg n3, if_neg n4]
    simp
  obtain ⟨_, h2, h3⟩ := Trans.C38_partial p _ hp hf he L hL _ hl room
  exact ⟨h3 rfl, h2 rfl⟩

example : NotesFit (dictOf [] one two) ∧ Consistent (dictOf [] one two) ∧ Complete (dictOf [] one two) ∧
    (∃ l, (dictOf [] one two).getLast? = some l ∧ l.isWord = true) ∧ (∀ a ∈ one, 35 ∉ a.word) ∧
    (∀ b ∈ two, 35 ∉ b.word) ∧ ∃ a b, (a, b) ∈ one.zip two ∧ ¬ a.Code ∧ ¬ b.Code ∧ ¬ a.Decimal ∧ ¬ a.Thousand ∧
      a.word = [97, 58, 98, 58] := by
  refine ⟨by decide +kernel, by decide +kernel, by decide +kernel, ⟨_, rfl, by decide⟩, by decide +kernel, by decide +kernel,
    ⟨kAdd, [32], [97, 58, 98, 58], none⟩, ⟨kAdd, [32], [99, 100, 59, 101, 59], none⟩, by decide +kernel, by decide +kernel,
    by decide +kernel, by decide +kernel, by decide +kernel, rfl⟩

theorem dictOf_mirror {ns : List Text} {as bs : List HLine} (hk : as.map HLine.key = bs.map HLine.key)
    (hb : ∀ b ∈ bs, b.note = none) (ha : ∀ a ∈ as, a.note = none) : dictOf ns bs as = mirrored (dictOf ns as bs) := by
  induction as generalizing bs with
  | nil =>
    cases bs with
    | nil => rfl
    | cons b bs => cases hk
  | cons a as ih =>
    cases bs with
    | nil => cases hk
    | cons b bs =>
      simp only [List.map_cons, List.cons.injEq] at hk
      unfold dictOf
      rw [ih hk.2 (fun x hx => hb x (List.mem_cons_of_mem _ hx)) (fun x hx => ha x (List.mem_cons_of_mem _ hx))]
      unfold mirrored
      rw [List.map_append]
      congr 1
      have e1 : b.Code ↔ a.Code := by unfold HLine.Code; rw [hk.1]
      have e2 : b.Decimal ↔ a.Decimal := by unfold HLine.Decimal; rw [hk.1]
      have e3 : b.Thousand ↔ a.Thousand := by unfold HLine.Thousand; rw [hk.1]
      have e4 : b.Named ns ↔ a.Named ns := by unfold HLine.Named; rw [hk.1]
      have n1 := ha a (by simp)
      have n2 := hb b (by simp)
      unfold dictLines
      simp only [e1, e2, e3, e4, n1, n2]
      split
      · rfl
      · split
        · rfl
        · split
          · rfl
          · split <;> rfl

/-- **C80**: without notes, the dictionary for the way back is the mirror image: the same lines in the same order, words
and translations exchanged. -/
theorem C80_back (as bs : List HLine) (ha : ∀ a ∈ as, a.Plain ∧ a.note = none) (hb : ∀ b ∈ bs, b.Plain ∧ b.note = none)
    (hk : as.map HLine.key = bs.map HLine.key) :
    ∃ ls, generate none (header as) (header bs) = .ok (dictFile ls) ∧
      generate none (header bs) (header as) = .ok (dictFile (mirrored ls)) := by
  have hc : ∀ as bs : List HLine, (∀ b ∈ bs, b.Plain ∧ b.note = none) → NoCodeNotes as bs := by
    intro as
    induction as with
    | nil => intro bs _; exact trivial
    | cons a as ih =>
      intro bs h
      cases bs with
      | nil => exact trivial
      | cons b bs => exact ⟨fun _ => (h b (by simp)).2, ih bs (fun x hx => h x (List.mem_cons_of_mem _ hx))⟩
  have hs : ∀ as bs : List HLine, as.map HLine.key = bs.map HLine.key → SameKeys as bs := by
    intro as
    induction as with
    | nil => intro bs _; exact trivial
    | cons a as ih =>
      intro bs h
      cases bs with
      | nil => exact trivial
      | cons b bs =>
        simp only [List.map_cons, List.cons.injEq] at h
        exact ⟨.inr (.inr h.1), ih bs h.2⟩
  refine ⟨_, C80_partial none [] (.inl ⟨rfl, rfl⟩) (Nat.zero_le _) (by intro n hn; cases hn) as bs ha
    (fun b h => (hb b h).1) (hc as bs hb) (hs as bs hk), ?_⟩
  rw [C80_partial none [] (.inl ⟨rfl, rfl⟩) (Nat.zero_le _) (by intro n hn; cases hn) bs as hb
    (fun b h => (ha b h).1) (hc bs as ha) (hs bs as hk.symm),
    dictOf_mirror hk (fun b h => (hb b h).2) (fun a h => (ha a h).2)]

example : one.map HLine.key = (two.map fun l => { l with note := none }).map HLine.key := by decide +kernel

theorem out_eq {o : Out Text} {x : Text} (h : o.sat (· == x) = true) : o = .ok x := by
  obtain ⟨y, h1, h2⟩ := Out.of_sat h
  rw [h1, eq_of_beq h2]

/-- With two names, as in `plugins/media/dicts.sh:10`, only the first is asked for after the first word. -/
theorem C80_names_violated : ∃ ns : List Text, (∀ n ∈ ns, n ≠ [] ∧ 44 ∉ n) ∧ ns.length = 2 ∧
    ∃ ls, generate (some (commas ns)) (header one) (header two) = .ok (dictFile ls) ∧
      (dictOf ns one two).filter (fun l => l.ty = 115) =
        [⟨115, [114, 117, 110], none, [108, 111]⟩, ⟨115, [101, 110, 100], none, [108, 111]⟩] ∧
      ls.filter (fun l => l.ty = 115) = [⟨115, [114, 117, 110], none, [108, 111]⟩] := by
  have h : ∀ n ∈ [kRun, kEnd], n ≠ [] ∧ 44 ∉ n := by decide +kernel
  refine ⟨[kRun, kEnd], h, rfl, _, (generate_eq _ one_plain two_plain (by decide +kernel)).1 (by decide +kernel), ?_, ?_⟩
  · decide +kernel
  · have : names (some (commas [kRun, kEnd])) = [kRun, kEnd] := parts_commas _ h
    rw [this]
    decide +kernel

/-- A note on a line for code is put before the translation of the next word. -/
theorem C80_code_note_violated : ∃ as bs : List HLine, (∀ a ∈ as, a.Plain ∧ a.note = none) ∧ (∀ b ∈ bs, b.Plain) ∧
    as.map HLine.key = bs.map HLine.key ∧ dictOf [] as bs = [⟨116, [114], none, [108]⟩] ∧
    generate none (header as) (header bs) = .ok (dictFile [⟨116, [114], some [101], [108]⟩]) := by
  refine ⟨[⟨kGen, [32], [120], none⟩, ⟨kRun, [32], [114], none⟩], [⟨kGen, [32], [121], some [101]⟩, ⟨kRun, [32], [108], none⟩],
    plainsNone (by decide +kernel), plains (by decide +kernel), by decide +kernel, by decide +kernel, ?_⟩
  exact out_eq (by decide +kernel)

/-- A note in the first header: the dictionary silently ends there. -/
theorem C80_first_note_violated : ∃ as bs : List HLine, (∀ a ∈ as, a.Plain) ∧ (∀ b ∈ bs, b.Plain) ∧
    as.map HLine.key = bs.map HLine.key ∧ (dictOf [] as bs).length = 2 ∧
    generate none (header as) (header bs) = .ok (dictFile [⟨116, [114], none, [108]⟩]) := by
  refine ⟨[⟨kRun, [32], [114], some [101]⟩, ⟨kAdd, [32], [97], none⟩], [⟨kRun, [32], [108], none⟩, ⟨kAdd, [32], [98], none⟩],
    plains (by decide +kernel), plains (by decide +kernel), by decide +kernel, by decide +kernel, ?_⟩
  exact out_eq (by decide +kernel)

/-- An empty word: it gets the translation of the word before, and the dictionary silently ends there. -/
theorem C80_empty_violated : ∃ as bs : List HLine, as.map HLine.key = bs.map HLine.key ∧ (dictOf [] as bs).length = 3 ∧
    (∀ b ∈ bs, b.Plain) ∧ (∃ a ∈ as, a.word = []) ∧
    generate none (header as) (header bs) = .ok (dictFile [⟨116, [114], none, [108]⟩, ⟨116, [114], none, [101]⟩]) := by
  refine ⟨[⟨kRun, [32], [114], none⟩, ⟨kEnd, [32], [], none⟩, ⟨kAdd, [32], [97], none⟩],
    [⟨kRun, [32], [108], none⟩, ⟨kEnd, [32], [101], none⟩, ⟨kAdd, [32], [98], none⟩],
    by decide +kernel, by decide +kernel, plains (by decide +kernel), by decide +kernel, ?_⟩
  exact out_eq (by decide +kernel)

/-- The words a header has more than the other are left out without an error. -/
theorem C80_longer_violated : ∃ as bs : List HLine, (∀ a ∈ as, a.Plain ∧ a.note = none) ∧ (∀ b ∈ bs, b.Plain) ∧
    as.length = 2 ∧ bs.length = 1 ∧
    generate none (header as) (header bs) = .ok (dictFile [⟨116, [114], none, [108]⟩]) := by
  refine ⟨[⟨kRun, [32], [114], none⟩, ⟨kAdd, [32], [97], none⟩], [⟨kRun, [32], [108], none⟩],
    plainsNone (by decide +kernel), plains (by decide +kernel), rfl, rfl, ?_⟩
  exact out_eq (by decide +kernel)

/-- A word of 180 bytes is written beyond the end of its buffer. -/
theorem C80_long_violated : ∃ as bs : List HLine, as.map HLine.key = bs.map HLine.key ∧
    (∀ a ∈ as, a.word.length = 180) ∧ generate none (header as) (header bs) = .ub :=
  ⟨[⟨kRun, [32], List.replicate 180 97, none⟩], [⟨kRun, [32], [98], none⟩], rfl, by decide +kernel,
    Out.of_isUb (by decide +kernel)⟩

end Verif.Props.Gen
