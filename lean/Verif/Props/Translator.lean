import Verif.Lemmas.Translator

/-!
# Properties of dictionaries and of translating words (C38, C55)
-/

namespace Verif.Props.Trans
open Verif Verif.Model Verif.Model.Trans Verif.Spec Verif.Lemmas.Trans

/-- A dictionary from `own` and `add:and:` to another language, with both separators. -/
def sample : List DLine :=
  [⟨100, [46], none, [44]⟩, ⟨120, [44], none, [46]⟩, ⟨116, [58], none, [59]⟩, ⟨116, [58, 61], none, [59, 61]⟩,
   ⟨115, [111, 119, 110], none, [109]⟩, ⟨116, [111, 119, 110], none, [109, 110]⟩,
   ⟨116, [97, 58, 98, 58], none, [99, 100, 59, 101, 59]⟩]

/-- The same with a word whose translation is used twice. -/
def sampleNote : List DLine := sample ++ [⟨116, [120], some [121], [109, 110]⟩]

instance (l : DLine) : Decidable (∀ n, l.note = some n → ∀ c ∈ n, c ≠ 0 ∧ c ≠ 34 ∧ c ≠ 35) :=
  match h : l.note with
  | none => isTrue (by intro n hn; cases hn)
  | some n =>
    if h' : ∀ c ∈ n, c ≠ 0 ∧ c ≠ 34 ∧ c ≠ 35 then isTrue (by intro m hm; injection hm with hm; subst hm; exact h')
    else isFalse (fun hh => h' (hh n rfl))

/-- Whether a line is written in the documented form. -/
def plainB (l : DLine) : Bool :=
  decide (l.ty = 116 ∨ l.ty = 115 ∨ l.ty = 100 ∨ l.ty = 120) && decide (l.word ≠ []) && decide (l.tr ≠ []) &&
  decide (∀ c ∈ l.word, c ≠ 0 ∧ c ≠ 34 ∧ c ≠ 35) && decide (∀ c ∈ l.tr, c ≠ 0 ∧ c ≠ 34 ∧ c ≠ 35) &&
  decide (∀ n, l.note = some n → ∀ c ∈ n, c ≠ 0 ∧ c ≠ 34 ∧ c ≠ 35) &&
  decide (l.ty ≠ 115 → l.word.length ≤ 180 ∧ l.tr.length ≤ 180) && decide (l.word.length ≤ 4999)

theorem plain_of {l : DLine} (h : plainB l = true) : l.Plain := by
  simp only [plainB, Bool.and_eq_true, decide_eq_true_eq] at h
  obtain ⟨⟨⟨⟨⟨⟨⟨h1, h2⟩, h3⟩, h4⟩, h5⟩, h6⟩, h7⟩, h8⟩ := h
  exact ⟨h1, h2, h3, h4, h5, h6, h7, h8⟩

theorem plains_of {ls : List DLine} (h : ls.all plainB = true) : ∀ l ∈ ls, l.Plain :=
  fun l hl => plain_of (List.all_eq_true.1 h l hl)

instance (a b : DLine) : Decidable (Agree a b) := by unfold Agree; infer_instance
instance (ls : List DLine) : Decidable (Consistent ls) := by unfold Consistent; infer_instance
instance (ls : List DLine) : Decidable (Complete ls) := by unfold Complete; infer_instance
instance (ls : List DLine) : Decidable (NotesFit ls) := by unfold NotesFit; infer_instance
instance (p q : UInt8) (l : DLine) : Decidable (Balanced p q l) := by unfold Balanced; infer_instance
instance (p q : UInt8) (ls : List DLine) : Decidable (SignPair p q ls) := by unfold SignPair; infer_instance

theorem sample_plain : ∀ l ∈ sample, l.Plain := plains_of (by decide +kernel)
theorem sampleNote_plain : ∀ l ∈ sampleNote, l.Plain := plains_of (by decide +kernel)

/-- **C38**: a file of lines of the documented form is accepted if and only if it gives no word two translations and (a
note aside) no translation two words, and has both separators; any other such file ends the program with an error. -/
theorem C38_load (p : UInt8) (ls : List DLine) (hp : ∀ l ∈ ls, l.Plain) (hf : NotesFit ls) :
    (Consistent ls ∧ Complete ls → ∃ L, load p (dictFile ls) = .ok L) ∧
    (¬ (Consistent ls ∧ Complete ls) → load p (dictFile ls) = .exit) := by
  refine ⟨fun h => ?_, (load_spec p ls hp hf).2⟩
  obtain ⟨L, _, _, h, _⟩ := (load_spec p ls hp hf).1 h
  exact ⟨L, h⟩

example : (∀ l ∈ sampleNote, l.Plain) ∧ NotesFit sampleNote ∧ Consistent sampleNote ∧ Complete sampleNote :=
  ⟨sampleNote_plain, by decide +kernel, by decide +kernel, by decide +kernel⟩

/-- A file with a translation used twice, without a note. -/
example : ¬ Consistent (sample ++ [⟨116, [120], none, [109, 110]⟩]) := by decide +kernel

/-- The separators are those of the last lines for them. -/
theorem C38_separators (p : UInt8) (ls : List DLine) (hp : ∀ l ∈ ls, l.Plain) (hf : NotesFit ls) (L : Loaded)
    (hL : load p (dictFile ls) = .ok L) :
    ∃ d x, lastOf 100 ls = some d ∧ lastOf 120 ls = some x ∧
      (L.dec.word, L.dec.tr) = (d.word, d.tr) ∧ (L.tho.word, L.tho.tr) = (x.word, x.tr) := by
  by_cases h : Consistent ls ∧ Complete ls
  · obtain ⟨L', d, x, h1, h2, h3, h4, h5, _⟩ := (load_spec p ls hp hf).1 h
    rw [hL] at h1
    injection h1 with h1
    subst h1
    exact ⟨d, x, h2, h3, by rw [h4]; rfl, by rw [h5]; rfl⟩
  · rw [(load_spec p ls hp hf).2 h] at hL
    cases hL

example : ∃ L, load 58 (dictFile sample) = .ok L :=
  (C38_load 58 sample sample_plain (by decide +kernel)).1 ⟨by decide +kernel, by decide +kernel⟩

theorem loaded {p : UInt8} {ls : List DLine} (hp : ∀ l ∈ ls, l.Plain) (hf : NotesFit ls) (he : EndsWithWord ls)
    {L : Loaded} (hL : load p (dictFile ls) = .ok L) :
    Consistent ls ∧ Complete ls ∧ L.dict = entsOf ls.reverse ∧ L.pc = pcOf p ls 0 := by
  by_cases h : Consistent ls ∧ Complete ls
  · obtain ⟨L', d, x, h1, _, _, _, _, h6, h7⟩ := (load_spec p ls hp hf).1 h
    rw [hL] at h1
    injection h1 with h1
    subst h1
    obtain ⟨l, hl, hw⟩ := he
    rw [hl] at h7
    dsimp only at h7
    rw [if_pos hw] at h7
    exact ⟨h.1, h.2, h7, h6⟩
  · rw [(load_spec p ls hp hf).2 h] at hL
    cases hL

/-- The result of translating a word that is in the dictionary. -/
theorem translate_mem {p q : UInt8} {ls : List DLine} (hp : ∀ l ∈ ls, l.Plain) (hc : Consistent ls) {l : DLine}
    (hl : l ∈ ls) (room : Nat) (into : Bool) :
    (l.ty = 115 → translate p q (entsOf ls.reverse) 115 l.word room into = .ok ⟨l.tr, [], true⟩) ∧
    (l.ty = 116 → ¬ Balanced p q l → translate p q (entsOf ls.reverse) 116 l.word room into = .exit) ∧
    (l.ty = 116 → Balanced p q l → translate p q (entsOf ls.reverse) 116 l.word room into =
      if (cut q l.tr).2 = [] ∨ into = true then .ok ⟨(cut q l.tr).1, (cut q l.tr).2, true⟩ else .ub) := by
  have hf : ∀ ty, l.ty = ty → (ty = 116 ∨ ty = 115) → (entsOf ls.reverse).find?
      (fun e => l.word.length = e.word.length ∧ ty = e.type ∧ e.word = l.word) = some (ent l) := by
    intro ty h h'
    subst h
    exact find_mem hc hl ((isWord_iff l).2 h')
  refine ⟨fun h => ?_, fun h hb => ?_, fun h hb => ?_⟩
  · unfold translate
    rw [hf 115 h (.inr rfl)]
    rfl
  · unfold translate
    rw [hf 116 h (.inl rfl)]
    dsimp only
    rw [if_pos rfl, if_pos]
    exact hb
  · unfold translate
    rw [hf 116 h (.inl rfl)]
    dsimp only
    rw [if_pos rfl, if_neg (fun hh => hh hb)]
    have hlen : (cut q l.tr).2.length + 1 ≤ maxWord ∨ (cut q l.tr).2 = [] := by
      by_cases hb : (cut q l.tr).2 = []
      · exact .inr hb
      · left
        have := cut_spec q l.tr
        have h2 := (this.2.2 hb).1
        have h3 := congrArg List.length this.1
        rw [List.length_append] at h3
        have := ((hp l hl).short (by rw [h]; decide)).2
        unfold maxWord
        omega
    show (if (cut q l.tr).2 = [] then _ else _) = _
    by_cases hb : (cut q l.tr).2 = []
    · rw [if_pos hb, if_pos (Or.inl hb), hb]; rfl
    · rw [if_neg hb, if_neg]
      · cases into
        · rw [if_neg (by simp), if_neg (by simp [hb])]
        · rw [if_pos rfl, if_pos (.inr rfl)]; rfl
      · have := hlen.resolve_right hb
        show ¬ _ > _
        exact Nat.not_lt.2 this

/-- **C38**: in an accepted dictionary (whose last line is a word), every word has exactly the translation of its
line. Texts are printed as a whole; of a word of the program the first part is printed, up to its parameter sign, and
what is kept for the following parts completes the translation. A word that has more or fewer parameter signs than its
translation ends the program. -/
theorem C38_partial (p : UInt8) (ls : List DLine) (hp : ∀ l ∈ ls, l.Plain) (hf : NotesFit ls) (he : EndsWithWord ls)
    (L : Loaded) (hL : load p (dictFile ls) = .ok L) (l : DLine) (hl : l ∈ ls) (room : Nat) :
    (l.ty = 115 → ∀ into, translate p L.pc L.dict 115 l.word room into = .ok ⟨l.tr, [], true⟩) ∧
    (l.ty = 116 → ¬ Balanced p L.pc l → ∀ into, translate p L.pc L.dict 116 l.word room into = .exit) ∧
    (l.ty = 116 → Balanced p L.pc l → ∃ a b, SplitAtSign L.pc l.tr a b ∧
      translate p L.pc L.dict 116 l.word room true = .ok ⟨a, b, true⟩) := by
  obtain ⟨h1, _, h3, _⟩ := loaded hp hf he hL
  rw [h3]
  refine ⟨fun h into => (translate_mem hp h1 hl room into).1 h, fun h hb into => (translate_mem hp h1 hl room into).2.1 h hb,
    fun h hb => ⟨_, _, cut_spec L.pc l.tr, ?_⟩⟩
  rw [(translate_mem hp h1 hl room true).2.2 h hb, if_pos (.inr rfl)]

example : NotesFit sample ∧ EndsWithWord sample ∧ (∃ L, load 58 (dictFile sample) = .ok L ∧ L.pc = 59) ∧
    (∃ l ∈ sample, l.ty = 116 ∧ Balanced 58 59 l ∧ 59 ∈ l.tr) :=
  ⟨by decide +kernel, ⟨_, rfl, by decide⟩, by
    obtain ⟨L, h, h2⟩ := Out.of_sat (o := load 58 (dictFile sample)) (p := fun L => L.pc == 59) (by decide +kernel)
    exact ⟨L, h, by simpa using h2⟩,
   ⟨⟨116, [97, 58, 98, 58], none, [99, 100, 59, 101, 59]⟩, by decide, rfl, by decide, by decide⟩⟩

/-- **C38**: a word that is not in the dictionary is not translated: the answer is that it was not found, or (words with
a parameter sign) the word is printed as it stands, part by part. -/
theorem C38_unknown (p : UInt8) (ls : List DLine) (hp : ∀ l ∈ ls, l.Plain) (hf : NotesFit ls) (he : EndsWithWord ls)
    (L : Loaded) (hL : load p (dictFile ls) = .ok L) (ty : UInt8) (w : List UInt8) (room : Nat)
    (hn : ∀ l ∈ ls, l.ty = ty → l.word ≠ w) :
    (ty ≠ 116 ∨ p ∉ w → ∀ into, translate p L.pc L.dict ty w room into = .ok ⟨[], [], false⟩) ∧
    (ty = 116 → p ∈ w → w.length < room → ∃ a b, a ++ b = w ∧ a.getLast? = some p ∧ p ∉ a.dropLast ∧
      translate p L.pc L.dict ty w room true = .ok ⟨a, b, true⟩) := by
  obtain ⟨_, _, h3, _⟩ := loaded hp hf he hL
  have hfind := find_none (ls := ls) (ty := ty) (w := w) (fun l hl _ => hn l hl)
  rw [h3]
  constructor
  · intro h into
    unfold translate
    rw [hfind]
    dsimp only
    rw [if_neg]
    rintro ⟨h1, h2⟩
    rcases h with h | h
    · exact h h1
    · exact h h2
  · intro h hm hr
    obtain ⟨h1, h2⟩ := takeWhile_split p w
    have h2 : ∃ r, w = w.takeWhile (· != p) ++ p :: r := by
      rcases h2 with h2 | h2
      · rw [← h2] at h1; exact absurd hm h1
      · exact h2
    obtain ⟨r, hr2⟩ := h2
    generalize hg : w.takeWhile (· != p) = g at *
    refine ⟨g ++ [p], r, by rw [hr2]; simp, by rw [List.getLast?_concat], by rw [List.dropLast_concat]; exact h1, ?_⟩
    unfold translate
    rw [hfind]
    dsimp only
    rw [if_pos ⟨h, hm⟩, hg, if_pos ⟨rfl, hr⟩]
    congr 2
    rw [hr2, show g ++ p :: r = (g ++ [p]) ++ r by simp]
    rw [show g.length + 1 = (g ++ [p]).length by simp, List.drop_left]

example : (∀ l ∈ sample, l.ty = 116 → l.word ≠ [97, 58]) ∧ (58 : UInt8) ∈ ([97, 58] : List UInt8) ∧
    (∀ l ∈ sample, l.ty = 116 → l.word ≠ [97]) ∧ (58 : UInt8) ∉ ([97] : List UInt8) := by decide

/-- **C38**: without notes, distinct words have distinct translations. -/
theorem C38_distinct (p : UInt8) (ls : List DLine) (hp : ∀ l ∈ ls, l.Plain) (hf : NotesFit ls)
    (hn : ∀ l ∈ ls, l.note = none) (L : Loaded) (hL : load p (dictFile ls) = .ok L) (a b : DLine) (ha : a ∈ ls)
    (hb : b ∈ ls) (hw : a.ty = 116 ∨ a.ty = 115) (ht : a.ty = b.ty) : a.word = b.word ↔ a.tr = b.tr := by
  have hc : Consistent ls := by
    by_cases h : Consistent ls ∧ Complete ls
    · exact h.1
    · rw [(load_spec p ls hp hf).2 h] at hL; cases hL
  by_cases he : a = b
  · rw [he]; exact ⟨fun _ => rfl, fun _ => rfl⟩
  · have hwa := (isWord_iff a).2 hw
    have hwb := (isWord_iff b).2 (ht ▸ hw)
    rcases pairwise_or hc ha hb he with h | h
    · have := h hwa hwb ht
      exact ⟨fun e => absurd e this.1, fun e => absurd e (this.2 (hn b hb))⟩
    · have := h hwb hwa ht.symm
      exact ⟨fun e => absurd e.symm this.1, fun e => absurd e.symm (this.2 (hn a ha))⟩

example : (∀ l ∈ sample, l.note = none) ∧ NotesFit sample := by decide +kernel

/-- **C38**: translating back. The mirrored dictionary of an accepted dictionary without notes is accepted, and restores
every word and every text that the dictionary translates (if the parameter signs are a translation of each other). -/
theorem C38_mirror_partial (p q : UInt8) (ls : List DLine) (hp : ∀ l ∈ ls, l.Plain) (hf : NotesFit ls) (he : EndsWithWord ls)
    (hn : ∀ l ∈ ls, l.note = none) (hs : SignPair p q ls) (L : Loaded) (hL : load p (dictFile ls) = .ok L) :
    L.pc = q ∧ ∃ M, load q (dictFile (mirrored ls)) = .ok M ∧ M.pc = p ∧
      ∀ l ∈ ls, ∀ room into r, l.ty = 116 ∨ l.ty = 115 → translate p L.pc L.dict l.ty l.word room into = .ok r →
        r.out ++ r.rem = l.tr ∧
        ∃ r', translate q M.pc M.dict l.ty (r.out ++ r.rem) room true = .ok r' ∧ r'.found = true ∧
          r'.out ++ r'.rem = l.word := by
  obtain ⟨hc, hd, h3, h4⟩ := loaded hp hf he hL
  have hpc : L.pc = q := by
    rw [h4]
    exact pcOf_spec ls 0 (fun l hl hw => (hs.2 l hl hw).1) (.inr hs.1)
  have hmp : ∀ l ∈ mirrored ls, l.Plain := by
    intro l hl
    obtain ⟨a, ha, rfl⟩ := List.mem_map.1 hl
    exact mirror_plain (hp a ha) (by have := hf a ha; omega)
  have hmf : NotesFit (mirrored ls) := by
    intro l hl
    obtain ⟨a, ha, rfl⟩ := List.mem_map.1 hl
    rw [mirror_extra]
    have : a.word.length ≤ 4999 := (hp a ha).fits
    show 0 + a.word.length + 1 ≤ 5000
    omega
  have hmc := mirror_consistent hc hn
  have hmd : Complete (mirrored ls) := by
    obtain ⟨⟨a, ha, ha2⟩, ⟨b, hb, hb2⟩⟩ := hd
    exact ⟨⟨a.mirror, List.mem_map_of_mem ha, ha2⟩, ⟨b.mirror, List.mem_map_of_mem hb, hb2⟩⟩
  have hme : EndsWithWord (mirrored ls) := by
    obtain ⟨l, hl, hw⟩ := he
    refine ⟨l.mirror, ?_, hw⟩
    unfold mirrored
    rw [List.getLast?_map, hl]; rfl
  obtain ⟨M, hM⟩ := (C38_load q (mirrored ls) hmp hmf).1 ⟨hmc, hmd⟩
  obtain ⟨_, _, m3, m4⟩ := loaded hmp hmf hme hM
  have hmpc : M.pc = p := by
    rw [m4]
    apply pcOf_spec
    · intro l hl hw
      obtain ⟨a, ha, rfl⟩ := List.mem_map.1 hl
      exact (hs.2 a ha hw).2
    · obtain ⟨l, hl, hw, hh⟩ := hs.1
      exact .inr ⟨l.mirror, List.mem_map_of_mem hl, hw, (hs.2 l hl hw).1 hh⟩
  refine ⟨hpc, M, hM, hmpc, ?_⟩
  intro l hl room into r hty hr
  rw [hpc, h3] at hr
  rw [hmpc, m3]
  have hml : l.mirror ∈ mirrored ls := List.mem_map_of_mem hl
  rcases hty with ht | ht
  · rw [ht] at hr ⊢
    by_cases hb : Balanced p q l
    · rw [(translate_mem hp hc hl room into).2.2 ht hb] at hr
      split at hr
      · injection hr with hr
        subst hr
        dsimp only
        rw [(cut_spec q l.tr).1]
        refine ⟨rfl, ⟨(cut p l.word).1, (cut p l.word).2, true⟩, ?_, rfl, (cut_spec p l.word).1⟩
        have hb' : Balanced q p l.mirror := hb.symm
        have := (translate_mem hmp hmc hml room true).2.2 ht hb'
        rw [if_pos (.inr rfl)] at this
        exact this
      · cases hr
    · rw [(translate_mem hp hc hl room into).2.1 ht hb] at hr
      cases hr
  · rw [ht] at hr ⊢
    rw [(translate_mem hp hc hl room into).1 ht] at hr
    injection hr with hr
    subst hr
    dsimp only
    rw [List.append_nil]
    exact ⟨rfl, _, (translate_mem hmp hmc hml room true).1 ht, rfl, List.append_nil _⟩

example : (∀ l ∈ sample, l.note = none) ∧ SignPair 58 59 sample ∧
    (∃ L, load 58 (dictFile sample) = .ok L ∧
      translate 58 L.pc L.dict 116 [97, 58, 98, 58] 180 true = .ok ⟨[99, 100, 59], [101, 59], true⟩) := by
  refine ⟨by decide, by decide, ?_⟩
  obtain ⟨L, h, h2⟩ := Out.of_sat (o := load 58 (dictFile sample))
    (p := fun L => (translate 58 L.pc L.dict 116 [97, 58, 98, 58] 180 true) == .ok ⟨[99, 100, 59], [101, 59], true⟩)
    (by decide +kernel)
  exact ⟨L, h, eq_of_beq h2⟩

/-- **C38** is violated: if the last line of an accepted dictionary gives a separator, all words are lost; here `a` has
the translation `b`. -/
theorem C38_violated_order :
    ∃ ls, (∀ l ∈ ls, l.Plain) ∧ NotesFit ls ∧ (⟨116, [97], none, [98]⟩ : DLine) ∈ ls ∧
      ∃ L, load 58 (dictFile ls) = .ok L ∧ translate 58 L.pc L.dict 116 [97] 180 true = .ok ⟨[], [], false⟩ := by
  refine ⟨[⟨116, [97], none, [98]⟩, ⟨120, [44], none, [46]⟩, ⟨100, [46], none, [44]⟩], plains_of (by decide +kernel),
    by decide +kernel, by decide, ?_⟩
  obtain ⟨L, h, h2⟩ := Out.of_sat (o := load 58 (dictFile
    [⟨116, [97], none, [98]⟩, ⟨120, [44], none, [46]⟩, ⟨100, [46], none, [44]⟩]))
    (p := fun L => (translate 58 L.pc L.dict 116 [97] 180 true) == .ok ⟨[], [], false⟩) (by decide +kernel)
  exact ⟨L, h, eq_of_beq h2⟩

/-- In general: whenever the last line gives a separator, no word of the program is found. -/
theorem C38_lost (p : UInt8) (ls : List DLine) (hp : ∀ l ∈ ls, l.Plain) (hf : NotesFit ls) (l : DLine)
    (hlast : ls.getLast? = some l) (hl : l.ty = 100 ∨ l.ty = 120) (L : Loaded) (hL : load p (dictFile ls) = .ok L)
    (ty : UInt8) (hty : ty = 116 ∨ ty = 115) (w : List UInt8) (hw : p ∉ w) (room : Nat) (into : Bool) :
    translate p L.pc L.dict ty w room into = .ok ⟨[], [], false⟩ := by
  have h : Consistent ls ∧ Complete ls := by
    by_cases h : Consistent ls ∧ Complete ls
    · exact h
    · rw [(load_spec p ls hp hf).2 h] at hL; cases hL
  obtain ⟨L', d, x, h1, _, _, _, _, _, h7⟩ := (load_spec p ls hp hf).1 h
  rw [hL] at h1
  injection h1 with h1
  subst h1
  have hnw : l.isWord = false := by
    cases h : l.isWord with
    | false => rfl
    | true => rw [isWord_iff] at h; rcases hl with e | e <;> rw [e] at h <;> exact absurd h (by decide)
  rw [hlast] at h7
  dsimp only at h7
  rw [hnw] at h7
  rw [h7]
  have hne : ¬ ty = (ent l).type := by
    show ¬ ty = l.ty
    rcases hl with e | e <;> rcases hty with e' | e' <;> rw [e, e'] <;> decide
  unfold translate
  have : List.find? (fun e => decide (w.length = e.word.length ∧ ty = e.type ∧ e.word = w))
      (if false = true then entsOf ls.reverse else [ent l]) = none := by
    rw [if_neg (by decide), List.find?_eq_none]
    intro e he h
    rw [List.mem_singleton.1 he] at h
    simp only [decide_eq_true_eq] at h
    exact hne h.2.1
  rw [this]
  dsimp only
  rw [if_neg (fun h => hw h.2)]

example : ∃ L, load 58 (dictFile [⟨116, [97], none, [98]⟩, ⟨120, [44], none, [46]⟩, ⟨100, [46], none, [44]⟩]) = .ok L :=
  (Out.of_sat (p := fun _ => true) (by decide +kernel)).imp (fun _ h => h.1)

/-- **C38** is violated: the order of the lines for `:` and `:=` decides which byte is taken for the parameter sign of
the other language; with the lines `:` to `;` and then `:=` to `=`, a message with a parameter ends the program, with
the lines in the other order it is translated. -/
theorem C38_violated_sign :
    let a : DLine := ⟨116, [58], none, [59]⟩
    let b : DLine := ⟨116, [58, 61], none, [61]⟩
    let m : DLine := ⟨116, [97, 58], none, [98, 59]⟩
    let rest : List DLine := [⟨100, [46], none, [44]⟩, ⟨120, [44], none, [46]⟩, m]
    (∃ L, load 58 (dictFile ([b, a] ++ rest)) = .ok L ∧
      translate 58 L.pc L.dict 116 [97, 58] 180 true = .ok ⟨[98, 59], [], true⟩) ∧
    (∃ L, load 58 (dictFile ([a, b] ++ rest)) = .ok L ∧ translate 58 L.pc L.dict 116 [97, 58] 180 true = .exit) := by
  intro a b m rest
  constructor
  · obtain ⟨L, h, h2⟩ := Out.of_sat (o := load 58 (dictFile ([b, a] ++ rest)))
      (p := fun L => (translate 58 L.pc L.dict 116 [97, 58] 180 true) == .ok ⟨[98, 59], [], true⟩) (by decide +kernel)
    exact ⟨L, h, eq_of_beq h2⟩
  · obtain ⟨L, h, h2⟩ := Out.of_sat (o := load 58 (dictFile ([a, b] ++ rest)))
      (p := fun L => (translate 58 L.pc L.dict 116 [97, 58] 180 true) == .exit) (by decide +kernel)
    exact ⟨L, h, eq_of_beq h2⟩

/-- **C38** is violated: the sign of assignment is translated without a buffer for a remainder
(`ctr_translate_assign`, `translator.c:597-600`). If an accepted dictionary has no line for `:=`, the copy goes to
address 0. -/
theorem C38_violated_assign (p : UInt8) (ls : List DLine) (hp : ∀ l ∈ ls, l.Plain) (hf : NotesFit ls)
    (he : EndsWithWord ls) (L : Loaded) (hL : load p (dictFile ls) = .ok L) (hn : ∀ l ∈ ls, l.ty = 116 → l.word ≠ [p, 61])
    (room : Nat) : translate p L.pc L.dict 116 [p, 61] room false = .ub := by
  obtain ⟨_, _, h3, _⟩ := loaded hp hf he hL
  rw [h3]
  unfold translate
  rw [find_none (ls := ls) (ty := 116) (w := [p, 61]) (fun l hl _ => hn l hl)]
  dsimp only
  rw [if_pos ⟨rfl, by simp⟩, if_neg]
  simp

example :
    let ls : List DLine := [⟨100, [46], none, [44]⟩, ⟨120, [44], none, [46]⟩, ⟨116, [97], none, [98]⟩]
    ((∀ l ∈ ls, l.Plain) ∧ NotesFit ls ∧ EndsWithWord ls ∧ ∀ l ∈ ls, l.ty = 116 → l.word ≠ [58, 61]) ∧
      ∃ L, load 58 (dictFile ls) = .ok L := by
  intro ls
  exact ⟨⟨plains_of (by decide +kernel), by decide +kernel, ⟨_, rfl, by decide⟩, by decide⟩,
    (Out.of_sat (p := fun _ => true) (by decide +kernel)).imp (fun _ h => h.1)⟩

/-- **C38** is violated: notes use up the buffer. The pointer is never moved back (`translator.c:324`), so a translation
that comes after too many bytes of notes is written behind the end of the buffer. -/
theorem C38_violated_notes (p : UInt8) (a b : DLine) (ha : a.Plain) (hb : b.Plain) (hne : Agree a b)
    (hf : a.extra + a.tr.length ≤ 4999) (hg : b.extra + b.tr.length ≤ 4999)
    (hbig : 5000 ≤ a.extra + b.extra + b.tr.length) : load p (dictFile [a, b]) = .ub := by
  have hpl : ∀ x ∈ [a, b], x.Plain := by
    intro x hx
    rcases List.mem_cons.1 hx with rfl | hx
    · exact ha
    · rw [List.mem_singleton.1 hx]; exact hb
  have h1 : ∃ s', loadLoop p 1 (dictFile [a]) ⟨[], [], none, none, 0, [], [], 0⟩ = .ok s' :=
    ((loop_spec p [a] 1 ⟨[], [], none, none, 0, [], [], 0⟩ [] (by simp)
      (fun l hl => by rw [List.mem_singleton.1 hl]; exact ha)
      (by intro l hl; rw [List.mem_singleton.1 hl]; simp; omega) rfl).1 ⟨List.pairwise_singleton _ _, by simp⟩).imp
      (fun _ h => h.1)
  obtain ⟨s', h1⟩ := h1
  rw [loadLoop_cons p 0 a [] _ (fun x hx => hpl x (by simp at hx; simp [hx])) (by rw [field_length]; exact hf)] at h1
  obtain ⟨k, hk⟩ : ∃ k, (dictFile [a, b]).length = k + 2 := by
    have := file_length [a, b]
    exact ⟨_, (Nat.sub_add_cancel this).symm⟩
  unfold load
  rw [hk, loadLoop_cons p (k + 1) a [b] _ hpl (by rw [field_length]; exact hf)]
  obtain ⟨s1, _, _, _, _, h5, h6⟩ := enterLine_spec p a ⟨[], [], none, none, 0, [], [], 0⟩ ha (by simp; omega)
  cases hx : enterLine p a ⟨[], [], none, none, 0, [], [], 0⟩ with
  | ub => rw [hx] at h1; cases h1
  | exit => rw [hx] at h1; cases h1
  | ok s2 =>
    have hs : s2.shift = a.extra := by
      rw [hx] at h6
      have h5 : s1.shift = a.extra := by rw [h5]; exact Nat.zero_add _
      split at h6
      · injection h6 with h6; rw [h6]; exact h5
      · split at h6
        · injection h6 with h6; rw [h6]; exact h5
        · unfold add at h6
          split at h6
          · cases h6
          · split at h6
            · cases h6
            · split at h6
              · cases h6
              · injection h6 with h6; rw [h6]; exact h5
    show (Out.bind (loadLoop p (k + 1) (dictFile [b]) s2) _) = _
    rw [loadLoop_cons p k b [] s2 (fun x hx => hpl x (by simp at hx; simp [hx])) (by rw [field_length]; exact hg)]
    unfold enterLine
    rw [if_pos]
    · rfl
    · rw [hs, field_length]; unfold lineBuf; omega

example : ∃ a b : DLine, a.Plain ∧ b.Plain ∧ Agree a b ∧ a.extra + a.tr.length ≤ 4999 ∧ b.extra + b.tr.length ≤ 4999 ∧
    5000 ≤ a.extra + b.extra + b.tr.length := by
  obtain ⟨r, hr, hl⟩ : ∃ r : List UInt8, (∀ c ∈ r, c = 65) ∧ r.length = 3000 :=
    ⟨List.replicate 3000 65, fun c hc => (List.mem_replicate.1 hc).2, List.length_replicate⟩
  have hb : ∀ c ∈ r, c ≠ 0 ∧ c ≠ 34 ∧ c ≠ 35 := fun c hc => by rw [hr c hc]; decide
  have hne : r ≠ [] := by intro h; rw [h] at hl; cases hl
  have e1 : DLine.extra ⟨115, [97], some r, [98]⟩ = 3001 := by show r.length + 1 = 3001; rw [hl]
  have e2 : DLine.extra ⟨115, [98], none, r⟩ = 0 := rfl
  refine ⟨⟨115, [97], some r, [98]⟩, ⟨115, [98], none, r⟩, ?_, ?_, ?_, ?_, ?_, ?_⟩
  · exact ⟨by dsimp only; decide, by dsimp only; decide, by dsimp only; decide, by dsimp only; decide, by dsimp only; decide,
      (by intro n hn; injection hn with hn; rw [← hn]; exact hb), (by intro h; exact absurd rfl h), by dsimp only; decide⟩
  · exact ⟨by dsimp only; decide, by dsimp only; decide, hne, by dsimp only; decide, hb, (by intro n hn; cases hn), (by intro h; exact absurd rfl h), by dsimp only; decide⟩
  · intro _ _ _
    refine ⟨by dsimp only; decide, ?_⟩
    intro _ h
    have h : [98] = r := h
    rw [← h] at hl; cases hl
  · rw [e1]; dsimp only; decide
  · rw [e2]; show 0 + r.length ≤ 4999; omega
  · rw [e1, e2]; show 5000 ≤ 3001 + 0 + r.length; omega

theorem prefix_tail {d x t : List UInt8} (h1 : ¬ d <+: x) (h2 : ¬ x <+: d) : ¬ d <+: x ++ t := by
  intro h
  rcases Nat.le_total d.length x.length with hl | hl
  · exact h1 (List.prefix_of_prefix_length_le h (List.prefix_append _ _) hl)
  · exact h2 (List.prefix_of_prefix_length_le (List.prefix_append _ _) h hl)

theorem number_skip (D X : Entry) : ∀ (w t : Text), number D X w.length (w ++ t) = number D X 0 t := by
  intro w
  induction w with
  | nil => intro t; rfl
  | cons c w ih =>
    intro t
    show number D X (w.length + 1) (c :: (w ++ t)) = _
    conv => lhs; unfold number
    exact ih t

theorem number_tail (D X : Entry) (w t : Text) (h : w ≠ []) :
    number D X (w.length - 1) ((w ++ t).tail) = number D X 0 t := by
  cases w with
  | nil => exact absurd rfl h
  | cons c w => exact number_skip D X w t

theorem number_cons (D X : Entry) (c : UInt8) (r : Text) : number D X 0 (c :: r) =
    if D.word.isPrefixOf (c :: r) then D.tr ++ number D X (D.word.length - 1) r
    else if X.word.isPrefixOf (c :: r) then X.tr ++ number D X (X.word.length - 1) r
    else c :: number D X 0 r := by
  conv => lhs; unfold number

/-- **C55**: translating a number replaces its separators and nothing else, for every number and every two languages
whose separators can be told apart. -/
theorem C55 (D X : Entry) (ps : List NumPiece) (h : Separators D.word X.word ps) :
    number D X 0 (numText D.word X.word ps) = numText D.tr X.tr ps := by
  induction ps with
  | nil => rfl
  | cons a ps ih =>
    have ih := ih ⟨h.dec, h.tho, h.apart, fun c hc => h.bytes c (List.mem_cons_of_mem _ hc)⟩
    have nohead : ∀ (w : Text) (c : UInt8) (r : Text), w ≠ [] → w.head? ≠ some c → ¬ w.isPrefixOf (c :: r) = true := by
      intro w c r hw hc hh
      cases w with
      | nil => exact hw rfl
      | cons x w =>
        rw [List.isPrefixOf_cons_cons, Bool.and_eq_true] at hh
        exact hc (by rw [eq_of_beq hh.1]; rfl)
    cases a with
    | byte c =>
      have hb := h.bytes c List.mem_cons_self
      show number D X 0 (c :: numText D.word X.word ps) = c :: numText D.tr X.tr ps
      rw [number_cons, if_neg (nohead _ c _ h.dec hb.1), if_neg (nohead _ c _ h.tho hb.2), ih]
    | dec =>
      show number D X 0 (D.word ++ numText D.word X.word ps) = D.tr ++ numText D.tr X.tr ps
      have ht := number_tail D X D.word (numText D.word X.word ps) h.dec
      have hpre : D.word.isPrefixOf (D.word ++ numText D.word X.word ps) = true :=
        List.isPrefixOf_iff_prefix.2 (List.prefix_append _ _)
      cases hh : D.word ++ numText D.word X.word ps with
      | nil => exact absurd (List.append_eq_nil_iff.1 hh).1 h.dec
      | cons c r =>
        rw [hh] at ht hpre
        rw [number_cons, if_pos hpre]
        rw [List.tail_cons] at ht
        rw [ht, ih]
    | tho =>
      show number D X 0 (X.word ++ numText D.word X.word ps) = X.tr ++ numText D.tr X.tr ps
      have ht := number_tail D X X.word (numText D.word X.word ps) h.tho
      have hpre : X.word.isPrefixOf (X.word ++ numText D.word X.word ps) = true :=
        List.isPrefixOf_iff_prefix.2 (List.prefix_append _ _)
      have hnot : ¬ D.word.isPrefixOf (X.word ++ numText D.word X.word ps) = true :=
        fun e => prefix_tail h.apart.1 h.apart.2 (List.isPrefixOf_iff_prefix.1 e)
      cases hh : X.word ++ numText D.word X.word ps with
      | nil => exact absurd (List.append_eq_nil_iff.1 hh).1 h.tho
      | cons c r =>
        rw [hh] at ht hpre hnot
        rw [number_cons, if_neg hnot, if_pos hpre]
        rw [List.tail_cons] at ht
        rw [ht, ih]

/-- The number 1,234.5 with separators of several bytes that share their first byte. -/
example : Separators [217, 171] [217, 172] [.byte 49, .tho, .byte 50, .byte 51, .byte 52, .dec, .byte 53] :=
  ⟨by decide, by decide, by decide, by
    intro c hc
    simp at hc
    rcases hc with rfl | rfl | rfl | rfl | rfl <;> decide⟩

/-- **C55**: translating the number back with the mirrored entries restores it. -/
theorem C55_back (D X : Entry) (ps : List NumPiece) (h : Separators D.word X.word ps) (h' : Separators D.tr X.tr ps) :
    number ⟨D.type, D.tr, D.word⟩ ⟨X.type, X.tr, X.word⟩ 0 (number D X 0 (numText D.word X.word ps))
      = numText D.word X.word ps := by
  rw [C55 D X ps h]
  exact C55 ⟨D.type, D.tr, D.word⟩ ⟨X.type, X.tr, X.word⟩ ps h'

example : Separators [46] [44] [.byte 49, .tho, .byte 50, .dec, .byte 53] ∧
    Separators [44] [46] [.byte 49, .tho, .byte 50, .dec, .byte 53] := by
  constructor <;> exact ⟨by decide, by decide, by decide, by
    intro c hc
    simp at hc
    rcases hc with rfl | rfl | rfl <;> decide⟩

end Verif.Props.Trans
