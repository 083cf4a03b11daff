import Verif.Model.Translator
import Verif.Spec.Translator

/-! # Lemmas about loading dictionaries -/

namespace Verif.Lemmas.Trans
open Verif Verif.Model Verif.Model.Trans Verif.Spec

theorem takeWhile_all {p : UInt8 → Bool} {t : Text} (h : ∀ c ∈ t, p c = true) : t.takeWhile p = t := by
  induction t with
  | nil => rfl
  | cons a t ih =>
    rw [List.takeWhile_cons_of_pos (h a List.mem_cons_self), ih (fun c hc => h c (List.mem_cons_of_mem _ hc))]

theorem takeWhile_stop {p : UInt8 → Bool} {t r : Text} {x : UInt8} (h : ∀ c ∈ t, p c = true) (hx : p x = false) :
    (t ++ x :: r).takeWhile p = t := by
  induction t with
  | nil => simp [hx]
  | cons a t ih =>
    rw [List.cons_append, List.takeWhile_cons_of_pos (h a List.mem_cons_self),
      ih (fun c hc => h c (List.mem_cons_of_mem _ hc))]

theorem dropWhile_stop {p : UInt8 → Bool} {t r : Text} {x : UInt8} (h : ∀ c ∈ t, p c = true) (hx : p x = false) :
    (t ++ x :: r).dropWhile p = x :: r := by
  induction t with
  | nil => simp [hx]
  | cons a t ih =>
    rw [List.cons_append, List.dropWhile_cons_of_pos (h a List.mem_cons_self),
      ih (fun c hc => h c (List.mem_cons_of_mem _ hc))]

theorem dropWhile_all {p : UInt8 → Bool} {t : Text} (h : ∀ c ∈ t, p c = true) : t.dropWhile p = [] := by
  induction t with
  | nil => rfl
  | cons a t ih =>
    rw [List.dropWhile_cons_of_pos (h a List.mem_cons_self), ih (fun c hc => h c (List.mem_cons_of_mem _ hc))]

theorem field_spec {t r : Text} (h : ∀ c ∈ t, c ≠ 34) (h0 : t ≠ []) (hl : t.length ≤ 4999) :
    field (t ++ 34 :: r) = some (t, 34 :: r) := by
  have hp : ∀ c ∈ t, (c != 34) = true := fun c hc => by simp [h c hc]
  have e : ((t ++ 34 :: r).take 4999).takeWhile (· != 34) = t := by
    rw [List.take_append, List.take_of_length_le hl]
    cases hk : 4999 - t.length with
    | zero => rw [List.take_zero, List.append_nil]; exact takeWhile_all hp
    | succ k => rw [List.take_succ_cons]; exact takeWhile_stop hp (by decide)
  unfold field
  simp only [e]
  rw [if_neg h0, List.drop_left]

/-- The loader reads a line of the documented form as it was written. -/
theorem line_spec {ty : UInt8} {w f r : Text} (hw : ∀ c ∈ w, c ≠ 34) (hw0 : w ≠ []) (hwl : w.length ≤ 4999)
    (hf : ∀ c ∈ f, c ≠ 34) (hf0 : f ≠ []) (hfl : f.length ≤ 4999) :
    line ty (32 :: 34 :: (w ++ 34 :: 32 :: 34 :: (f ++ 34 :: 10 :: r))) = (ty, some w, some f, ws r) := by
  have e1 : quote (ws (32 :: 34 :: (w ++ 34 :: 32 :: 34 :: (f ++ 34 :: 10 :: r))))
      = some (w ++ 34 :: 32 :: 34 :: (f ++ 34 :: 10 :: r)) := rfl
  have e2 : quote (34 :: 32 :: 34 :: (f ++ 34 :: 10 :: r)) = some (32 :: 34 :: (f ++ 34 :: 10 :: r)) := rfl
  have e3 : quote (ws (32 :: 34 :: (f ++ 34 :: 10 :: r))) = some (f ++ 34 :: 10 :: r) := rfl
  have e4 : quote (34 :: 10 :: r) = some (10 :: r) := rfl
  have e5 : ws (10 :: r) = ws r := rfl
  unfold line
  simp only [e1, field_spec hw hw0 hwl, e2, e3, field_spec hf hf0 hfl, e4, e5]

theorem field_bytes {l : DLine} (h : l.Plain) : ∀ c ∈ l.field, c ≠ 0 ∧ c ≠ 34 := by
  intro c hc
  unfold DLine.field at hc
  split at hc
  · exact ⟨(h.trBytes c hc).1, (h.trBytes c hc).2.1⟩
  · next n hn =>
    rcases List.mem_append.1 hc with hc | hc
    · exact ⟨(h.noteBytes n hn c hc).1, (h.noteBytes n hn c hc).2.1⟩
    · rcases List.mem_cons.1 hc with hc | hc
      · subst hc; decide
      · exact ⟨(h.trBytes c hc).1, (h.trBytes c hc).2.1⟩

theorem field_length (l : DLine) : l.field.length = l.extra + l.tr.length := by
  unfold DLine.field DLine.extra
  split
  · omega
  · simp; omega

theorem field_ne {l : DLine} (h : l.Plain) : l.field ≠ [] := by
  intro e
  have h1 := congrArg List.length e
  rw [field_length] at h1
  have h2 : 0 < l.tr.length := List.length_pos_iff.2 h.tr
  have h3 : l.extra + l.tr.length = 0 := h1
  omega

theorem modifier_spec {l : DLine} (h : l.Plain) :
    modifier (cstr l.field) = (match l.note with | none => none | some _ => some (l.tr, l.extra)) := by
  have e : cstr l.field = l.field := takeWhile_all (fun c hc => by simp [(field_bytes h c hc).1])
  rw [e]
  unfold DLine.field DLine.extra
  cases hn : l.note with
  | none =>
    dsimp only
    unfold modifier
    rw [dropWhile_all (fun c hc => by simp [(h.trBytes c hc).2.2])]
  | some n =>
    dsimp only
    have hb : ∀ c ∈ n, (c != 35) = true := fun c hc => by simp [(h.noteBytes n hn c hc).2.2]
    unfold modifier
    rw [dropWhile_stop hb (by decide), takeWhile_stop hb (by decide)]

/-- The entry a line makes. -/
def ent (l : DLine) : Entry := ⟨l.ty, l.word, l.tr⟩

theorem ws_file {ls : List DLine} (h : ∀ l ∈ ls, l.Plain) : ws (dictFile ls) = dictFile ls := by
  cases ls with
  | nil => rfl
  | cons l ls =>
    have : dictFile (l :: ls) = l.ty :: ([32, 34] ++ l.word ++ [34, 32, 34] ++ l.field ++ [34, 10] ++ dictFile ls) := by
      simp [dictFile, DLine.render]
    rw [this]
    unfold ws
    rw [List.dropWhile_cons_of_neg]
    rcases (h l List.mem_cons_self).ty with e | e | e | e <;> rw [e] <;> decide

/-- What happens to a line of the documented form. -/
def enterLine (p : UInt8) (l : DLine) (s : LS) : Out LS :=
  (if s.shift + l.field.length + 1 > lineBuf then Out.ub
   else .ok { s with word := l.word, tr := l.field }).bind fun s => enter p l.ty s

theorem loadLoop_cons (p : UInt8) (n : Nat) (l : DLine) (ls : List DLine) (s : LS) (h : ∀ x ∈ l :: ls, x.Plain)
    (hf : l.field.length ≤ 4999) :
    loadLoop p (n + 1) (dictFile (l :: ls)) s
      = (enterLine p l s).bind fun s => loadLoop p n (dictFile ls) s := by
  have hl := h l List.mem_cons_self
  have e : dictFile (l :: ls)
      = l.ty :: (32 :: 34 :: (l.word ++ 34 :: 32 :: 34 :: (l.field ++ 34 :: 10 :: dictFile ls))) := by
    simp [dictFile, DLine.render]
  rw [e]
  have e2 := line_spec (ty := l.ty) (r := dictFile ls) (fun c hc => (hl.wordBytes c hc).2.1) hl.word hl.fits
    (fun c hc => (field_bytes hl c hc).2) (field_ne hl) hf
  rw [ws_file (fun x hx => h x (List.mem_cons_of_mem _ hx))] at e2
  conv => lhs; unfold loadLoop
  rw [e2]
  dsimp only
  unfold enterLine store
  dsimp only [Option.getD]
  split
  · rfl
  · rfl

/-- Where the line goes. -/
theorem enterLine_spec (p : UInt8) (l : DLine) (s : LS) (h : l.Plain) (hf : s.shift + l.extra + l.tr.length + 1 ≤ 5000) :
    ∃ s1 : LS, s1.ents = s.ents ∧ s1.dec = s.dec ∧ s1.tho = s.tho ∧ s1.pc = s.pc ∧ s1.shift = s.shift + l.extra ∧
      enterLine p l s = (if l.ty = 100 then .ok { s1 with dec := some (ent l), ret := [ent l] }
        else if l.ty = 120 then .ok { s1 with tho := some (ent l), ret := [ent l] }
        else add p (ent l) l.note.isSome s1) := by
  have hw : cstr l.word = l.word := takeWhile_all (fun c hc => by simp [(h.wordBytes c hc).1])
  have h35 : ¬ (35 ∈ l.word) := fun hc => (h.wordBytes _ hc).2.2 rfl
  have hty : ¬ (l.ty ≠ 116 ∧ l.ty ≠ 115 ∧ l.ty ≠ 100 ∧ l.ty ≠ 120) := by
    have := h.ty
    grind
  have hlen : ¬ (l.ty ≠ 115 ∧ (l.word.length > maxWord ∨ l.tr.length > maxWord)) := by
    rintro ⟨h1, h2⟩
    have := h.short h1
    unfold maxWord at h2
    omega
  have hfit : ¬ (s.shift + l.field.length + 1 > lineBuf) := by
    rw [field_length]; unfold lineBuf; omega
  refine ⟨{ s with word := l.word, tr := l.tr, shift := s.shift + l.extra }, rfl, rfl, rfl, rfl, rfl, ?_⟩
  unfold enterLine
  rw [if_neg hfit]
  show enter p l.ty { s with word := l.word, tr := l.field } = _
  unfold enter
  dsimp only
  rw [if_neg hty, hw, if_neg h35, modifier_spec h]
  have hc : l.note = none → cstr l.field = l.tr := by
    intro hn
    rw [show l.field = l.tr by simp [DLine.field, hn]]
    exact takeWhile_all (fun c hc => by simp [(h.trBytes c hc).1])
  cases hn : l.note with
  | none =>
    dsimp only
    rw [hc hn, if_neg hlen]
    have hx : l.extra = 0 := by simp [DLine.extra, hn]
    rw [hx]
    rfl
  | some n =>
    dsimp only
    rw [if_neg hlen]
    rfl

/-- The entries that the lines (newest first) make. -/
def entsOf (ls : List DLine) : List Entry := (ls.filter DLine.isWord).map ent

theorem entsOf_cons_pos {l : DLine} {ls : List DLine} (h : l.isWord = true) : entsOf (l :: ls) = ent l :: entsOf ls := by
  simp [entsOf, h]

theorem entsOf_cons_neg {l : DLine} {ls : List DLine} (h : l.isWord = false) : entsOf (l :: ls) = entsOf ls := by
  simp [entsOf, h]

theorem clash_iff (older : List DLine) (l : DLine) (hw : l.isWord = true) :
    (entsOf older).any (fun o => o.type = (ent l).type && (o.word = (ent l).word || (o.tr = (ent l).tr && !l.note.isSome)))
      = true ↔ ¬ ∀ o ∈ older, Agree o l := by
  rw [List.any_eq_true]
  unfold entsOf ent Agree
  constructor
  · rintro ⟨e, he, h⟩ ha
    obtain ⟨o, ho, rfl⟩ := List.mem_map.1 he
    obtain ⟨ho, hw'⟩ := List.mem_filter.1 ho
    have := ha o ho hw' hw
    simp at h
    obtain ⟨h1, h2⟩ := h
    have := this h1
    rcases h2 with h2 | h2
    · exact this.1 h2
    · exact this.2 h2.2 h2.1
  · intro h
    simp only [Classical.not_forall] at h
    obtain ⟨o, ho, h1, _, h2, h3⟩ := h
    refine ⟨⟨o.ty, o.word, o.tr⟩, List.mem_map.2 ⟨o, List.mem_filter.2 ⟨ho, h1⟩, rfl⟩, ?_⟩
    simp only [h2, decide_true, Bool.true_and, Bool.or_eq_true, decide_eq_true_eq, Bool.and_eq_true, Bool.not_eq_true']
    by_cases hq : o.word = l.word
    · exact .inl hq
    · right
      by_cases hn : l.note = none
      · refine ⟨?_, by rw [hn]; rfl⟩
        by_cases ht : o.tr = l.tr
        · exact ht
        · exact absurd ⟨hq, fun _ => ht⟩ h3
      · exact absurd ⟨hq, fun h => absurd h hn⟩ h3

/-- The parameter sign after reading the lines. -/
def pcOf (p : UInt8) : List DLine → UInt8 → UInt8
  | [], c => c
  | l :: ls, c => pcOf p ls (if l.isWord = true ∧ l.word.head? = some p then l.tr.headD 0 else c)

theorem lastOf_cons (ty : UInt8) (l : DLine) (ls : List DLine) :
    lastOf ty (l :: ls) = (lastOf ty ls).or (if l.ty = ty then some l else none) := by
  unfold lastOf
  by_cases h : l.ty = ty
  · rw [List.filter_cons_of_pos (by simp [h]), if_pos h, List.getLast?_cons]
    cases (List.filter (fun l => decide (l.ty = ty)) ls).getLast? <;> rfl
  · rw [List.filter_cons_of_neg (by simp [h]), if_neg h]
    cases (List.filter (fun l => decide (l.ty = ty)) ls).getLast? <;> rfl

theorem isWord_iff (l : DLine) : l.isWord = true ↔ l.ty = 116 ∨ l.ty = 115 := by
  simp [DLine.isWord]

/-- The loop accepts exactly the consistent files. -/
theorem loop_spec (p : UInt8) : ∀ (ls : List DLine) (n : Nat) (s : LS) (older : List DLine), ls.length ≤ n →
    (∀ l ∈ ls, l.Plain) → (∀ l ∈ ls, s.shift + (ls.map DLine.extra).sum + l.tr.length + 1 ≤ 5000) →
    s.ents = entsOf older →
    ((ls.Pairwise Agree ∧ ∀ l ∈ ls, ∀ o ∈ older, Agree o l) →
      ∃ s', loadLoop p n (dictFile ls) s = .ok s' ∧ s'.ents = entsOf (ls.reverse ++ older) ∧
        s'.ret = (match ls.getLast? with | none => s.ret | some l => if l.isWord then s'.ents else [ent l]) ∧
        s'.dec = ((lastOf 100 ls).map ent).or s.dec ∧ s'.tho = ((lastOf 120 ls).map ent).or s.tho ∧
        s'.pc = pcOf p ls s.pc) ∧
    (¬ (ls.Pairwise Agree ∧ ∀ l ∈ ls, ∀ o ∈ older, Agree o l) → loadLoop p n (dictFile ls) s = .exit) := by
  intro ls
  induction ls with
  | nil =>
    intro n s older _ _ _ he
    refine ⟨fun _ => ⟨s, ?_, ?_, rfl, rfl, rfl, rfl⟩, fun h => absurd ⟨List.Pairwise.nil, by simp⟩ h⟩
    · cases n <;> rfl
    · exact he
  | cons l ls ih =>
    intro n s older hn hp hf he
    obtain ⟨n, rfl⟩ : ∃ m, n = m + 1 := ⟨n - 1, by simp at hn; omega⟩
    have hl := hp l List.mem_cons_self
    have hf0 : s.shift + l.extra + l.tr.length + 1 ≤ 5000 := by
      have := hf l List.mem_cons_self
      simp at this
      omega
    rw [loadLoop_cons p n l ls s hp (by rw [field_length]; omega)]
    obtain ⟨s1, h1, h2, h3, h4, h5, h6⟩ := enterLine_spec p l s hl hf0
    have hp' : ∀ x ∈ ls, x.Plain := fun x hx => hp x (List.mem_cons_of_mem _ hx)
    have hn' : ls.length ≤ n := by simp at hn; omega
    have hf' : ∀ x ∈ ls, (s.shift + l.extra) + (ls.map DLine.extra).sum + x.tr.length + 1 ≤ 5000 := by
      intro x hx
      have := hf x (List.mem_cons_of_mem _ hx)
      simp at this
      omega
    have key : ∀ (s2 : LS), enterLine p l s = .ok s2 → s2.ents = entsOf (l :: older) → s2.shift = s.shift + l.extra →
        s2.ret = (if l.isWord then s2.ents else [ent l]) →
        s2.dec = (if l.ty = 100 then some (ent l) else s.dec) →
        s2.tho = (if l.ty = 120 then some (ent l) else s.tho) →
        s2.pc = (if l.isWord = true ∧ l.word.head? = some p then l.tr.headD 0 else s.pc) →
        (∀ o ∈ older, Agree o l) →
        (((l :: ls).Pairwise Agree ∧ ∀ x ∈ l :: ls, ∀ o ∈ older, Agree o x) →
          ∃ s', ((enterLine p l s).bind fun s => loadLoop p n (dictFile ls) s) = .ok s' ∧
            s'.ents = entsOf ((l :: ls).reverse ++ older) ∧
            s'.ret = (match (l :: ls).getLast? with | none => s.ret | some l => if l.isWord then s'.ents else [ent l]) ∧
            s'.dec = ((lastOf 100 (l :: ls)).map ent).or s.dec ∧ s'.tho = ((lastOf 120 (l :: ls)).map ent).or s.tho ∧
            s'.pc = pcOf p (l :: ls) s.pc) ∧
        (¬ ((l :: ls).Pairwise Agree ∧ ∀ x ∈ l :: ls, ∀ o ∈ older, Agree o x) →
          ((enterLine p l s).bind fun s => loadLoop p n (dictFile ls) s) = .exit) := by
      intro s2 e1 e2 e3 e4 e5 e6 e7 hag
      rw [e1]
      show (_ → ∃ s', loadLoop p n (dictFile ls) s2 = .ok s' ∧ _) ∧ (_ → loadLoop p n (dictFile ls) s2 = .exit)
      have hi := ih n s2 (l :: older) hn' hp' (by rw [e3]; exact hf') e2
      have hiff : ((l :: ls).Pairwise Agree ∧ ∀ x ∈ l :: ls, ∀ o ∈ older, Agree o x) ↔
          (ls.Pairwise Agree ∧ ∀ x ∈ ls, ∀ o ∈ l :: older, Agree o x) := by
        rw [List.pairwise_cons]
        constructor
        · rintro ⟨⟨a, b⟩, c⟩
          refine ⟨b, fun x hx o ho => ?_⟩
          rcases List.mem_cons.1 ho with rfl | ho
          · exact a x hx
          · exact c x (List.mem_cons_of_mem _ hx) o ho
        · rintro ⟨a, b⟩
          refine ⟨⟨fun x hx => b x hx l List.mem_cons_self, a⟩, fun x hx o ho => ?_⟩
          rcases List.mem_cons.1 hx with rfl | hx
          · exact hag o ho
          · exact b x hx o (List.mem_cons_of_mem _ ho)
      refine ⟨fun h => ?_, fun h => hi.2 (fun h' => h (hiff.2 h'))⟩
      obtain ⟨s', q1, q2, q3, q4, q5, q6⟩ := hi.1 (hiff.1 h)
      refine ⟨s', q1, ?_, ?_, ?_, ?_, ?_⟩
      · rw [q2]; simp
      · rw [q3]
        cases ls with
        | nil =>
          have : s'.ents = s2.ents := by rw [q2, e2]; simp
          simp only [List.getLast?_nil, List.getLast?_singleton]
          rw [e4, this]
        | cons a ls => rw [List.getLast?_cons_cons]; cases hh : (a :: ls).getLast? with
          | none => simp at hh
          | some b => rfl
      · rw [q4, e5, lastOf_cons]
        cases lastOf 100 ls with
        | none => by_cases h : l.ty = 100 <;> simp [h]
        | some b => simp
      · rw [q5, e6, lastOf_cons]
        cases lastOf 120 ls with
        | none => by_cases h : l.ty = 120 <;> simp [h]
        | some b => simp
      · rw [q6, e7]; rfl
    have n1 : ¬ ((100 : UInt8) = 120) := by decide
    by_cases hd : l.ty = 100
    · rw [if_pos hd] at h6
      have hw : l.isWord = false := by
        cases h : l.isWord with
        | false => rfl
        | true => rw [isWord_iff, hd] at h; exact absurd h (by decide)
      refine key _ h6 ?_ ?_ ?_ ?_ ?_ ?_ ?_
      · dsimp only; rw [entsOf_cons_neg hw, h1, he]
      · exact h5
      · rw [hw]; rfl
      · rw [if_pos hd]
      · dsimp only; rw [if_neg (by rw [hd]; exact n1), h3]
      · dsimp only; rw [hw, h4]; simp
      · intro o _ _ h; rw [hw] at h; cases h
    · rw [if_neg hd] at h6
      by_cases hx : l.ty = 120
      · rw [if_pos hx] at h6
        have hw : l.isWord = false := by
          cases h : l.isWord with
          | false => rfl
          | true => rw [isWord_iff, hx] at h; exact absurd h (by decide)
        refine key _ h6 ?_ ?_ ?_ ?_ ?_ ?_ ?_
        · dsimp only; rw [entsOf_cons_neg hw, h1, he]
        · exact h5
        · rw [hw]; rfl
        · dsimp only; rw [if_neg hd, h2]
        · rw [if_pos hx]
        · dsimp only; rw [hw, h4]; simp
        · intro o _ _ h; rw [hw] at h; cases h
      · rw [if_neg hx] at h6
        have hw : l.isWord = true := by
          rw [isWord_iff]
          rcases hl.ty with h | h | h | h
          · exact .inl h
          · exact .inr h
          · exact absurd h hd
          · exact absurd h hx
        obtain ⟨c, w', hcw⟩ : ∃ c w', l.word = c :: w' := by
          cases h : l.word with
          | nil => exact absurd h hl.word
          | cons c w' => exact ⟨c, w', rfl⟩
        have hadd : add p (ent l) l.note.isSome s1 =
            if (entsOf older).any (fun o => o.type = (ent l).type && (o.word = (ent l).word || (o.tr = (ent l).tr && !l.note.isSome))) then .exit
            else .ok { s1 with ents := ent l :: s1.ents, ret := ent l :: s1.ents, pc := if c = p then l.tr.headD 0 else s1.pc } := by
          unfold add
          rw [show (ent l).word = c :: w' from hcw]
          dsimp only
          rw [if_neg (fun h => hl.tr h.2), h1, he]
          rfl
        rw [hadd] at h6
        by_cases hc : ∀ o ∈ older, Agree o l
        · rw [if_neg (fun h => (clash_iff older l hw).1 h hc)] at h6
          refine key _ h6 ?_ ?_ ?_ ?_ ?_ ?_ hc
          · dsimp only; rw [entsOf_cons_pos hw, h1, he]
          · exact h5
          · rw [hw]; rfl
          · dsimp only; rw [if_neg hd, h2]
          · dsimp only; rw [if_neg hx, h3]
          · dsimp only; rw [hw, h4, hcw]; simp
        · rw [if_pos ((clash_iff older l hw).2 hc)] at h6
          refine ⟨fun h => absurd (fun o ho => h.2 l List.mem_cons_self o ho) hc, fun _ => ?_⟩
          rw [h6]; rfl

theorem lastOf_none {ty : UInt8} {ls : List DLine} : lastOf ty ls = none ↔ ¬ ∃ l ∈ ls, l.ty = ty := by
  unfold lastOf
  rw [List.getLast?_eq_none_iff, List.filter_eq_nil_iff]
  simp

theorem lastOf_mem {ty : UInt8} {ls : List DLine} {l : DLine} (h : lastOf ty ls = some l) : l ∈ ls ∧ l.ty = ty := by
  have := List.mem_of_getLast? h
  have := List.mem_filter.1 this
  exact ⟨this.1, by simpa using this.2⟩

theorem file_length (ls : List DLine) : ls.length ≤ (dictFile ls).length := by
  induction ls with
  | nil => simp
  | cons l ls ih =>
    have : dictFile (l :: ls) = l.render ++ dictFile ls := rfl
    rw [this, List.length_append]
    have : 1 ≤ l.render.length := by simp [DLine.render]
    simp
    omega

/-- Loading a file of lines of the documented form. -/
theorem load_spec (p : UInt8) (ls : List DLine) (hp : ∀ l ∈ ls, l.Plain) (hf : NotesFit ls) :
    (Consistent ls ∧ Complete ls →
      ∃ L d x, load p (dictFile ls) = .ok L ∧ lastOf 100 ls = some d ∧ lastOf 120 ls = some x ∧
        L.dec = ent d ∧ L.tho = ent x ∧ L.pc = pcOf p ls 0 ∧
        L.dict = (match ls.getLast? with | none => [] | some l => if l.isWord then entsOf ls.reverse else [ent l])) ∧
    (¬ (Consistent ls ∧ Complete ls) → load p (dictFile ls) = .exit) := by
  have h := loop_spec p ls (dictFile ls).length ⟨[], [], none, none, 0, [], [], 0⟩ [] (file_length ls) hp
    (by intro l hl; have := hf l hl; simpa using this) rfl
  constructor
  · rintro ⟨hc, hd, hx⟩
    obtain ⟨s, h1, h2, h3, h4, h5, h6⟩ := h.1 ⟨hc, by simp⟩
    cases hd' : lastOf 100 ls with
    | none => exact absurd hd (lastOf_none.1 hd')
    | some d =>
      cases hx' : lastOf 120 ls with
      | none => exact absurd hx (lastOf_none.1 hx')
      | some x =>
        rw [hd'] at h4
        rw [hx'] at h5
        refine ⟨⟨s.ret, ent d, ent x, s.pc⟩, d, x, ?_, rfl, rfl, rfl, rfl, h6, ?_⟩
        · unfold load
          rw [h1]
          show (match s.dec, s.tho with | some d, some x => Out.ok (⟨s.ret, d, x, s.pc⟩ : Loaded) | _, _ => .exit) = _
          rw [h4, h5]; rfl
        · dsimp only
          rw [h3, h2, List.append_nil]
  · intro hn
    by_cases hc : Consistent ls
    · obtain ⟨s, h1, h2, h3, h4, h5, h6⟩ := h.1 ⟨hc, by simp⟩
      have : s.dec = none ∨ s.tho = none := by
        by_cases hd : ∃ l ∈ ls, l.ty = 100
        · right
          rw [h5, lastOf_none.2 (fun hx => hn ⟨hc, hd, hx⟩)]; rfl
        · left
          rw [h4, lastOf_none.2 hd]; rfl
      unfold load
      rw [h1]
      show (match s.dec, s.tho with | some d, some x => Out.ok (⟨s.ret, d, x, s.pc⟩ : Loaded) | _, _ => .exit) = _
      rcases this with h | h
      · rw [h]
      · rw [h]; cases s.dec <;> rfl
    · unfold load
      rw [h.2 (fun h => hc h.1)]
      rfl

theorem pairwise_or {α : Type} {R : α → α → Prop} {ls : List α} (h : ls.Pairwise R) {a b : α} (ha : a ∈ ls)
    (hb : b ∈ ls) (hne : a ≠ b) : R a b ∨ R b a := by
  induction h with
  | nil => cases ha
  | cons h1 _ ih =>
    rcases List.mem_cons.1 ha with e | ha'
    · rcases List.mem_cons.1 hb with e' | hb'
      · exact absurd (e.trans e'.symm) hne
      · rw [e]; exact .inl (h1 _ hb')
    · rcases List.mem_cons.1 hb with e' | hb'
      · rw [e']; exact .inr (h1 _ ha')
      · exact ih ha' hb'

/-- The entry found for a word. -/
theorem find_mem {ls : List DLine} (hc : Consistent ls) {l : DLine} (hl : l ∈ ls) (hw : l.isWord = true) :
    (entsOf ls.reverse).find? (fun e => l.word.length = e.word.length ∧ l.ty = e.type ∧ e.word = l.word) = some (ent l) := by
  cases hh : (entsOf ls.reverse).find? (fun e => l.word.length = e.word.length ∧ l.ty = e.type ∧ e.word = l.word) with
  | none =>
    have := List.find?_eq_none.1 hh (ent l)
      (List.mem_map.2 ⟨l, List.mem_filter.2 ⟨List.mem_reverse.2 hl, hw⟩, rfl⟩)
    exact absurd (by simp [ent]) this
  | some e =>
    have h1 := List.find?_some hh
    have h2 := List.mem_of_find?_eq_some hh
    obtain ⟨o, ho, rfl⟩ := List.mem_map.1 h2
    obtain ⟨ho, how⟩ := List.mem_filter.1 ho
    rw [List.mem_reverse] at ho
    simp only [decide_eq_true_eq] at h1
    have e1 : l.ty = o.ty := h1.2.1
    have e2 : o.word = l.word := h1.2.2
    by_cases he : o = l
    · rw [he]
    · exfalso
      rcases pairwise_or hc ho hl he with h | h
      · exact (h how hw e1.symm).1 e2
      · exact (h hw how e1).1 e2.symm

theorem find_none {ls : List DLine} {ty : UInt8} {w : Text} (h : ∀ l ∈ ls, l.isWord = true → l.ty = ty → l.word ≠ w) :
    (entsOf ls.reverse).find? (fun e => w.length = e.word.length ∧ ty = e.type ∧ e.word = w) = none := by
  rw [List.find?_eq_none]
  intro e he hh
  obtain ⟨o, ho, rfl⟩ := List.mem_map.1 he
  obtain ⟨ho, how⟩ := List.mem_filter.1 ho
  simp only [decide_eq_true_eq] at hh
  exact h o (List.mem_reverse.1 ho) how hh.2.1.symm hh.2.2

theorem takeWhile_split (q : UInt8) (t : Text) :
    q ∉ t.takeWhile (· != q) ∧ (t = t.takeWhile (· != q) ∨ ∃ r, t = t.takeWhile (· != q) ++ q :: r) := by
  induction t with
  | nil => exact ⟨by simp, .inl rfl⟩
  | cons a t ih =>
    by_cases h : a = q
    · rw [List.takeWhile_cons_of_neg (by simp [h])]
      exact ⟨by simp, .inr ⟨t, by rw [h]; rfl⟩⟩
    · rw [List.takeWhile_cons_of_pos (by simp [h])]
      refine ⟨?_, ?_⟩
      · intro hm
        rcases List.mem_cons.1 hm with e | hm
        · exact h e.symm
        · exact ih.1 hm
      · rcases ih.2 with e | ⟨r, e⟩
        · exact .inl (congrArg (a :: ·) e)
        · exact .inr ⟨r, congrArg (a :: ·) e⟩

theorem cut_spec (q : UInt8) (t : Text) : SplitAtSign q t (cut q t).1 (cut q t).2 := by
  cases t with
  | nil => exact ⟨rfl, by simp [cut], by simp [cut]⟩
  | cons c t =>
    obtain ⟨h1, h2⟩ := takeWhile_split q t
    refine ⟨List.take_append_drop _ _, ?_, ?_⟩
    · rcases h2 with e | ⟨r, e⟩
      · have : (cut q (c :: t)).1 = c :: t := by
          show (c :: t).take _ = _
          apply List.take_of_length_le
          show t.length + 1 ≤ 1 + (t.takeWhile (· != q)).length + 1
          rw [← e]; omega
        rw [this]
        intro hm
        rw [e] at hm
        cases hh : t.takeWhile (· != q) with
        | nil => rw [hh] at hm; simp at hm
        | cons x y =>
          rw [hh] at hm h1
          rw [List.dropLast_cons_of_ne_nil (by simp)] at hm
          exact h1 (List.dropLast_subset _ hm)
      · have : (cut q (c :: t)).1 = c :: (t.takeWhile (· != q) ++ [q]) := by
          show (c :: t).take (1 + (t.takeWhile (· != q)).length + 1) = _
          generalize hg : t.takeWhile (· != q) = g at e h1
          rw [e, show 1 + g.length + 1 = (g.length + 1) + 1 by omega, List.take_succ_cons, List.take_length_add_append]
          rfl
        rw [this]
        rw [List.dropLast_cons_of_ne_nil (by simp), List.dropLast_concat]
        exact h1
    · intro hb
      rcases h2 with e | ⟨r, e⟩
      · exfalso
        apply hb
        show (c :: t).drop _ = _
        apply List.drop_of_length_le
        show t.length + 1 ≤ 1 + (t.takeWhile (· != q)).length + 1
        rw [← e]; omega
      · have : (cut q (c :: t)).1 = c :: (t.takeWhile (· != q) ++ [q]) := by
          show (c :: t).take (1 + (t.takeWhile (· != q)).length + 1) = _
          generalize hg : t.takeWhile (· != q) = g at e h1
          rw [e, show 1 + g.length + 1 = (g.length + 1) + 1 by omega, List.take_succ_cons, List.take_length_add_append]
          rfl
        rw [this]
        constructor
        · simp
        · rw [← List.cons_append, List.getLast?_concat]

theorem pcOf_cons (p : UInt8) (l : DLine) (ls : List DLine) (c : UInt8) :
    pcOf p (l :: ls) c = pcOf p ls (if l.isWord = true ∧ l.word.head? = some p then l.tr.headD 0 else c) := rfl

theorem pcOf_spec {p q : UInt8} : ∀ (ls : List DLine) (c : UInt8),
    (∀ l ∈ ls, l.isWord = true → l.word.head? = some p → l.tr.head? = some q) →
    (c = q ∨ ∃ l ∈ ls, l.isWord = true ∧ l.word.head? = some p) → pcOf p ls c = q := by
  intro ls
  induction ls with
  | nil =>
    intro c _ h
    rcases h with h | ⟨l, hl, _⟩
    · exact h
    · cases hl
  | cons l ls ih =>
    intro c h1 h2
    rw [pcOf_cons]
    apply ih
    · exact fun x hx => h1 x (List.mem_cons_of_mem _ hx)
    · by_cases h : l.isWord = true ∧ l.word.head? = some p
      · rw [if_pos h]
        left
        have := h1 l List.mem_cons_self h.1 h.2
        rw [List.headD_eq_head?_getD, this]; rfl
      · rw [if_neg h]
        rcases h2 with h2 | ⟨x, hx, hx2⟩
        · exact .inl h2
        · rcases List.mem_cons.1 hx with rfl | hx
          · exact absurd hx2 h
          · exact .inr ⟨x, hx, hx2⟩

theorem mirror_plain {l : DLine} (h : l.Plain) (ht : l.tr.length ≤ 4999) : l.mirror.Plain where
  ty := h.ty
  word := h.tr
  tr := h.word
  wordBytes := h.trBytes
  trBytes := h.wordBytes
  noteBytes := by intro n hn; cases hn
  short := fun hs => ⟨(h.short hs).2, (h.short hs).1⟩
  fits := ht

theorem mirror_extra (ls : List DLine) : ((mirrored ls).map DLine.extra).sum = 0 := by
  induction ls with
  | nil => rfl
  | cons l ls ih =>
    show 0 + _ = 0
    rw [Nat.zero_add]; exact ih

theorem mirror_consistent {ls : List DLine} (h : Consistent ls) (hn : ∀ l ∈ ls, l.note = none) :
    Consistent (mirrored ls) := by
  unfold Consistent mirrored
  rw [List.pairwise_map]
  apply List.Pairwise.imp_of_mem _ h
  intro a b _ hb hab h1 h2 h3
  have := hab h1 h2 h3
  exact ⟨this.2 (hn b hb), fun _ => this.1⟩

end Verif.Lemmas.Trans
