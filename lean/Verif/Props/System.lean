import Verif.Lemmas.System

/-! # The program and its surroundings: properties -/

namespace Verif.Props.System

open Verif.Model Verif.Model.System Verif.Lemmas.System
open Verif.Spec.System (Act Place reads setting unterminated wordsOf joined Message Request words files)

/-! ## C59: settings -/

/-- C59, for names that are not empty and contain neither NUL bytes nor `=`, and values without NUL bytes: after any settings,
the value of a setting is the last one given to it, or else what it was at the start. -/
theorem C59_settings_partial (env : Environ) (l : List (Text × Option Text))
    (hl : ∀ p ∈ l, Name p.1 ∧ ∀ t, p.2 = some t → ∀ c ∈ t, c ≠ 0) (n : Text) (hn : Name n) :
    getSetting (setAll env l) n = setting (getSetting env) l.reverse n := by
  have hcut : ∀ env, getSetting env n = getenv env n := fun env => by rw [getSetting, cut_eq hn.2.1]
  rw [hcut]
  induction h : l.reverse generalizing l with
  | nil =>
    rw [List.reverse_eq_nil_iff] at h
    rw [h, setting, hcut]
    rfl
  | cons p q ih =>
    have hl2 : l = q.reverse ++ [p] := by rw [← List.reverse_reverse l, h, List.reverse_cons]
    subst hl2
    obtain ⟨m, v⟩ := p
    have hp := hl (m, v) (by simp)
    rw [setAll_append, setAll, setAll, getenv_set _ hp.1 hn hp.2, setting]
    split
    · rfl
    · exact ih q.reverse (fun p hp => hl p (List.mem_append_left _ hp)) (List.reverse_reverse q)

/-- `TEST` is set to `1`, then `SHELL` is removed: `TEST` is `1`. -/
example : getSetting (setAll ["SHELL=sh".toUTF8.toList]
    [("TEST".toUTF8.toList, some [49]), ("SHELL".toUTF8.toList, none)]) "TEST".toUTF8.toList = some [49] := by
  rw [C59_settings_partial _ _ (by decide +kernel) _ (by decide +kernel)]; decide +kernel

/-- C59 fails in general: a setting with a NUL byte in its name is stored under the name without that byte, but looked up
under the part before it. -/
theorem C59_settings_violated : ∃ env n v, getSetting (setSetting env n (some v)) n ≠ some v ∧
    ∃ env n v m, getSetting (setSetting env n (some v)) m ≠ getSetting env m ∧ m ≠ n :=
  ⟨[], [65, 0, 66], [49], by decide +kernel, [], [65, 0, 66], [49], [65, 66], by decide +kernel⟩

/-- C59 fails for names with `=` and for the empty name, which are ignored without an error, and for values with NUL bytes,
which are left out. -/
theorem C59_ignored_violated : getSetting (setSetting [] [65, 61] (some [49])) [65, 61] = none ∧
    getSetting (setSetting [] [] (some [49])) [] = none ∧
    getSetting (setSetting [] [65] (some [49, 0, 50])) [65] = some [49, 50] ∧
    getSetting (setSetting [] [65] (some [66, 61, 67])) [65, 61, 66] = some [67] := by decide +kernel

/-! ## C60: input -/

/-- C60: whatever the pieces in which the input arrives, the answer is all of it, without one final line end. -/
theorem C60_input (ps : List Text) :
    (∃ fuel, input fuel ⟨ps, false⟩ = some (unterminated ps.flatten)) ∧
    ∀ fuel r, input fuel ⟨ps, false⟩ = some r → r = unterminated ps.flatten := by
  have key : ∀ t : Text, (if 0 < t.length ∧ t[t.length - 1]? = some 10 then some (t.take (t.length - 1)) else some t)
      = some (unterminated t) := by
    intro t
    rw [unterminated, getLast?_index]
    split
    · next h => rw [if_pos h.2, List.dropLast_eq_take]
    · next h =>
      rw [if_neg]
      intro h'
      refine h ⟨?_, h'⟩
      have := (List.getElem?_eq_some_iff.1 h').1
      omega
  constructor
  · refine ⟨ps.flatten.length + 1, ?_⟩
    obtain ⟨r, hr⟩ := inputLoop_complete (ps.flatten.length + 1) ps [] (by omega)
    rw [input, hr]
    dsimp only
    rw [key, inputLoop_sound hr, List.nil_append]
  · intro fuel r h
    rw [input] at h
    split at h
    · cases h
    · next t ht =>
      rw [key, inputLoop_sound ht, List.nil_append] at h
      exact (Option.some.inj h).symm

/-- Three pieces: `12`, `3` and a line end. -/
example : input 2 ⟨[[49, 50], [51], [10]], false⟩ = some [49, 50, 51] := by decide +kernel

/-- C60 fails if the input cannot be read (for example because it is closed): the program reads for ever. -/
theorem C60_input_violated : ∀ fuel ps, input fuel ⟨ps, true⟩ = none := by
  intro fuel ps
  rw [input]
  dsimp only
  rw [inputLoop_broken]

/-- C60, for a line that has an end, and with memory for twice the line: the question is answered by the line, and what follows
is left for the next question. -/
theorem C60_ask_partial (memory : Nat) (t rest : Text) (ht : 10 ∉ t) (hm : 2 * t.length ≤ memory) :
    ∀ fuel > t.length, ask memory fuel (t ++ 10 :: rest) = some (.ok (t, rest)) := by
  intro fuel hf
  rw [ask, askLoop_line _ _ _ _ _ ht (by simp) (by simpa using hm) hf]
  rfl

/-- A line of three bytes, and another line. -/
example : ask 1000 100 ([97, 98, 99] ++ 10 :: [100, 10]) = some (.ok ([97, 98, 99], [100, 10])) :=
  C60_ask_partial 1000 _ _ (by decide) (by decide) 100 (by decide)

/-- A line longer than the first block of memory. -/
example : ask 1000 100 (List.replicate 25 97 ++ 10 :: [100, 10]) = some (.ok (List.replicate 25 97, [100, 10])) :=
  C60_ask_partial 1000 _ _ (by decide) (by decide) 100 (by decide)

/-- C60: no byte is ever written outside the memory for the line; and an answer is always a complete line. -/
theorem C60_ask_safe (memory fuel : Nat) (rest : Text) :
    ask memory fuel rest ≠ some .ub ∧
    ∀ a r, ask memory fuel rest = some (.ok (a, r)) → rest = a ++ 10 :: r ∧ 10 ∉ a := by
  refine ⟨askLoop_not_ub _ _ _ _ _ (by simp), fun a r h => ?_⟩
  obtain ⟨t, h1, h2, h3⟩ := askLoop_answer h
  rw [List.nil_append] at h2
  subst h2
  exact ⟨h1, h3⟩

/-- C60 fails if the input ends without a line end: there is never an answer; the program reads until its memory is used up. -/
theorem C60_ask_violated : (∀ memory fuel rest, 10 ∉ rest → ∀ a r, ask memory fuel rest ≠ some (.ok (a, r))) ∧
    ask 100 200 [97] = some .exit := by
  refine ⟨fun memory fuel rest hr a r h => ?_, by decide +kernel⟩
  have := (C60_ask_safe memory fuel rest).2 a r h
  exact hr (by rw [this.1]; simp)

/-! ## C61: shell commands -/

/-- C61, for output without NUL bytes: the answer is the whole output, however long its lines are. -/
theorem C61_shell_partial (popen : Text → Option Text) (command out : Text) (hc : ∀ c ∈ command, c ≠ 0)
    (ho : popen command = some out) (hz : ∀ c ∈ out, c ≠ 0) :
    ∃ n, ∀ fuel ≥ n, shell popen fuel command = some (.ok out) := by
  refine ⟨out.length + 1, fun fuel hf => ?_⟩
  rw [shell, cut_eq hc, ho]
  dsimp only
  rw [shellLoop_mono' (shellLoop_complete (out.length + 1) out hz (by omega)) hf]
  rfl

/-- The output of `date`. -/
example : ∃ n, ∀ fuel ≥ n, shell (fun c => if c = "date".toUTF8.toList then some "now\n".toUTF8.toList else none) fuel
    "date".toUTF8.toList = some (.ok "now\n".toUTF8.toList) :=
  C61_shell_partial _ _ _ (by decide +kernel) (by decide +kernel) (by decide +kernel)

/-- C61 fails for output with NUL bytes: the rest of the line is lost; and if the command cannot be started, the behaviour is
undefined. -/
theorem C61_shell_violated : shell (fun _ => some [97, 0, 98, 10, 99]) 10 [] = some (.ok [97, 99]) ∧
    shell (fun _ => none) 10 [] = some .ub := by decide +kernel

/-! ## C62: words that form a text -/

/-- C62, for messages with at most one argument: after the first message to `Path` or `Command`, whatever is said and obtained,
in whatever order, the text obtained at the end is all words so far, with the glue in between. -/
theorem C62_words_partial (sign : UInt8) (glue : Text) (l : List SlurpOp) (hl : ∀ op ∈ l, Plain op) (hne : sayings l ≠ []) :
    ∃ s, slurpRun sign (collecting glue) (l ++ [.obtain]) = .ok s ∧
      s.text (s.obtained.length - 1) = some (joined glue sign (sayings l)) := by
  obtain ⟨s, h1, h2, h3⟩ := slurpRun_words (sign := sign) (g := glue) l hl (s := collecting glue) (ws := []) rfl (by
    rw [textOf, if_pos rfl]; trivial)
  have happ : ∀ (l l' : List SlurpOp) s, slurpRun sign s (l ++ l') = (slurpRun sign s l).bind fun s => slurpRun sign s l' := by
    intro l l'
    induction l with
    | nil => intro s; rfl
    | cons op l ih =>
      intro s
      rw [List.cons_append, slurpRun, slurpRun]
      cases slurpStep sign s op with
      | ok s => rw [ok_bind', ok_bind', ih]
      | ub => rfl
      | exit => rfl
  have hw : (sayings l).flatMap (wordsOf sign) ≠ [] := by
    cases hs : sayings l with
    | nil => exact absurd hs hne
    | cons m r =>
      obtain ⟨n, as⟩ := m
      rw [List.flatMap_cons]
      cases as <;> simp [wordsOf]
  rw [List.nil_append, textOf, if_neg hw] at h3
  unfold Collected at h3
  split at h3
  · next hc => cases hc
  · next i t hc ht =>
    cases ht
    refine ⟨{ s with obtained := s.obtained ++ [i] }, ?_, ?_⟩
    · rw [happ, h1, ok_bind', slurpRun]
      unfold slurpStep
      dsimp only
      rw [hc]
      rfl
    · rw [Slurp.text]
      simp only [List.length_append, List.length_singleton, Nat.add_sub_cancel]
      rw [List.getElem?_append_right (Nat.le_refl _), Nat.sub_self]
      exact h3
  · exact h3.elim

/-- `Path /tmp: ‘x.ctr’`. -/
example : ∃ s, slurpRun 58 (collecting [47]) ([.say "/tmp:".toUTF8.toList ["x.ctr".toUTF8.toList]] ++ [.obtain]) = .ok s ∧
    s.text (s.obtained.length - 1) = some "/tmp/x.ctr".toUTF8.toList := by
  have h := C62_words_partial 58 [47] [.say "/tmp:".toUTF8.toList ["x.ctr".toUTF8.toList]]
    (fun op h => by
      rw [List.mem_singleton] at h
      subst h
      exact ⟨fun n as h => by cases h; exact Nat.le_refl _, fun i t h => by cases h⟩) (by simp [sayings])
  rw [show joined [47] 58 (sayings [.say "/tmp:".toUTF8.toList ["x.ctr".toUTF8.toList]]) = "/tmp/x.ctr".toUTF8.toList from by
    decide +kernel] at h
  exact h

/-- C62 fails for the object `Slurp` itself: the second word is undefined behaviour. It fails for messages with two or three
arguments, which are ignored, and with four, of which only the name is kept. -/
theorem C62_words_violated : slurpRun 58 slurpItself [.say [97] [], .say [98] []] = .ub ∧
    (∀ s n a b, slurpStep 58 s (.say n [a, b]) = .ok s) ∧ (∀ s n a b c, slurpStep 58 s (.say n [a, b, c]) = .ok s) ∧
    (∀ n a b c d, slurpRun 58 (collecting [47]) [.say n [a, b, c, d]] = slurpRun 58 (collecting [47]) [.say n []]) :=
  ⟨by decide +kernel, fun _ _ _ _ => rfl, fun _ _ _ _ _ => rfl, fun _ _ _ _ _ => rfl⟩

/-- C62 fails for texts that were obtained: a later word changes them, changing them changes what is obtained later, and
obtaining does not empty the object. -/
theorem C62_obtained_violated :
    (∃ l op i t, ∃ s s', slurpRun 58 (collecting [47]) l = .ok s ∧ slurpStep 58 s op = .ok s' ∧ op = .say [98] [] ∧
      s.text i = some t ∧ s'.text i ≠ some t) ∧
    (∃ l, ∃ s, slurpRun 58 (collecting [47]) l = .ok s ∧ sayings l = [([97], [])] ∧
      s.text (s.obtained.length - 1) = some [97, 33]) :=
  ⟨⟨[.say [97] [], .obtain], .say [98] [], 0, [97], ⟨[[97]], some [47], some 0, [0]⟩, ⟨[[97, 47, 98]], some [47], some 0, [0]⟩,
      by decide +kernel, by decide +kernel, rfl, by decide +kernel, by decide +kernel⟩,
    ⟨[.say [97] [], .obtain, .change 0 [33], .obtain], ⟨[[97, 33]], some [47], some 0, [0, 0]⟩,
      by decide +kernel, by decide +kernel, by decide +kernel⟩⟩

/-! ## C63: included programs -/

/-- C63: whatever the programs do, and however deep they include each other, afterwards the process is in the folder where it
was. -/
theorem C63_folder {Dir : Type} {w : World Dir} (hw : Stable w) (fuel : Nat) {s s' : Here Dir} {l : List Act}
    (h : runActs w fuel s l = some (.ok s')) : s'.cwd = s.cwd := runActs_cwd hw fuel h

/-- C63: every included file is looked up in the folder of the program that includes it, in the order of the text, up to the
first failure. -/
theorem C63_reads {Dir : Type} {w : World Dir} (hw : Stable w) (depth : Nat) (d : Dir) (l : List Act)
    (r : List (Dir × Text) × Bool) (h : reads w.place w.dirname depth d l = some r) :
    ∃ n, ∀ fuel ≥ n, runActs w fuel ⟨d, [], false⟩ l = some (.ok ⟨d, r.1, r.2⟩) :=
  runActs_reads hw depth d l r h []

/-- A stable world: `Bool` as folders, named `0` and `1`. -/
def small : World Bool where
  place :=
    { go := fun d t => if t = [48] then some false else if t = [49] then some true else if t = [115] ∧ d = false then some true
        else if t = [46] then some d else none
      program := fun d t =>
        if d = false ∧ t = [115, 47, 98] then some (some [.use [99], .other])
        else if d = true ∧ t = [99] then some (some [.other]) else none }
  getcwd := fun d => if d then some [49] else some [48]
  dirname := fun t => if t = [115, 47, 98] then [115] else [46]

theorem small_stable : Stable small :=
  ⟨fun d => by cases d <;> exact ⟨_, rfl⟩, fun d t e h => by cases d <;> cases e <;> cases h <;> rfl⟩

/-- `s/b` is read in the folder `0`, and then `c` in the folder `s`. -/
example : ∃ n, ∀ fuel ≥ n, runActs small fuel ⟨false, [], false⟩ [.use [115, 47, 98], .other] =
    some (.ok ⟨false, [(false, [115, 47, 98]), (true, [99])], false⟩) :=
  C63_reads small_stable 2 false _ ([(false, [115, 47, 98]), (true, [99])], false) (by decide +kernel)

/-- C63 fails if the folder is renamed in the meantime: the process stays in the other folder. -/
theorem C63_folder_violated : ∃ (w : World Bool) (s' : Here Bool) (fuel : Nat),
    runActs w fuel ⟨false, [], false⟩ [.use [115, 47, 98]] = some (.ok s') ∧ s'.cwd = true :=
  ⟨{ small with place := { small.place with go := fun d t => if t = [48] then none else small.place.go d t } },
    ⟨true, [(false, [115, 47, 98]), (true, [99])], false⟩, 10, by
      simp [runActs, small], rfl⟩

/-! ## C64: arguments -/

/-- C64, for numbers that fit into an `int`: the arguments are numbered from 1 to their number; there is nothing at other
numbers. -/
theorem C64_argument_partial (argv : List Text) (n : Int) (hn : InInt n) :
    argument argv n = .ok (if 1 ≤ n ∧ n ≤ arguments argv then argv[(n - 1).toNat]? else none) ∧
    (1 ≤ n ∧ n ≤ arguments argv → ∃ t ∈ argv, argument argv n = .ok (some t)) := by
  unfold argument toInt arguments
  rw [if_pos hn, ok_bind']
  split
  · next h => exact ⟨by rw [if_neg (by omega)], fun h' => by omega⟩
  · next h =>
    have hlt : (n - 1).toNat < argv.length := by omega
    rw [if_pos (by omega), List.getElem?_eq_getElem hlt]
    exact ⟨rfl, fun _ => ⟨_, List.getElem_mem hlt, rfl⟩⟩

/-- The second argument. -/
example : argument [[97], [98]] 2 = .ok (some [98]) ∧ argument [[97], [98]] 3 = .ok none :=
  ⟨(C64_argument_partial [[97], [98]] 2 (by decide)).1, (C64_argument_partial [[97], [98]] 3 (by decide)).1⟩

/-- C64 fails for larger numbers: the behaviour is undefined. -/
theorem C64_argument_violated : ∀ argv, argument argv 3000000000 = .ub := fun _ => rfl

/-! ## C65: the command line -/

/-- What is not an option. -/
def Ordinary (t : Text) : Prop :=
  t.take 2 ≠ [45, 120] ∧ t.take 2 ≠ [45, 103] ∧ t.take 2 ≠ [45, 116] ∧ t.take 2 ≠ [45, 115]

/-- C65, for names of files with at most 254 bytes, and programs whose names do not begin like an option: every request is
understood as it is meant, whatever else follows on the command line. -/
theorem C65_line_partial (self : Text) (r : Request) (more : List Text) (hw : r ≠ .welcome)
    (hf : ∀ t ∈ files r, t.length ≤ 254) (ho : ∀ t, r = .run t → Ordinary t) :
    ∃ o, readArgs (self :: words r ++ more) = .ok o ∧ request o = some r := by
  have htake : ∀ t ∈ files r, t.take 254 = t := fun t ht => List.take_of_length_le (hf t ht)
  cases r with
  | welcome => exact absurd rfl hw
  | run f =>
    obtain ⟨h1, h2, h3, h4⟩ := ho f rfl
    have e := htake f (by simp [files])
    have k : ∀ c, f.take 2 ≠ [45, c] → isOption f c = false := fun c h => by simpa [isOption] using h
    simp [readArgs, words, k _ h1, k _ h2, k _ h3, k _ h4, copied, ok_bind', e, request]
  | sandbox f =>
    have e := htake f (by simp [files])
    refine ⟨⟨0, true, some f, none, none, none⟩, ?_, rfl⟩
    show readArgs (self :: [45, 115] :: f :: more) = _
    simp [readArgs, copied, ok_bind', e, isOption]
  | tree f =>
    have e := htake f (by simp [files])
    refine ⟨⟨3, false, some f, none, none, none⟩, ?_, rfl⟩
    show readArgs (self :: [45, 120] :: f :: more) = _
    simp [readArgs, copied, ok_bind', e, isOption]
  | translate d f =>
    have e := htake f (by simp [files])
    have e' := htake d (by simp [files])
    refine ⟨⟨1, false, some f, some d, none, none⟩, ?_, rfl⟩
    show readArgs (self :: [45, 116] :: d :: f :: more) = _
    simp [readArgs, copied, ok_bind', e, e', isOption]
  | dictionary a b =>
    have e := htake a (by simp [files])
    have e' := htake b (by simp [files])
    refine ⟨⟨2, false, some [45, 103], none, some a, some b⟩, ?_, rfl⟩
    show readArgs (self :: [45, 103] :: a :: b :: more) = _
    simp [readArgs, copied, ok_bind', e, e', isOption]
    rw [if_neg (by omega)]
    rfl

/-- Translating `p.ctr` with `d.dict`. -/
example : ∃ o, readArgs ["ctr".toUTF8.toList, [45, 116], "d.dict".toUTF8.toList, "p.ctr".toUTF8.toList] = .ok o ∧
    request o = some (.translate "d.dict".toUTF8.toList "p.ctr".toUTF8.toList) :=
  C65_line_partial "ctr".toUTF8.toList (.translate "d.dict".toUTF8.toList "p.ctr".toUTF8.toList) [] (by decide)
    (by decide +kernel) (fun t h => by cases h)

/-- Running `p.ctr`. -/
example : ∃ o, readArgs ["ctr".toUTF8.toList, "p.ctr".toUTF8.toList, [49]] = .ok o ∧
    request o = some (.run "p.ctr".toUTF8.toList) :=
  C65_line_partial "ctr".toUTF8.toList (.run "p.ctr".toUTF8.toList) [[49]] (by decide)
    (by decide +kernel) (fun t h => by cases h; unfold Ordinary; decide +kernel)

/-- C65 fails: without a file after `-x` or `-s` the behaviour is undefined; the name of a file is cut after 254 bytes, so
that another file is meant; and a program whose name begins like an option is not run. -/
theorem C65_line_violated : readArgs [[99], [45, 120]] = .ub ∧ readArgs [[99], [45, 115]] = .ub ∧
    (∃ f o, readArgs [[99], f] = .ok o ∧ request o = some (.run (f.take 254)) ∧ f.take 254 ≠ f) ∧
    (∃ o, readArgs [[99], [45, 115, 46, 99], [49]] = .ok o ∧ request o = some (.sandbox [49])) :=
  ⟨by decide +kernel, by decide +kernel,
    ⟨List.replicate 300 97, ⟨0, false, some (List.replicate 254 97), none, none, none⟩, by decide +kernel, by decide +kernel,
      by decide +kernel⟩,
    ⟨⟨0, true, some [49], none, none, none⟩, by decide +kernel, by decide +kernel⟩⟩

/-! ## C66: limits -/

/-- The number of bytes in a unit, `KB` or `MB`. -/
def unitSize (unit : Option Text) : Nat :=
  if unit = some [75, 66] then 1000 else if unit = some [77, 66] then 1000000 else 1

/-- C66, for numbers that are not negative and limits below 2^64 bytes: the limit is the number of units. -/
theorem C66_limit_partial (n : Nat) (unit : Option Text) (h : n * unitSize unit < 18446744073709551616) :
    memoryLimit n unit = .ok (n * unitSize unit) := by
  unfold unitSize at *
  have hn : n < 18446744073709551616 := by
    refine Nat.lt_of_le_of_lt ?_ h
    apply Nat.le_mul_of_pos_right
    split
    · decide
    · split <;> decide
  unfold memoryLimit
  rw [if_neg (by omega)]
  cases unit with
  | none => simp
  | some u =>
    dsimp only
    split
    · split
      · next hu => subst hu; simp at h; simp [Nat.mod_eq_of_lt h]
      · split
        · next hu => subst hu; simp at h; simp [Nat.mod_eq_of_lt h]
        · next h1 h2 => simp [h1, h2]
    · next hu =>
      have h1 : u ≠ [75, 66] := fun h => hu (by rw [h]; rfl)
      have h2 : u ≠ [77, 66] := fun h => hu (by rw [h]; rfl)
      simp [h1, h2]

/-- `Program memory: 8 MB`. -/
example : memoryLimit 8 (some [77, 66]) = .ok 8000000 :=
  (C66_limit_partial 8 (some [77, 66]) (by decide +kernel)).trans (by decide +kernel)

/-- C66, for limits given at the start of at most 2147 megabytes, and shares from 1 to 127: the limit is that number of
megabytes, and the pool is the given part of it. -/
theorem C66_start_partial (limit share : Nat) (hl : limit ≤ 2147) (hs : 0 < share) (hs' : share ≤ 127) :
    limits (some limit) (some 8) (some share) = .ok (limit * 1000000, some (limit * 1000000 / share)) := by
  have hb : Int.bmod share 256 = share := by rw [Int.bmod_def]; split <;> omega
  unfold limits
  dsimp only
  rw [if_pos (show InInt ((limit : Int) * 1000000) by unfold InInt; omega), ok_bind']
  simp only [Option.getD_some, hb]
  rw [if_pos (by decide), if_neg (by omega)]
  have h1 : ((limit : Int) * 1000000 % 18446744073709551616).toNat = limit * 1000000 := by omega
  have h2 : ((share : Int) % 18446744073709551616).toNat = share := by omega
  rw [h1, h2]

/-- 32 megabytes, a quarter of them for the pool. -/
example : limits (some 32) (some 8) (some 4) = .ok (32000000, some 8000000) :=
  C66_start_partial 32 4 (by decide) (by decide) (by decide)

/-- C66 fails: limits over 2147 megabytes and negative numbers are undefined behaviour, a limit of 2^64 bytes or more becomes
a small one, and a share of 256 divides by zero. -/
theorem C66_limit_violated : limits (some 4000) none none = .ub ∧ memoryLimit (-1) none = .ub ∧
    memoryLimit 18446744073709552 (some [75, 66]) = .ok 384 ∧ limits none (some 8) (some 256) = .ub := by decide +kernel

end Verif.Props.System
