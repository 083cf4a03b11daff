import Verif.Model.Assets
import Verif.Spec.Assets

/-!
# Programs and pictures from assets (C116) and commands in a terminal (C117)
-/

namespace Verif.Props.Assets
open Verif Verif.Model Verif.Model.Assets Verif.Spec.Assets

theorem bind_ok {α β : Type} (a : α) (f : α → Out β) : (Out.ok a).bind f = f a := rfl

theorem store_zeros (pre d : Text) (z : Nat) (h : d.length ≤ z) :
    store (pre ++ List.replicate z 0) pre.length d = .ok (pre ++ d ++ List.replicate (z - d.length) 0) := by
  unfold store
  rw [if_neg (by rw [List.length_append, List.length_replicate]; omega), List.take_left, ← List.drop_drop, List.drop_left,
    List.drop_replicate]

theorem grow_zeros (pre : Text) (z n : Nat) :
    ∃ z', grow (pre ++ List.replicate z 0) n = pre ++ List.replicate z' 0 ∧ n ≤ pre.length + z' := by
  refine ⟨z + (n - (pre ++ List.replicate z 0).length), ?_, ?_⟩
  · unfold grow
    rw [List.append_assoc, List.replicate_append_replicate]
  · rw [List.length_append, List.length_replicate]
    omega

theorem readLoop_spec (sched : Nat → Nat) : ∀ (fuel j : Nat) (pre rest : Text) (z got : Nat), rest.length < fuel →
    (0 < got → rest.length + 1 < fuel) → (got = 0 → rest = [] ∧ 2 ≤ z) →
    ∃ z', readLoop sched fuel j (pre ++ List.replicate z 0) pre.length rest got =
      .ok (pre ++ rest ++ List.replicate z' 0, (pre ++ rest).length) ∧ 2 ≤ z'
  | 0, _, _, _, _, _, hf, _, _ => absurd hf (by omega)
  | fuel + 1, j, pre, rest, z, got, hf, hg, h0 => by
    rw [readLoop]
    by_cases hgot : got = 0
    · rw [if_pos hgot]
      obtain ⟨h1, h2⟩ := h0 hgot
      exact ⟨z, by rw [h1, List.append_nil], h2⟩
    · rw [if_neg hgot]
      dsimp only
      have hg' := hg (by omega)
      obtain ⟨z1, e1, l1⟩ := grow_zeros pre z (pre.length + 512 + 1)
      rw [e1]
      have hd : (deliver 512 (sched j) rest).1 ++ (deliver 512 (sched j) rest).2 = rest := List.take_append_drop ..
      have hl : (deliver 512 (sched j) rest).1.length ≤ 512 := by
        unfold deliver
        rw [List.length_take]
        omega
      have hp : rest ≠ [] → 0 < (deliver 512 (sched j) rest).1.length := by
        intro h
        have := List.length_pos_iff.2 h
        unfold deliver
        rw [List.length_take]
        omega
      generalize (deliver 512 (sched j) rest).1 = d at *
      generalize (deliver 512 (sched j) rest).2 = r at *
      rw [store_zeros pre d z1 (by omega), bind_ok]
      have hlen : rest.length = d.length + r.length := by rw [← hd, List.length_append]
      have h3 := readLoop_spec sched fuel (j + 1) (pre ++ d) r (z1 - d.length) d.length (by omega) (fun h => by omega) (by
        intro h
        have : rest = [] := by
          by_cases hr : rest = []
          · exact hr
          · have := hp hr
            omega
        rw [this, List.length_nil] at hlen
        exact ⟨List.length_eq_zero_iff.1 (by omega), by omega⟩)
      have e2 : pre ++ d ++ r = pre ++ rest := by rw [List.append_assoc, hd]
      rw [e2] at h3
      rw [← List.length_append]
      exact h3

/-- **C116**: `Media use:` reads a program completely, in whatever pieces its bytes arrive: the program that is run has the
bytes of the file, followed by zero bytes, and never is anything written outside of its memory. -/
theorem C116_use (sched : Nat → Nat) (content : Text) :
    ∃ z, readProgram sched content = .ok (content ++ List.replicate z 0, content.length) ∧ 2 ≤ z := by
  unfold readProgram
  dsimp only
  have hd : (deliver 512 (sched 0) content).1 ++ (deliver 512 (sched 0) content).2 = content := List.take_append_drop ..
  have hl : (deliver 512 (sched 0) content).1.length ≤ 512 := by
    unfold deliver
    rw [List.length_take]
    omega
  have hp : content ≠ [] → 0 < (deliver 512 (sched 0) content).1.length := by
    intro h
    have := List.length_pos_iff.2 h
    unfold deliver
    rw [List.length_take]
    omega
  generalize (deliver 512 (sched 0) content).1 = d at *
  generalize (deliver 512 (sched 0) content).2 = r at *
  have h1 := store_zeros [] d 512 hl
  rw [List.nil_append, List.nil_append, List.length_nil] at h1
  rw [h1, bind_ok]
  have hlen : content.length = d.length + r.length := by rw [← hd, List.length_append]
  obtain ⟨z, h2, h3⟩ := readLoop_spec sched (content.length + 1) 1 d r (512 - d.length) d.length (by omega) (fun h => by omega) (by
    intro h
    have : content = [] := by
      by_cases hr : content = []
      · exact hr
      · have := hp hr
        omega
    rw [this, List.length_nil] at hlen
    exact ⟨List.length_eq_zero_iff.1 (by omega), by omega⟩)
  rw [h2, bind_ok, hd]
  dsimp only
  obtain ⟨z2, rfl⟩ : ∃ z2, z = z2 + 2 := ⟨z - 2, by omega⟩
  have h4 := store_zeros (content ++ [0]) [0] (z2 + 1) (by simp)
  have e : content ++ [0] ++ List.replicate (z2 + 1) (0 : UInt8) = content ++ List.replicate (z2 + 2) 0 := by
    rw [List.append_assoc]
    rfl
  rw [e, List.length_append, List.length_singleton] at h4
  rw [h4, bind_ok]
  refine ⟨z2 + 2, ?_, by omega⟩
  rw [← e]
  simp [List.replicate_succ]

theorem sameStr_eq : ∀ (s m : Text), (∀ c ∈ s, c ≠ 0) → s.length < m.length →
    sameStr m s = .ok (decide (m.take (s.length + 1) = s ++ [0]))
  | _, [], _, h => by simp at h
  | [], a :: m, _, _ => by
    rw [sameStr]
    congr 1
    simp
    by_cases h : a = 0 <;> simp [h]
  | c :: s, a :: m, hz, h => by
    rw [sameStr]
    have hc := hz c List.mem_cons_self
    by_cases hac : a = c
    · subst hac
      rw [if_pos rfl, if_neg hc, sameStr_eq s m (fun x hx => hz x (List.mem_cons_of_mem _ hx)) (by simpa using h)]
      congr 1
      apply decide_eq_decide.2
      simp
    · rw [if_neg hac]
      congr 1
      symm
      apply decide_eq_false
      intro e
      injection e with e1 _
      exact hac e1

theorem magic_take (content : Text) : content.take 20 ++ List.replicate (20 - (content.take 20).length) 0 =
    (content ++ List.replicate 20 0).take 20 := by
  rw [List.take_append, List.take_replicate, List.length_take]
  congr 2
  omega

/-- **C116**: which files are shown as a screen: those that begin with the signature of PNG files and a zero byte, and those
that begin with the bytes 255 and 216 and either end there or go on with a zero byte. Nothing is read outside of memory. -/
theorem C116_shown (content : Text) : screen content = .ok (decide
    ((content ++ List.replicate 20 0).take 9 = [137, 80, 78, 71, 13, 10, 26, 10, 0] ∨
      (content ++ List.replicate 20 0).take 3 = [255, 216, 0])) := by
  unfold screen filetype
  dsimp only
  have hlen : ((content ++ List.replicate 20 (0 : UInt8)).take 20).length = 20 := by
    rw [List.length_take, List.length_append, List.length_replicate]
    omega
  rw [magic_take, sameStr_eq [255, 216] _ (by decide) (by rw [hlen]; decide), bind_ok,
    sameStr_eq [137, 80, 78, 71, 13, 10, 26, 10] _ (by decide) (by rw [hlen]; decide), bind_ok,
    List.take_take, List.take_take]
  show Out.bind (if decide ((content ++ List.replicate 20 0).take 3 = [255, 216, 0]) = true then _ else
    Out.ok (if decide ((content ++ List.replicate 20 0).take 9 = [137, 80, 78, 71, 13, 10, 26, 10, 0]) = true then 30 else 0)) _ = _
  by_cases h1 : (content ++ List.replicate 20 (0 : UInt8)).take 3 = [255, 216, 0]
  · rw [if_pos (decide_eq_true h1), bind_ok, decide_eq_true (Or.inr h1)]
    rfl
  · rw [if_neg (by simpa using h1), bind_ok]
    by_cases h2 : (content ++ List.replicate 20 (0 : UInt8)).take 9 = [137, 80, 78, 71, 13, 10, 26, 10, 0]
    · rw [if_pos (decide_eq_true h2), decide_eq_true (Or.inl h2)]
      rfl
    · rw [if_neg (by simpa using h2), decide_eq_false (by simp only [not_or]; exact ⟨h2, h1⟩)]
      rfl

/-- **C116**: every picture in PNG form is shown as a screen. -/
theorem C116_png (content : Text) (h : Png content) : screen content = .ok true := by
  obtain ⟨r, rfl⟩ := h
  rw [C116_shown, decide_eq_true]
  exact Or.inl rfl

/-- **C116**: files that are neither in PNG nor in JPEG form are refused, whatever they contain, if they have at least three
bytes and the third is not zero. -/
theorem C116_refused_partial (content : Text) (h : ¬ Png content) (c0 c1 c2 : UInt8) (r : Text) (hc : content = c0 :: c1 :: c2 :: r)
    (h2 : c2 ≠ 0) (h8 : 9 ≤ content.length) : screen content = .ok false := by
  rw [C116_shown]
  congr 1
  apply decide_eq_false
  rintro (h3 | h3)
  · apply h
    rw [List.take_append_of_le_length h8] at h3
    refine ⟨content.drop 9, ?_⟩
    rw [← h3, List.take_append_drop]
  · rw [hc] at h3
    injection h3 with _ h3
    injection h3 with _ h3
    injection h3 with h3 _
    exact h2 h3

/-- The full statement: pictures in PNG and in JPEG form are shown as a screen. -/
def C116_full : Prop := ∀ content, Png content ∨ Jpeg content → screen content = .ok true

/-- **C116, violated**: no picture in JPEG form is shown as a screen, although the code means to. -/
theorem C116_violated (content : Text) (h : Jpeg content) : screen content = .ok false := by
  obtain ⟨r, rfl⟩ := h
  rw [C116_shown, decide_eq_false]
  rintro (h | h)
  · injection h with h _
    exact absurd h (by decide)
  · injection h with _ h
    injection h with _ h
    injection h with h _
    exact absurd h (by decide)

theorem C116_full_false : ¬ C116_full := by
  intro h
  have h1 : Jpeg [255, 216, 255, 224] := ⟨[224], rfl⟩
  have h2 := h _ (Or.inr h1)
  rw [C116_violated _ h1] at h2
  cases h2

/-- A program of five bytes that arrives in pieces; a picture in PNG form; one in JPEG form. -/
example : ((readProgram (fun j => j) [97, 98, 99, 100, 101]).bind fun r => .ok (r.1.take 7, r.2)) = .ok ([97, 98, 99, 100, 101, 0, 0], 5) ∧
    Png [137, 80, 78, 71, 13, 10, 26, 10, 0, 0, 0, 13] ∧ Jpeg [255, 216, 255, 224] ∧ ¬ Png [71, 73, 70, 56, 57, 97, 1, 0, 1] := by
  refine ⟨by decide +kernel, ⟨[0, 0, 13], rfl⟩, ⟨[224], rfl⟩, ?_⟩
  rintro ⟨r, h⟩
  injection h with h _
  exact absurd h (by decide)

/-! ## Commands in a terminal -/

theorem words_plain : ∀ (c rest cur : Text), 39 ∉ c → words true (some cur) (c ++ 39 :: rest) = words false (some (cur ++ c)) rest
  | [], rest, cur, _ => by
    rw [List.nil_append, words, if_pos rfl, List.append_nil]
  | x :: c, rest, cur, h => by
    have hx : x ≠ 39 := fun e => h (e ▸ List.mem_cons_self)
    rw [List.cons_append, words, if_neg hx, Option.getD_some, words_plain c rest (cur ++ [x]) (fun hm => h (List.mem_cons_of_mem _ hm)),
      List.append_assoc]
    rfl

theorem words_out (cur : Option Text) (c : UInt8) (r : Text) : words false cur (c :: r) =
    if c = 39 then words true (some (cur.getD [])) r
    else if c = 32 then
      (match cur with
        | none => words false none r
        | some w => (words false none r).map (w :: ·))
    else words false (some (cur.getD [] ++ [c])) r := by
  cases cur <;> rfl

/-- The words of a command and one more, in quotes. -/
theorem words_quoted (c : Text) (hc : 39 ∉ c) : ∀ (t : Text) (cur : Option Text), 39 ∉ t →
    words false cur (t ++ [32, 39] ++ c ++ [39]) = (words false cur t).map (· ++ [c])
  | [], cur, _ => by
    have h1 : words true (some []) (c ++ [39]) = some [c] := by
      rw [words_plain c [] [] hc, List.nil_append, words]
    cases cur with
    | none =>
      show words false none (32 :: 39 :: (c ++ [39])) = _
      rw [words_out, if_neg (by decide), if_pos rfl]
      dsimp only
      rw [words_out, if_pos rfl, Option.getD_none, h1]
      rfl
    | some w =>
      show words false (some w) (32 :: 39 :: (c ++ [39])) = _
      rw [words_out, if_neg (by decide), if_pos rfl]
      dsimp only
      rw [words_out, if_pos rfl, Option.getD_none, h1]
      rfl
  | x :: t, cur, h => by
    have hx : x ≠ 39 := fun e => h (e ▸ List.mem_cons_self)
    have ht : 39 ∉ t := fun hm => h (List.mem_cons_of_mem _ hm)
    show words false cur (x :: (t ++ [32, 39] ++ c ++ [39])) = _
    rw [words_out, words_out, if_neg hx, if_neg hx]
    by_cases hb : x = 32
    · rw [if_pos hb, if_pos hb]
      cases cur with
      | none => exact words_quoted c hc t none ht
      | some w =>
        dsimp only
        rw [words_quoted c hc t none ht, Option.map_map, Option.map_map]
        rfl
    · rw [if_neg hb, if_neg hb]
      exact words_quoted c hc t _ ht

/-- The terminal that is used: the setting, else the usual one. -/
def usedTerminal (env : Option Text) : Text := env.getD terminal

/-- **C117 (partial)**: a command without single quotes that succeeds is run once, in the terminal, which gets the whole
command as its last argument. -/
theorem C117_partial (sys : Text → Int) (env : Option Text) (c : Text) (hc : 39 ∉ c) (ht : 39 ∉ usedTerminal env)
    (hlen : (usedTerminal env).length + c.length < 493)
    (hs : ∀ t, words false none t = (words false none (usedTerminal env)).map (· ++ [c]) → sys t = 0) :
    ∃ t, mediaSys sys env c = .ok (true, [t]) ∧ words false none t = (words false none (usedTerminal env)).map (· ++ [c]) := by
  have hw := words_quoted c hc (usedTerminal env) none ht
  refine ⟨_, ?_, hw⟩
  have h0 := hs _ hw
  unfold usedTerminal at *
  unfold mediaSys external
  dsimp only
  have hf : format true (env.getD terminal) c = env.getD terminal ++ [32, 39] ++ c ++ [39] := by
    unfold format
    rw [if_pos rfl]
  rw [if_neg (by rw [if_pos rfl]; omega), hf, if_neg (by
    simp only [List.length_append, List.length_cons, List.length_nil]
    omega), bind_ok, h0]
  rfl

/-- **C117**: however long the terminal and the command are, and whatever happens, nothing is written outside of the 500
bytes for the command; what does not fit is not run. -/
theorem C117_fits (sys : Text → Int) (env : Option Text) (c : Text) : ∃ r l, mediaSys sys env c = .ok (r, l) ∧
    (495 ≤ c.length → r = false ∧ l = []) := by
  have key : ∀ (cmd : Option Text) (f : Text) (q : Bool), ∃ r l, external sys cmd f c q = .ok (r, l) ∧
      (495 ≤ c.length → r = false ∧ l = []) := by
    intro cmd f q
    unfold external
    dsimp only
    by_cases h : (if q = true then 7 else 5) + (cmd.getD f).length + c.length ≥ 500
    · rw [if_pos h]
      exact ⟨_, _, rfl, fun _ => ⟨rfl, rfl⟩⟩
    · rw [if_neg h]
      have : ¬ ((format q (cmd.getD f) c).length + 1 > 500) := by
        unfold format
        cases q <;> simp only [Bool.false_eq_true, if_true, if_false, List.length_append, List.length_cons, List.length_nil] at h ⊢ <;> omega
      rw [if_neg this]
      refine ⟨_, _, rfl, fun hl => ?_⟩
      exfalso
      apply h
      cases q <;> simp only [Bool.false_eq_true, if_true, if_false] <;> omega
  unfold mediaSys
  obtain ⟨r, l, h1, h2⟩ := key env terminal true
  obtain ⟨r', l', h3, h4⟩ := key none [] false
  rw [h1, bind_ok]
  dsimp only
  by_cases hr : r = true
  · rw [if_pos hr]
    exact ⟨_, _, rfl, h2⟩
  · rw [if_neg hr, h3, bind_ok]
    refine ⟨_, _, rfl, fun hl => ⟨(h4 hl).1, ?_⟩⟩
    rw [(h2 hl).2, (h4 hl).2]
    rfl

/-- The full statement: a command is run at most once, and the terminal gets it as its last argument. -/
def C117_full : Prop := ∀ (sys : Text → Int) (env : Option Text) (c : Text) (r : Bool) (l : List Text), 39 ∉ usedTerminal env →
  mediaSys sys env c = .ok (r, l) → l.length ≤ 1 ∧ ∀ t ∈ l, words false none t = (words false none (usedTerminal env)).map (· ++ [c])

/-- **C117, violated**: the command `rm 'a b'` reaches the terminal in two pieces. -/
theorem C117_violated_quotes : mediaSys (fun _ => 0) (some [120]) [114, 109, 32, 39, 97, 32, 98, 39] =
      .ok (true, [[120, 32, 39, 114, 109, 32, 39, 97, 32, 98, 39, 39]]) ∧
    words false none [120, 32, 39, 114, 109, 32, 39, 97, 32, 98, 39, 39] = some [[120], [114, 109, 32, 97], [98]] := by
  decide +kernel

/-- **C117, violated**: a command that ends with an error in the terminal is run a second time without the terminal. -/
theorem C117_violated_twice : mediaSys (fun _ => 1) (some [120]) [109] = .ok (false, [[120, 32, 39, 109, 39], [32, 109]]) := by
  decide +kernel

theorem C117_full_false : ¬ C117_full := by
  intro h
  have := (h (fun _ => 1) (some [120]) [109] _ _ (by decide) C117_violated_twice).1
  exact absurd this (by decide)

/-- The hypotheses of `C117_partial` are met: the command `ls -l` in the usual terminal. -/
example : 39 ∉ ([108, 115, 32, 45, 108] : Text) ∧ 39 ∉ usedTerminal none ∧
    (usedTerminal none).length + ([108, 115, 32, 45, 108] : Text).length < 493 ∧
    mediaSys (fun _ => 0) none [108, 115, 32, 45, 108] = .ok (true, [terminal ++ [32, 39, 108, 115, 32, 45, 108, 39]]) := by
  decide +kernel

end Verif.Props.Assets
