import Verif.Lemmas.Keys

/-!
# Arrow keys, and the shift key with the mouse: C98, C101
-/

namespace Verif.Props.Keys
open Verif Verif.Spec.Keys Verif.Model.Keys Verif.Lemmas.Keys

/-- C98 in full: while the keys are left to the player, it is led in the direction of the last key pressed of those that are held. -/
def C98_full : Prop :=
  ∀ (v : Env) (h : List Ev) (s : St), v.mode ≠ 4 → v.player = true → Free h → run v init h = .ok s →
    s.dir = asked v.mode v.falls (heldAfter h)

/-- For every history of keys, clicks and freezes: the player is only led in the direction of a key that is held. Missing: players
that fall in mode 2. -/
theorem C98_sound_partial (v : Env) (hm : v.mode ≠ 4) (hf : v.mode = 2 → v.falls = false) (h : List Ev) (s : St)
    (hs : run v init h = .ok s) : s.dir = -1 ∨ ∃ k ∈ heldAfter h, heading v.mode v.falls k = some s.dir := by
  rcases run_sound ⟨hm, hf⟩ (l := []) (Or.inl rfl) hs with h1 | ⟨_, h1⟩
  · exact Or.inl h1
  · exact Or.inr h1

/-- When no key is held any more the player is not led any more: its direction is left alone by the next frame. -/
theorem C98_stops_partial (v : Env) (hm : v.mode ≠ 4) (hf : v.mode = 2 → v.falls = false) (h : List Ev) (s s' : St)
    (hs : run v init h = .ok s) (hn : heldAfter h = []) (hfr : step v s .frame = .ok s') : s.dir = -1 ∧ s'.seen = s.seen := by
  have hd : s.dir = -1 := by
    rcases C98_sound_partial v hm hf h s hs with h1 | ⟨k, h1, _⟩
    · exact h1
    · simp [hn] at h1
  simp only [step, Out.ok.injEq, if_neg hm] at hfr
  subst hfr
  refine ⟨hd, ?_⟩
  simp only [hd]
  rw [if_neg (by omega)]

/-- A top view in which the player may go anywhere. -/
def top : Env := ⟨1, true, false⟩

example : (heldAfter [.press .left, .press .up, .freeze true, .press .right, .release .left] = [.right, .up]) ∧
    run top init [.press .left, .press .up, .freeze true, .press .right] = .ok ⟨90, 0, 0, 0, true, false, false, -1⟩ := by decide +kernel

example (s : St) (hs : run top init [.press .left, .frame, .press .up, .release .left, .frame, .release .up] = .ok s) : s.dir = -1 :=
  (C98_stops_partial top (by decide) (by decide) _ s _ hs (by decide +kernel) rfl).1

example : ∃ s, run top init [.press .left, .frame, .press .up, .release .left, .frame, .release .up] = .ok s ∧ s.seen = 180 :=
  ⟨_, rfl, by decide +kernel⟩

/-- With one key at a time the player is led exactly as the key says, and the next frame turns it that way. Missing: several keys. -/
theorem C98_follows_partial (v : Env) (hm : v.mode ≠ 4) (hf : v.mode = 2 → v.falls = false) (hp : v.player = true) (h : List Ev)
    (ho : OneAtATime [] h) (s s' : St) (hs : run v init h = .ok s) (hfr : step v s .frame = .ok s') :
    s.dir = asked v.mode v.falls (heldAfter h) ∧
      ∀ k d, heldAfter h = [k] → heading v.mode v.falls k = some d → s'.seen = d := by
  have hx := run_exact ⟨hm, hf⟩ hp (l := []) (s := init) ⟨rfl, rfl, rfl, by simp⟩ ho hs
  refine ⟨hx.1, fun k d h1 h2 => ?_⟩
  have h3 : s.dir = d := by
    have := hx.1
    rw [show h.foldl held [] = [k] from h1, asked_one, h2] at this
    exact this
  have h4 : -1 < d := by
    cases k <;> simp only [heading] at h2 <;> split at h2 <;> simp at h2 <;> omega
  simp only [step, Out.ok.injEq, if_neg hm] at hfr
  subst hfr
  simp only [h3]
  rw [if_pos ⟨h4, hp⟩]

example : OneAtATime [] [.press .left, .frame, .release .left, .press .up, .press .up, .frame] := by
  simp [OneAtATime, held]

example : ∃ s, run top init [.press .left, .frame, .release .left, .press .up, .press .up, .frame] = .ok s ∧ s.seen = 90 :=
  ⟨_, rfl, by decide +kernel⟩

/-- Left, right, and left released: the player stops although the right key is held. -/
theorem C98_violated_two : ∃ (h : List Ev) (s : St), Free h ∧ run top init h = .ok s ∧ s.dir = -1 ∧ heldAfter h = [.right] ∧
    asked top.mode top.falls (heldAfter h) = 0 := by
  refine ⟨[.press .left, .press .right, .release .left], _, ?_, rfl, by decide +kernel, by decide +kernel, by decide +kernel⟩
  intro e he
  simp only [List.mem_cons, List.not_mem_nil, or_false] at he
  rcases he with rfl | rfl | rfl <;> simp

/-- In mode 2 a player that falls goes up for ever once the key has been pressed. -/
theorem C98_violated_stuck : ∃ (v : Env) (h : List Ev) (s : St), v.mode = 2 ∧ v.player = true ∧ Free h ∧ run v init h = .ok s ∧
    heldAfter h = [] ∧ s.dir = 90 ∧ ∀ n s', run v s (List.replicate n .frame) = .ok s' → s'.dir = 90 := by
  refine ⟨⟨2, true, true⟩, [.press .up, .release .up], _, rfl, rfl, ?_, rfl, by decide +kernel, by decide +kernel, ?_⟩
  · intro e he
    simp only [List.mem_cons, List.not_mem_nil, or_false] at he
    rcases he with rfl | rfl <;> simp
  · have key : ∀ n (s s' : St), s.dir = 90 → run ⟨2, true, true⟩ s (List.replicate n .frame) = .ok s' → s'.dir = 90 := by
      intro n
      induction n with
      | zero =>
        intro s s' h1 h2
        simp only [List.replicate_zero, run, Out.ok.injEq] at h2
        rw [← h2]
        exact h1
      | succ n ih =>
        intro s s' h1 h2
        simp only [List.replicate_succ, run, step, Out.ok_bind] at h2
        exact ih _ s' (by simpa using h1) h2
    intro n s' h
    exact key n _ s' (by decide +kernel) h

theorem C98_violated : ¬ C98_full := by
  intro h
  obtain ⟨l, s, h1, h2, h3, _, h4⟩ := C98_violated_two
  have h5 := h top l s (by decide) rfl h1 h2
  rw [h3, h4] at h5
  cases h5

/-- Steering by turning (mode 4): in every frame the player has a direction of 0 to 359 degrees. -/
theorem C98_turn (v : Env) (hm : v.mode = 4) (hp : v.player = true) (s s' : St) (h : step v s .frame = .ok s') :
    0 ≤ s'.seen ∧ s'.seen ≤ 359 ∧ s'.seen = s'.dir ∧
      ((0 ≤ s.dir + s.rotation ∧ s.dir + s.rotation ≤ 359) → s'.seen = s.dir + s.rotation) := by
  simp only [step, Out.ok.injEq, if_pos hm, hp, and_true] at h
  subst h
  have key : 0 ≤ (if s.dir + s.rotation > 359 then 0 else if s.dir + s.rotation < 0 then 359 else s.dir + s.rotation) ∧
      (if s.dir + s.rotation > 359 then 0 else if s.dir + s.rotation < 0 then 359 else s.dir + s.rotation) ≤ 359 := by
    repeat' split
    all_goals omega
  refine ⟨?_, ?_, ?_, fun hc => ?_⟩ <;> dsimp only <;> rw [if_pos (by omega)]
  · exact key.1
  · exact key.2
  · rw [if_neg (by omega), if_neg (by omega)]

example : (step ⟨4, true, false⟩ ⟨350, 0, 5, 0, false, false, false, 350⟩ .frame).sat (fun s => s.seen = 355) = true := by decide +kernel

/-- Steering by turning, for every history: a frame turns the player five degrees to the left only while the left key is
held, to the right only while the right key is held, and not otherwise (away from the seam at 0 degrees); it drives forwards
only while the up key is held and backwards only while the down key is. -/
theorem C98_turn_side (v : Env) (hm : v.mode = 4) (h : List Ev) (s s' : St) (hs : run v init h = .ok s)
    (hfr : step v s .frame = .ok s') (h1 : 5 ≤ s.dir) (h2 : s.dir ≤ 354) :
    (s'.dir = s.dir ∨ (s'.dir = s.dir + 5 ∧ .left ∈ heldAfter h) ∨ (s'.dir = s.dir - 5 ∧ .right ∈ heldAfter h)) ∧
      (s'.speed = 0 ∨ (s'.speed = 1 ∧ .up ∈ heldAfter h) ∨ (s'.speed = -1 ∧ .down ∈ heldAfter h)) := by
  have ht := run_turning hm (l := []) (s := init) ⟨.inl rfl, .inl rfl⟩ hs
  simp only [step, Out.ok.injEq, if_pos hm] at hfr
  subst hfr
  refine ⟨?_, ht.2⟩
  dsimp only
  rcases ht.1 with hr | ⟨hr, hk⟩ | ⟨hr, hk⟩
  · left
    rw [hr, if_neg (by omega), if_neg (by omega)]
    omega
  · right; left
    refine ⟨?_, hk⟩
    rw [hr, if_neg (by omega), if_neg (by omega)]
  · right; right
    refine ⟨?_, hk⟩
    rw [hr, if_neg (by omega), if_neg (by omega)]
    omega

example : ∃ s, run ⟨4, true, false⟩ init [.press .left, .frame, .frame, .frame, .release .left, .press .right, .press .up] = .ok s ∧
    s.dir = 14 ∧ s.speed = 1 := ⟨_, rfl, by decide +kernel, by decide +kernel⟩

/-- A turn to one side and back again need not lead back. -/
theorem C98_violated_turn : ∃ (s s' : St), s.dir = 355 ∧
    run ⟨4, true, false⟩ s [.press .left, .frame, .release .left, .press .right, .frame, .release .right] = .ok s' ∧ s'.dir ≠ 355 :=
  ⟨⟨355, 0, 0, 0, false, false, false, 355⟩, _, rfl, rfl, by decide +kernel⟩

/-! ### C101 -/

/-- C101 in full: no sequence of keys and clicks is undefined. -/
def C101_full : Prop := ∀ (v : Env) (h : List Ev), run v init h ≠ .ub

/-- No sequence of keys and clicks is undefined in which no shift key is pressed before a text field has been clicked on. -/
theorem C101_safe_partial (v : Env) (h : List Ev) (hf : fieldFirst h = true) : ∃ s, run v init h = .ok s := run_fieldFirst rfl hf

example : ∃ s, run top init [.press .left, .mouseDown false false, .mouseUp, .mouseDown true false, .mouseUp, .shiftDown, .mouseUp] = .ok s :=
  C101_safe_partial top _ (by decide)

/-- A click while a shift key is held, with no text field in use, ends the program. -/
theorem C101_violated_shift (v : Env) : run v init [.shiftDown, .mouseDown false false, .mouseUp] = .ub := rfl

theorem C101_violated : ¬ C101_full := fun h => h top _ (C101_violated_shift top)

end Verif.Props.Keys
