import Verif.Lemmas.Timer

/-!
# Properties of timers (C88)
-/

namespace Verif.Props.Timer
open Verif.Model.Timer Verif.Spec.Timer
open Verif (Out)

/-- **C88, the part that holds.** Timers 1 to 99, whatever a program does: a timer fires when the timers are looked at for
the first time after it was due, not before, and once, unless it is set again; a timer that is switched off does not fire;
the other timers do not matter (programs in which one timer sets another: `C88_together_partial`). Taken for granted: the store behind the array at the beginning does no harm (`101 ≤ slots`).
Missing: timer 100, times of 2^31 milliseconds and more. -/
theorem C88_timer_partial (slots bound n : Nat) (hslots : 101 ≤ slots) (hn : 1 ≤ n) (hn2 : n ≤ 99)
    (h31 : bound + bound < 2147483648) (l : List Op) (ha : Alone n l) (hs : Small bound l) :
    ∃ f, runAll slots l = .ok f ∧ timesOf n f = firings n none 0 l := by
  obtain ⟨s, h1, h2, h3⟩ := begin_rel (slots := slots) hslots hn (by omega)
  obtain ⟨f, h4, h5⟩ := run_rel hn hn2 h31 l h2 (by omega) ha hs
  exact ⟨f, by rw [runAll, h1, bind_ok, h4], by rw [h5, h3]⟩

/-- Timer 3 after 100 milliseconds, which sets itself again when it fires; timer 5 after 20, switched off. -/
def clock : List Op :=
  [.set ⟨3, 100⟩, .set ⟨5, 20⟩, .time 16, .look (fun i => if i = 3 then [⟨3, 100⟩] else []), .set ⟨5, -1⟩,
   .time 100, .look (fun i => if i = 3 then [⟨3, 100⟩] else []), .time 120, .look (fun i => if i = 3 then [⟨3, 100⟩] else []),
   .look (fun i => if i = 3 then [⟨3, 100⟩] else []), .time 250, .look (fun i => if i = 3 then [⟨3, 100⟩] else [])]

example : Alone 3 clock ∧ Small 1000 clock ∧ firings 3 none 0 clock = [120, 250] ∧ firings 5 none 0 clock = [] := by
  refine ⟨?_, ?_, by decide, by decide⟩
  · simp only [clock, Alone]
    simp +contextual
  · simp only [clock, Small]
    refine ⟨by decide, by decide, by decide, ?_, by decide, by decide, ?_, by decide, ?_, ?_, by decide, ?_, trivial⟩ <;>
      intro i c hc <;> split at hc <;> simp_all

/-- **C88, the part that holds, for all timers together**, also if timers set or switch off each other: exactly the timers fire that are
due when it is their turn, in the order of their numbers. Missing: as above. -/
theorem C88_together_partial (slots bound : Nat) (hslots : 101 ≤ slots) (h31 : bound + bound < 2147483648) (l : List Op)
    (hs : Small bound l) : runAll slots l = .ok (together (fun _ => none) 0 l) := by
  obtain ⟨s, h1, _, h3⟩ := begin_rel (slots := slots) (n := 1) hslots (by omega) (by omega)
  have hr : RelAll s fun _ => none := by
    intro n hn hn2
    obtain ⟨s2, k1, k2, _⟩ := begin_rel (slots := slots) (n := n) hslots hn (by omega)
    rw [h1] at k1
    rw [Out.ok.inj k1]
    exact k2
  rw [runAll, h1, bind_ok, run_all h31 l hr (by omega) hs, h3]

/-- **C88, the part that holds, for one look at the timers**: after any history, what the timers cause makes no other timer fire at the same
time that would not have fired anyway; each fires at most once, in the order of their numbers. -/
theorem C88_look_partial (slots bound : Nat) (hslots : 101 ≤ slots) (h31 : bound + bound < 2147483648) (l : List Op)
    (h : Nat → List Set) (hs : Small bound (l ++ [.look h])) :
    ∃ f g g0, runAll slots l = .ok f ∧ runAll slots (l ++ [.look h]) = .ok (f ++ g) ∧
      runAll slots (l ++ [.look fun _ => []]) = .ok (f ++ g0) ∧ (∀ x ∈ g, x ∈ g0) ∧ (g.map (·.2)).Pairwise (· < ·) := by
  have small : ∀ (l l2 : List Op), Small bound (l ++ l2) ↔ Small bound l ∧ Small bound l2 := by
    intro l l2
    induction l with
    | nil => simp [Small]
    | cons o l ih => cases o <;> simp [Small, ih, and_assoc]
  have hl := ((small _ _).1 hs).1
  have hs0 : Small bound (l ++ [.look fun _ => []]) := (small _ _).2 ⟨hl, by simp [Small]⟩
  obtain ⟨p, now, e⟩ := together_append l (fun _ => none) 0
  refine ⟨_, _, _, C88_together_partial slots bound hslots h31 l hl, by rw [C88_together_partial slots bound hslots h31 _ hs, e],
    by rw [C88_together_partial slots bound hslots h31 _ hs0, e], ?_, ?_⟩
  · simp only [together, List.append_nil, List.mem_map]
    rintro x ⟨i, hi, rfl⟩
    obtain ⟨a, t, b, c⟩ := sweep_due _ i hi
    refine ⟨i, ?_, rfl⟩
    rw [sweep_calm _ List.nodup_range', List.mem_filter]
    exact ⟨a, by rw [b]; simpa using c⟩
  · simp only [together, List.append_nil, List.map_map]
    rw [show ((fun x : Nat × Nat => x.2) ∘ fun i => (now, i)) = id from rfl, List.map_id]
    exact List.Pairwise.sublist (sweep_order _) List.pairwise_lt_range'

/-- What timers 1 to 3 cause: timer 1 sets timer 2 and switches timer 3 off, timer 2 sets timer 1 (to be due at once). -/
def chat (i : Nat) : List Set := if i = 1 then [⟨2, 30⟩, ⟨3, -1⟩] else if i = 2 then [⟨1, 0⟩] else []

/-- All three timers are due when the timers are looked at: timer 1 postpones 2 and switches 3 off. -/
def chats : List Op :=
  [.set ⟨1, 10⟩, .set ⟨2, 10⟩, .set ⟨3, 10⟩, .time 20, .look chat, .time 60, .look chat, .time 61, .look chat]

example : Small 1000 chats ∧ together (fun _ => none) 0 chats = [(20, 1), (60, 2), (61, 1)] := by
  refine ⟨?_, by decide⟩
  have : ∀ i, ∀ c ∈ chat i, c.ms ≤ (1000 : Nat) := by
    intro i c hc
    unfold chat at hc
    split at hc
    · simp only [List.mem_cons, List.not_mem_nil, or_false] at hc; rcases hc with rfl | rfl <;> decide
    · split at hc
      · simp only [List.mem_cons, List.not_mem_nil, or_false] at hc; subst hc; decide
      · cases hc
  simp only [chats, Small]
  exact ⟨by decide, by decide, by decide, by decide, this, by decide, this, by decide, this, trivial⟩

/-- The array has 100 elements, and the first thing that happens is that the one behind the last is set. -/
theorem C88_violated_begin (l : List Op) : runAll 100 l = .ub := by
  have : begin_ 100 = .ub := by decide +kernel
  rw [runAll, this]
  rfl

/-- Timer 100 can be set, but it never fires, whatever happens. -/
theorem C88_violated_hundred (s : St) (l : List Op) : ∀ f, run s l = .ok f → timesOf 100 f = [] := by
  have hu : ∀ (h : Nat → List Set) (k : Nat) (s : St) (i : Nat) r, i + k ≤ 100 → update h s k i = .ok r → 100 ∉ r.1 := by
    intro h k
    induction k with
    | zero =>
      intro s i r _ e
      simp only [update, Out.ok.injEq] at e
      subst e
      simp
    | succ k ih =>
      intro s i r hi e
      rw [update] at e
      cases hv : s.timers[i]? with
      | none => rw [hv] at e; cases e
      | some v =>
        rw [hv] at e
        simp only at e
        split at e
        · exact ih _ _ _ (by omega) e
        · split at e
          · obtain ⟨t, _, e⟩ := Out.bind_eq_ok.1 e
            obtain ⟨s2, _, e⟩ := Out.bind_eq_ok.1 e
            obtain ⟨q, hq, e⟩ := Out.bind_eq_ok.1 e
            simp only [Out.ok.injEq] at e
            subst e
            simp only [List.mem_cons, not_or]
            exact ⟨by omega, ih _ _ _ (by omega) hq⟩
          · exact ih _ _ _ (by omega) e
  induction l generalizing s with
  | nil => intro f e; simp only [run, Out.ok.injEq] at e; subst e; rfl
  | cons o l ih =>
    intro f e
    cases o with
    | set c =>
      rw [run] at e
      obtain ⟨s2, _, e⟩ := Out.bind_eq_ok.1 e
      exact ih _ f e
    | time t => exact ih _ f e
    | look h =>
      rw [run] at e
      obtain ⟨r, hr, e⟩ := Out.bind_eq_ok.1 e
      obtain ⟨q, hq, e⟩ := Out.bind_eq_ok.1 e
      simp only [Out.ok.injEq] at e
      subst e
      rw [timesOf_append, timesOf_map, ih _ q hq]
      have hf : r.1.filter (· == 100) = [] := by
        rw [List.filter_eq_nil_iff]
        intro a ha e
        have : a = 100 := by simpa using e
        exact hu h 99 s 1 r (by omega) hr (this ▸ ha)
      rw [hf]
      rfl

/-- It was set and is due, and the specification has it fire. -/
example : (runAll 101 [.set ⟨100, 5⟩, .time 10, .look fun _ => []]).bind (fun f => .ok (timesOf 100 f)) = .ok [] ∧
    firings 100 none 0 [.set ⟨100, 5⟩, .time 10, .look fun _ => []] = [10] :=
  ⟨by decide +kernel, by decide⟩

/-- When the program has run for 2^31 milliseconds (about 25 days), a timer that is set does not fire. -/
theorem C88_violated_late :
    (runAll 101 [.time 2147483648, .set ⟨1, 5⟩, .time 2147483700, .look fun _ => []]).bind (fun f => .ok (timesOf 1 f)) = .ok [] ∧
    firings 1 none 0 [.time 2147483648, .set ⟨1, 5⟩, .time 2147483700, .look fun _ => []] = [2147483700] :=
  ⟨by decide +kernel, by decide +kernel⟩

end Verif.Props.Timer
