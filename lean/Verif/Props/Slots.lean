import Verif.Lemmas.SlotsRun

/-!
# Properties of images, sounds, music and fonts as things of their own (C94)
-/

namespace Verif.Props.Slots
open Verif.Model.Slots Verif.Spec.Slots Verif.Lemmas.Slots
open Verif (Out)

/-- **C94, the full statement**: whatever a program does with its images, sounds, music and fonts, it gets what it would get
if every object were a thing of its own. -/
def C94_full : Prop := ∀ l : List Op, Model.Slots.run init l = .ok (Spec.Slots.run [] l)

/-- **C94, the part that holds**: for every history in which the program keeps to `Fits` all the time. -/
theorem C94_things_partial (l : List Op) (hf : AllFit [] l) : Model.Slots.run init l = .ok (Spec.Slots.run [] l) :=
  run_sim sim_init l hf

/-- Two images in two places, one of them with a font that is lost later and replaced, a sound that cannot be loaded and one
that can, a piece of music, a hidden image that is lost. -/
def tour : List Op :=
  [.newImage, .newFont 7, .newImage, .source 0 70, .source 2 72, .place 0 10 20, .place 2 30 40, .useFont 0 1, .write 0,
   .newSound none, .newSound (some 90), .newMusic (some 91), .play 4, .play 5, .play 3, .draw, .collect 1, .newFont 8, .useFont 0 6, .write 0,
   .show_ 2 false, .collect 2, .draw, .whereIs 0, .whereIs 2, .play 0]

example : AllFit [] tour ∧ Spec.Slots.run [] tour =
    [.obj 0, .obj 1, .obj 2, .self, .self, .self, .self, .self, .face 7, .failed, .obj 4, .obj 5, .heard 90, .heard 91, .self,
     .scene [(70, 10, 20), (72, 30, 40)], .self, .obj 6, .self, .face 8, .self, .self, .scene [(70, 10, 20)], .pos 10 20,
     .nonsense, .nonsense] := by
  decide +kernel

/-- **C94, an image stays where it was put**, whatever is done to other things in between: with other images, sounds, fonts,
drawing and collecting. -/
theorem C94_stays_partial (l k : List Op) (o : Nat) (x y : Int) (i : Image) (hi : (after [] l)[o]? = some (.image i)) (hh : i.held = true)
    (ht : ∀ op ∈ k, touches o op = false) (hf : AllFit [] (l ++ .place o x y :: (k ++ [.whereIs o]))) :
    ∃ a, Model.Slots.run init (l ++ .place o x y :: (k ++ [.whereIs o])) = .ok (a ++ [.pos x y]) := by
  rw [C94_things_partial _ hf, run_append]
  have h1 : (Spec.Slots.step (after [] l) (.place o x y)).1[o]? = some (.image { i with x := x, y := y }) := by
    simp only [Spec.Slots.step, hi, hh, if_true]
    exact List.getElem?_set_self (List.getElem?_eq_some_iff.1 hi).1
  obtain ⟨j, g1, g2, g3, g4⟩ := after_keeps h1 hh k ht
  refine ⟨Spec.Slots.run [] l ++ (Spec.Slots.step (after [] l) (.place o x y)).2 ::
    Spec.Slots.run (Spec.Slots.step (after [] l) (.place o x y)).1 k, ?_⟩
  simp only [Spec.Slots.run, run_append, List.append_assoc, List.cons_append]
  have e : (Spec.Slots.step (after (Spec.Slots.step (after [] l) (.place o x y)).1 k) (.whereIs o)).2 = .pos x y := by
    simp only [Spec.Slots.step] at g1 ⊢
    simp only [g1, g2, if_true, g3, g4]
  rw [e]

example : ∃ i : Image, (after [] [.newImage, .newImage])[0]? = some (.image i) ∧ i.held = true ∧
    (∀ op ∈ [Op.place 1 5 5, .newFont 7, .draw], touches 0 op = false) := ⟨_, rfl, rfl, by decide⟩

/-- **C94, what is gone does not come back**: a program that has asked for fifty sounds and pieces of music gets no further
sound, even if the collector has taken all the others away. -/
theorem C94_used_up (l : List Op) (hn : 50 ≤ l.countP asks) (c : Option Nat) (hf : AllFit [] (l ++ [.newSound c])) :
    ∃ a, Model.Slots.run init (l ++ [.newSound c]) = .ok (a ++ [.refused]) := by
  rw [C94_things_partial _ hf, run_append]
  have h1 := count_after [] l
  have h2 : ¬ (after [] l).countP isSound < 50 := by
    simp only [List.countP_nil] at h1
    omega
  exact ⟨Spec.Slots.run [] l, by simp only [Spec.Slots.run, Spec.Slots.step, if_neg h2]⟩

/-- Fifty sounds, each of which is lost at once. -/
def many : List Op := (List.range 50).flatMap fun o => [.newSound (some o), .collect o]

example : 50 ≤ many.countP asks ∧ AllFit [] (many ++ [.newSound (some 1)]) ∧
    ((after [] many).all fun t => match t with | .sound _ held => !held | _ => false) = true := by
  refine ⟨by decide +kernel, ?_, by decide +kernel⟩
  apply allFit_free
  intro op hop w
  simp only [many, List.mem_append, List.mem_flatMap, List.mem_cons, List.not_mem_nil, or_false] at hop
  rcases hop with ⟨o, _, rfl | rfl⟩ | rfl <;> trivial

/-- The 101st image is stored behind the table. -/
theorem C94_violated_images : Model.Slots.run init (List.replicate 101 .newImage) = .ub :=
  Out.of_isUb (by decide +kernel)

/-- The 51st piece of music is stored behind the table; a 51st sound is refused. -/
theorem C94_violated_music :
    Model.Slots.run init (List.replicate 51 (.newMusic (some 1))) = .ub ∧
    Model.Slots.run init (List.replicate 51 (.newSound (some 1))) = .ok ((List.range 50).map .obj ++ [.refused]) :=
  ⟨Out.of_isUb (by decide +kernel), by decide +kernel⟩

/-- An image that is visible, shows something and is lost is drawn all the same, with a texture that has been destroyed. -/
theorem C94_violated_draw (c : Nat) : Model.Slots.run init [.newImage, .source 0 c, .collect 0, .draw] = .ub := rfl

/-- The eleventh font is Nil; an image that is given it reads at no address. -/
theorem C94_violated_font :
    Model.Slots.run init (.newImage :: (List.replicate 11 (.newFont 7) ++ [.useFont 0 11])) = .ub :=
  Out.of_isUb (by decide +kernel)

/-- An image that has lost its font ends the program when it writes. -/
theorem C94_violated_write (c d : Nat) :
    Model.Slots.run init [.newImage, .source 0 c, .newFont d, .useFont 0 1, .collect 1, .write 0] = .exit := rfl

/-- The full statement does not hold. -/
theorem C94_violated : ¬ C94_full := by
  intro h
  have h1 := h (List.replicate 101 .newImage)
  rw [C94_violated_images] at h1
  cases h1

end Verif.Props.Slots
