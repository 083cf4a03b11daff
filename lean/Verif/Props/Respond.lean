import Verif.Model.Respond
import Verif.Spec.Respond
import Verif.Props.Map
import Verif.Props.Text

/-!
# Words that maps and texts do not know (C107)
-/

namespace Verif.Props.Respond
open Verif Verif.Model Verif.Model.Respond Verif.Spec

variable {ν : Type}

/-- The message of a program, with `sign` behind a word that has an argument. -/
def message (sign : UInt8) : Said ν → Text × List ν
  | .tell w v => (w ++ [sign], [v])
  | .ask w => (w, [])

/-- The values among the replies of a map. -/
def given : List (MapReply ν) → List (Option ν)
  | [] => []
  | .val v :: l => v :: given l
  | _ :: l => given l

theorem keyOf_word {w : Text} (h : w ≠ []) (c : UInt8) : keyOf (w ++ [c]) = w := by
  unfold keyOf
  rw [if_pos, List.dropLast_concat]
  rw [List.length_append]
  have := List.length_pos_iff.2 h
  show w.length + 1 > 1
  omega

theorem told_append (w : Text) : ∀ (l l' : List (Said ν)), told w (l ++ l') = (told w l').or (told w l)
  | [], l' => by
    show told w l' = (told w l').or none
    cases told w l' <;> rfl
  | .tell w' v :: l, l' => by
    show (match told w (l ++ l') with | some x => some x | none => if w' = w then some v else none) = _
    rw [told_append w l l']
    show _ = (told w l').or (match told w l with | some x => some x | none => if w' = w then some v else none)
    cases told w l' <;> rfl
  | .ask _ :: l, l' => told_append w l l'

theorem told_tell (w w' : Text) (v : ν) (l : List (Said ν)) :
    told w (l ++ [.tell w' v]) = if w = w' then some v else told w l := by
  rw [told_append]
  show (if w' = w then some v else none).or _ = _
  by_cases h : w = w'
  · rw [if_pos h, if_pos h.symm]; rfl
  · rw [if_neg h, if_neg (fun e => h e.symm)]; rfl

theorem told_ask (w w' : Text) (l : List (Said ν)) : told w (l ++ [.ask w']) = told w l := told_append w l [.ask w']

/-- Of a map that holds what was told, every further history gets the right answers. -/
theorem run_said (known : Text → Bool) (hash : Text → Nat) (sign : UInt8) : ∀ (h before : List (Said ν)) (m : PMap Text ν)
    (l : List (Text × ν)), PMap.Rep hash m l → (∀ w, PMap.lookup l w = told w before) →
    (∀ s ∈ h, s.word ≠ [] ∧ known (message sign s).1 = false) →
    ∃ m' rs, mapRun known hash m (h.map (message sign)) = some (.ok (m', rs)) ∧ given rs = answers before h := by
  intro h
  induction h with
  | nil => intro before m l _ _ _; exact ⟨m, [], rfl, rfl⟩
  | cons s h ih =>
    intro before m l hr hl hk
    obtain ⟨hne, hkn⟩ := hk s List.mem_cons_self
    have hk' := fun s hs => hk s (List.mem_cons_of_mem _ hs)
    cases s with
    | tell w v =>
      obtain ⟨m1, e1, r1⟩ := PMap.put_rep hash hr w v
      obtain ⟨m2, rs, e2, g2⟩ := ih (before ++ [.tell w v]) m1 _ r1 (fun w' => by
        rw [told_tell, ← hl w']
        rw [Verif.Props.Map.lookup_cons]) hk'
      refine ⟨m2, MapReply.self :: rs, ?_, g2⟩
      have hs : mapSend known hash m (w ++ [sign]) [v] = some (.ok (m1, .self)) := by
        unfold mapSend
        rw [show known (w ++ [sign]) = false from hkn]
        show some (do let m ← m.put hash (keyOf (w ++ [sign])) v; .ok (m, MapReply.self)) = _
        rw [keyOf_word (show w ≠ [] from hne), e1]
        rfl
      show mapRun known hash m ((w ++ [sign], [v]) :: h.map (message sign)) = _
      unfold mapRun
      rw [hs]
      dsimp only
      rw [e2]
      rfl
    | ask w =>
      obtain ⟨m2, rs, e2, g2⟩ := ih (before ++ [.ask w]) m l hr (fun w' => by rw [told_ask]; exact hl w') hk'
      refine ⟨m2, MapReply.val (PMap.lookup l w) :: rs, ?_, ?_⟩
      · have hs : mapSend known hash m w [] = some (.ok (m, .val (PMap.lookup l w))) := by
          unfold mapSend
          rw [show known w = false from hkn]
          show some (do let r ← m.find hash w; .ok (m, MapReply.val r)) = _
          rw [PMap.find_rep hash hr w]
          rfl
        show mapRun known hash m ((w, []) :: h.map (message sign)) = _
        unfold mapRun
        rw [hs]
        dsimp only
        rw [e2]
        rfl
      · show PMap.lookup l w :: given rs = told w before :: answers (before ++ [.ask w]) h
        rw [g2, hl w]

/-- **C107** for maps, as far as it holds: if a map is told values with words and asked for them with words, in any order
and as often as one likes, it answers what it was told last for the word, whatever the hash function is — for words that
maps do not know, neither with nor without the sign behind them. -/
theorem C107_map_partial (known : Text → Bool) (hash : Text → Nat) (sign : UInt8) (h : List (Said ν))
    (hk : ∀ s ∈ h, s.word ≠ [] ∧ known (message sign s).1 = false) :
    ∃ m rs, mapRun known hash (PMap.new : PMap Text ν) (h.map (message sign)) = some (.ok (m, rs)) ∧
      given rs = answers [] h :=
  run_said known hash sign h [] PMap.new [] (PMap.rep_new hash) (fun _ => rfl) hk

/-- Some words that maps know in English: `count`, `copy` and `new`. -/
def some_known (w : Text) : Bool :=
  w ∈ ([[99, 111, 117, 110, 116], [99, 111, 112, 121], [110, 101, 119]] : List Text)

/-- `m ab: 1, m c: 2, m ab: 3, m ab, m c, m d`. -/
example : ∃ h : List (Said Nat), h.length = 6 ∧ (∀ s ∈ h, s.word ≠ [] ∧ some_known (message 58 s).1 = false) ∧
    answers [] h = [some 3, some 2, none] :=
  ⟨[.tell [97, 98] 1, .tell [99] 2, .tell [97, 98] 3, .ask [97, 98], .ask [99], .ask [100]], rfl, by decide +kernel, rfl⟩

/-- **C107** is violated for words that are messages of maps: in English a map takes `count: 5`, but `count` does not
answer it. -/
theorem C107_map_violated_known (hash : Text → Nat) :
    (∃ m, mapSend some_known hash (PMap.new : PMap Text Nat) [99, 111, 117, 110, 116, 58] [5] = some (.ok (m, .self)) ∧
      PMap.find hash m [99, 111, 117, 110, 116] = .ok (some 5) ∧
      mapSend some_known hash m [99, 111, 117, 110, 116] [] = none) := by
  obtain ⟨m1, e1, r1⟩ := PMap.put_rep hash (PMap.rep_new hash) ([99, 111, 117, 110, 116] : Text) 5
  refine ⟨m1, ?_, ?_, ?_⟩
  · unfold mapSend
    rw [show some_known [99, 111, 117, 110, 116, 58] = false by decide]
    show some (do let m ← PMap.new.put hash [99, 111, 117, 110, 116] 5; .ok (m, MapReply.self)) = _
    rw [e1]
    rfl
  · exact PMap.find_rep hash r1 _
  · unfold mapSend
    rw [show some_known [99, 111, 117, 110, 116] = true by decide]
    rfl

/-- **C107** is violated for single characters of several bytes, which need no sign behind them: `m é 5` stores 5 under a
piece of the character, and asking for `é` finds nothing. -/
theorem C107_map_violated_character (hash : Text → Nat) :
    (∃ m, mapSend some_known hash (PMap.new : PMap Text Nat) [195, 169] [5] = some (.ok (m, .self)) ∧
      PMap.find hash m [195, 169] = .ok none ∧ PMap.find hash m [195] = .ok (some 5)) := by
  obtain ⟨m1, e1, r1⟩ := PMap.put_rep hash (PMap.rep_new hash) ([195] : Text) 5
  refine ⟨m1, ?_, ?_, ?_⟩
  · unfold mapSend
    rw [show some_known [195, 169] = false by decide]
    show some (do let m ← PMap.new.put hash [195] 5; .ok (m, MapReply.self)) = _
    rw [e1]
    rfl
  · exact PMap.find_rep hash r1 _
  · exact PMap.find_rep hash r1 _

/-- **C107** for texts: a word with an argument that texts do not know replaces all occurrences of the word in the text by
the argument, with or without the sign behind the word. -/
theorem C107_text (known : Text → Bool) (sign : UInt8) (t w v : Text) (hw : w ≠ []) (hl : w.getLast? ≠ some sign)
    (hk : known (w ++ [sign]) = false) (hk' : known w = false) :
    textSend known sign t (w ++ [sign]) [v] = some (.ok (replaceAll t w v)) ∧
    textSend known sign t w [v] = some (.ok (replaceAll t w v)) ∧ textSend known sign t w [] = some (.ok t) := by
  refine ⟨?_, ?_, ?_⟩
  · unfold textSend
    rw [hk]
    show some (fillIn sign t (w ++ [sign]) v) = _
    unfold fillIn
    rw [List.getLast?_concat]
    dsimp only
    rw [if_pos rfl, List.dropLast_concat, Verif.Props.Text.C24_replace]
  · unfold textSend
    rw [hk']
    show some (fillIn sign t w v) = _
    unfold fillIn
    cases hc : w.getLast? with
    | none => exact absurd (List.getLast?_eq_none_iff.1 hc) hw
    | some c =>
      dsimp only
      rw [if_neg (fun e => hl (by rw [hc, e])), Verif.Props.Text.C24_replace]
  · unfold textSend
    rw [hk']
    rfl

/-- `‘2 + x’ x: ‘3’` is `2 + 3`. -/
example : textSend (fun _ => false) 58 [50, 32, 43, 32, 120] [120, 58] [[51]] = some (.ok [50, 32, 43, 32, 51]) ∧
    ([120] : Text) ≠ [] ∧ ([120] : Text).getLast? ≠ some 58 := by decide +kernel

/-- **C107** for texts: if a word occurs once, its place takes the value, and the rest of the text stays. -/
theorem C107_slot (known : Text → Bool) (sign : UInt8) (a b w v : Text) (hw : w ≠ [])
    (hk : known (w ++ [sign]) = false) (h1 : ∀ j, OccursAt (a ++ w ++ b) w j → j = a.length) :
    textSend known sign (a ++ w ++ b) (w ++ [sign]) [v] = some (.ok (a ++ v ++ b)) := by
  have hb : Txt.replace b w v = .ok b := by
    apply Verif.Props.Text.C24_no_occurrence
    rintro ⟨p, s, e⟩
    have := h1 ((a ++ w ++ p).length) ⟨a ++ w ++ p, s, by rw [e]; simp only [List.append_assoc], rfl⟩
    rw [List.length_append, List.length_append] at this
    have := List.length_pos_iff.2 hw
    omega
  have := Verif.Props.Text.C24_first_occurrence a b w v hw (fun j hj ho => by have := h1 j ho; omega) b hb
  unfold textSend
  rw [hk]
  show some (fillIn sign (a ++ w ++ b) (w ++ [sign]) v) = _
  unfold fillIn
  rw [List.getLast?_concat]
  dsimp only
  rw [if_pos rfl, List.dropLast_concat, this]

example : ∀ j, OccursAt (([50, 43] : Text) ++ [120] ++ [61]) [120] j → j = ([50, 43] : Text).length := by
  rintro j ⟨a, b, e, rfl⟩
  match a, e with
  | [], e => injection e with e; exact absurd e (by decide)
  | [_], e => injection e with _ e; injection e with e; exact absurd e (by decide)
  | [_, _], _ => rfl
  | [_, _, _], e => injection e with _ e; injection e with _ e; injection e with _ e; injection e with e; exact absurd e (by decide)
  | _ :: _ :: _ :: _ :: _, e => have := congrArg List.length e; simp only [List.length_append, List.length_cons, List.length_nil] at this; omega

/-- **C107** is violated for texts with several words to fill in: a value that contains another one of the words is filled
in itself, so that the order of the messages matters. -/
theorem C107_text_violated : ∃ t1 t2 : Text, t1 ≠ t2 ∧
    (∃ s, textSend (fun _ => false) 58 [120, 32, 121] [120, 58] [[121]] = some (.ok s) ∧
      textSend (fun _ => false) 58 s [121, 58] [[122]] = some (.ok t1)) ∧
    (∃ s, textSend (fun _ => false) 58 [120, 32, 121] [121, 58] [[122]] = some (.ok s) ∧
      textSend (fun _ => false) 58 s [120, 58] [[121]] = some (.ok t2)) :=
  ⟨[122, 32, 122], [121, 32, 122], by decide, ⟨[121, 32, 121], by decide +kernel, by decide +kernel⟩,
    ⟨[120, 32, 122], by decide +kernel, by decide +kernel⟩⟩

/-- A message with two or three arguments that a map or a text does not know changes nothing and is answered by the receiver. -/
theorem C107_longer (known : Text → Bool) (hash : Text → Nat) (sign : UInt8) (m : PMap Text ν) (t w : Text) (args : List ν)
    (vs : List Text) (hk : known w = false) (hn : args.length = 2 ∨ args.length = 3) (hv : 1 < vs.length) :
    mapSend known hash m w args = some (.ok (m, .self)) ∧ textSend known sign t w vs = some (.ok t) := by
  refine ⟨?_, ?_⟩
  · unfold mapSend
    rw [hk]
    rcases hn with hn | hn <;> rw [hn] <;> rfl
  · unfold textSend
    rw [hk]
    have : handler vs.length ≠ .respondAnd := by
      unfold handler
      dsimp only
      repeat' split
      all_goals first | omega | nofun
    cases hh : handler vs.length with
    | respondAnd => exact absurd hh this
    | _ => rfl

example : (fun _ => false : Text → Bool) [97, 58, 98, 58] = false ∧ ([1, 2] : List Nat).length = 2 ∧
    1 < ([[1], [2]] : List Text).length := by decide

/-- With four or more arguments a map is asked for the whole word: the arguments are lost. -/
theorem C107_longest (known : Text → Bool) (hash : Text → Nat) (m : PMap Text ν) (w : Text) (args : List ν)
    (hk : known w = false) (hn : 4 ≤ args.length) :
    mapSend known hash m w args = mapSend known hash m w [] := by
  unfold mapSend
  rw [hk]
  have : handler args.length = .respond := by
    unfold handler
    dsimp only
    rw [if_neg (Nat.not_lt.2 hn), if_pos (Or.inr (by decide))]
  rw [this]
  rfl

example : (fun _ => false : Text → Bool) [97, 58] = false ∧ 4 ≤ ([1, 2, 3, 4] : List Nat).length := by decide

end Verif.Props.Respond
