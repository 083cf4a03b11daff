import Verif.Lemmas.Regex

/-!
# Properties of searching and replacing with patterns (C81)
-/

namespace Verif.Props.Rx
open Verif Verif.Model Verif.Model.Rx Verif.Spec.Rx Verif.Lemmas.Rx

/-- The first byte 97 (`a`) or 98 (`b`), with a group for each: the pattern `(a)|(b)`. -/
def abFrom (i : Nat) : Bytes → Option Hit
  | [] => none
  | c :: r =>
    if c = 97 then some ⟨i, i + 1, [some (i, i + 1), none]⟩
    else if c = 98 then some ⟨i, i + 1, [none, some (i, i + 1)]⟩
    else abFrom (i + 1) r

/-- The pattern `(a)|(b)`. -/
def ab : Pattern := fun _ t => abFrom 0 t

/-- The first `a`, in a group: the pattern `(a)`. -/
def aFrom (i : Nat) : Bytes → Option Hit
  | [] => none
  | c :: r => if c = 97 then some ⟨i, i + 1, [some (i, i + 1)]⟩ else aFrom (i + 1) r

/-- The pattern `(a)`. -/
def ap : Pattern := fun _ t => aFrom 0 t

/-- The pattern `^a`. -/
def anchored : Pattern := fun b t => if b = [] ∧ t.head? = some 97 then some ⟨0, 1, []⟩ else none

/-- The pattern `b*`. -/
def star : Pattern := fun _ t => some ⟨0, (t.takeWhile (· == 98)).length, []⟩

/-- A library in which every pattern is `p`. -/
def always (p : Pattern) : Compile := fun _ _ _ => some (searchOf p)

theorem aFrom_spec : ∀ (t : Bytes) (i : Nat) (h : Hit), aFrom i t = some h →
    ∃ k, k < t.length ∧ h = ⟨i + k, i + k + 1, [some (i + k, i + k + 1)]⟩
  | [], _, _, e => by cases e
  | c :: r, i, h, e => by
    unfold aFrom at e
    split at e
    · injection e with e
      exact ⟨0, by simp, e.symm⟩
    · obtain ⟨k, h1, h2⟩ := aFrom_spec r (i + 1) h e
      refine ⟨k + 1, by simpa using h1, ?_⟩
      rw [h2, show i + 1 + k = i + (k + 1) by omega]

theorem ap_good : ap.Sound ∧ ap.Blind ∧ ap.Filled ∧ ap.Full := by
  refine ⟨?_, fun _ _ => rfl, ?_, ?_⟩
  · intro b t h e
    obtain ⟨k, h1, rfl⟩ := aFrom_spec t 0 h e
    refine ⟨by dsimp only; omega, by dsimp only; omega, ?_⟩
    intro x y hm
    simp only [List.mem_singleton, Option.some.injEq, Prod.mk.injEq] at hm
    omega
  · intro b t h e
    obtain ⟨k, h1, rfl⟩ := aFrom_spec t 0 h e
    dsimp only; omega
  · intro b t h e
    obtain ⟨k, h1, rfl⟩ := aFrom_spec t 0 h e
    simp

/-- **C81** (partial): `process:do:options:` answers the text with every match, from left to right, replaced by what the
block answers for it and its groups, and everything else kept; it ends. Missing: patterns that match the empty text, that
look at what stands before, or with groups that take no part; blocks that leave an error; zero bytes. -/
theorem C81_partial {σ : Type} (comp : Compile) (pat hay options : Text) (p : Pattern) (block : Block σ) (st : σ)
    (hs : p.Sound) (hb : p.Blind) (hf : p.Filled) (hg : p.Full) (hok : ∀ st gs, (block st gs).2.1 = false)
    (h0 : (0 : UInt8) ∉ hay) (h1 : (0 : UInt8) ∉ pat) (ho : (0 : UInt8) ∉ options) (hl : options.length < 256)
    (hx : 33 ∉ options) (hc : comp pat (options.contains 110) (options.contains 105) = some (searchOf p)) :
    ∃ out st', Replaced p block [] hay st out false st' ∧
      ∀ rounds, hay.length < rounds →
        process comp pat (some hay) (some block) options st rounds = .ok (some (.text out, false, st')) := by
  obtain ⟨s', out, a1, a2, a3, a4⟩ := loop_eq p hs hb hf hg block hok (hay.length + 1) [] hay [] st (Nat.lt_succ_self _)
  refine ⟨out, s'.st, a4, fun rounds hr => ?_⟩
  obtain ⟨s'', out', b1, b2, b3, b4⟩ := loop_eq p hs hb hf hg block hok rounds [] hay [] st hr
  have same : s'' = s' := by
    have := loop_more (searchOf p) block (hay.length + 1) rounds _ _ (by omega) a1
    rw [b1] at this
    injection this with this
    injection this
  subst same
  unfold process
  dsimp only
  rw [option_short ho hl, option_short ho hl, option_short ho hl, cstring_eq h1, hc]
  dsimp only
  have hx' : options.contains 33 = false := by simpa using hx
  rw [hx', cstring_eq h0, if_neg (by simp), b1, bind_ok]
  dsimp only
  rw [a2, a3]
  rfl

/-- There is only one way to replace: what C81 demands determines the answer. -/
theorem C81_unique {σ : Type} (p : Pattern) (block : σ → List Bytes → Bytes × Bool × σ) {before rest : Bytes} {st : σ}
    {out : Bytes} {e : Bool} {st' : σ} (h : Replaced p block before rest st out e st') (he : e = false) :
    ∀ out' e' st'', Replaced p block before rest st out' e' st'' → out' = out ∧ e' = false ∧ st'' = st' := by
  induction h with
  | done h =>
    intro out' e' st'' h'
    cases h' with
    | done _ => exact ⟨rfl, rfl, rfl⟩
    | hit h1 _ _ _ => rw [h] at h1; cases h1
    | empty h1 _ _ _ _ => rw [h] at h1; cases h1
    | last h1 _ _ _ => rw [h] at h1; cases h1
    | fail h1 _ => rw [h] at h1; cases h1
  | hit h1 h2 h3 _ ih =>
    intro out' e' st'' h'
    cases h' with
    | done g1 => rw [h1] at g1; cases g1
    | hit g1 g2 g3 g4 =>
      rw [h1] at g1; cases g1
      rw [h3] at g3; cases g3
      obtain ⟨rfl, i2, i3⟩ := ih he _ _ _ g4
      exact ⟨rfl, i2, i3⟩
    | empty g1 g2 _ _ _ => rw [h1] at g1; cases g1; omega
    | last g1 g2 _ _ => rw [h1] at g1; cases g1; omega
    | fail g1 g2 => rw [h1] at g1; cases g1; rw [h3] at g2; cases g2
  | empty h1 h2 h3 h4 _ ih =>
    intro out' e' st'' h'
    cases h' with
    | done g1 => rw [h1] at g1; cases g1
    | hit g1 g2 _ _ => rw [h1] at g1; cases g1; omega
    | empty g1 g2 g3 g4 g5 =>
      rw [h1] at g1; cases g1
      rw [h3] at g3; cases g3
      rw [h4] at g4; cases g4
      obtain ⟨rfl, i2, i3⟩ := ih he _ _ _ g5
      exact ⟨rfl, i2, i3⟩
    | last g1 _ _ g4 => rw [h1] at g1; cases g1; rw [h4] at g4; cases g4
    | fail g1 g2 => rw [h1] at g1; cases g1; rw [h3] at g2; cases g2
  | last h1 h2 h3 h4 =>
    intro out' e' st'' h'
    cases h' with
    | done g1 => rw [h1] at g1; cases g1
    | hit g1 g2 _ _ => rw [h1] at g1; cases g1; omega
    | empty g1 _ _ g4 _ => rw [h1] at g1; cases g1; rw [h4] at g4; cases g4
    | last g1 _ g3 _ => rw [h1] at g1; cases g1; rw [h3] at g3; cases g3; exact ⟨rfl, rfl, rfl⟩
    | fail g1 g2 => rw [h1] at g1; cases g1; rw [h3] at g2; cases g2
  | fail _ _ => cases he

example : Replaced (σ := Unit) ap (fun st _ => ([120], false, st)) [] [97] () [120] false () :=
  .hit (before := []) (rest := [97]) (st := ()) (h := ⟨0, 1, [some (0, 1)]⟩) (r := [120]) (st' := ()) (out := [])
    (e := false) (st'' := ()) rfl (by decide) rfl (.done rfl)

example : ap.Sound ∧ ap.Blind ∧ ap.Filled ∧ ap.Full := ap_good

/-- `bab` with every `a` replaced by `xy`. -/
example : process (σ := Unit) (always ap) [97] (some [98, 97, 98]) (some fun st _ => ([120, 121], false, st)) [] () 4 =
    .ok (some (.text [98, 120, 121, 98], false, ())) := rfl

/-- **C81**: without empty matches, whatever the pattern and the block, every byte of the text is either kept or handed to
the block as part of a match, exactly once and in order; the answer consists of the kept bytes and the block's answers in
the same order; and nothing in what is left at the end matches. -/
theorem C81_pieces {σ : Type} (comp : Compile) (pat hay options : Text) (p : Pattern) (block : Block σ) (st : σ)
    (hs : p.Sound) (hf : p.Filled) (h0 : (0 : UInt8) ∉ hay) (h1 : (0 : UInt8) ∉ pat) (ho : (0 : UInt8) ∉ options)
    (hl : options.length < 256) (hx : 33 ∉ options)
    (hc : comp pat (options.contains 110) (options.contains 105) = some (searchOf p)) :
    ∃ (ps : List Piece) (rest : Text) (e : Bool) (st' : σ),
      hay = ps.flatMap (fun q => q.kept ++ q.found) ++ rest ∧ p [] rest = none ∧
      (∀ q ∈ ps, q.found ≠ [] ∧ ∃ st gs, (block st (q.found :: gs)).1 = q.answer) ∧
      process comp pat (some hay) (some block) options st (hay.length + 1) =
        .ok (some (.text (ps.flatMap (fun q => q.kept ++ q.answer) ++ rest), e, st')) := by
  obtain ⟨s', ps, a1, a2, a3, a4, _, _, a5⟩ := loop_pieces p hs hf block (hay.length + 1) hay [] false st
    (Nat.lt_succ_self _)
  refine ⟨ps, s'.hay, s'.err, s'.st, a2, a4, a5, ?_⟩
  unfold process
  dsimp only
  rw [option_short ho hl, option_short ho hl, option_short ho hl, cstring_eq h1, hc]
  dsimp only
  have hx' : options.contains 33 = false := by simpa using hx
  rw [hx', cstring_eq h0, if_neg (by simp), a1, bind_ok]
  dsimp only
  rw [a3]
  rfl

example : ((0 : UInt8) ∉ [98, 97, 98]) ∧ (33 : UInt8) ∉ [110, 105] ∧
    always ap [97] ([110, 105].contains (110 : UInt8)) ([110, 105].contains (105 : UInt8)) = some (searchOf ap) :=
  ⟨by decide, by decide, rfl⟩

/-- **C81**: a block that answers the match itself leaves the text as it is. -/
theorem C81_same {σ : Type} (comp : Compile) (pat hay options : Text) (p : Pattern) (block : Block σ) (st : σ)
    (hs : p.Sound) (hf : p.Filled) (h0 : (0 : UInt8) ∉ hay) (h1 : (0 : UInt8) ∉ pat) (ho : (0 : UInt8) ∉ options)
    (hl : options.length < 256) (hx : 33 ∉ options)
    (hc : comp pat (options.contains 110) (options.contains 105) = some (searchOf p))
    (hb : ∀ st f gs, (block st (f :: gs)).1 = f) :
    ∃ e st', process comp pat (some hay) (some block) options st (hay.length + 1) = .ok (some (.text hay, e, st')) := by
  obtain ⟨ps, rest, e, st', a1, _, a3, a4⟩ := C81_pieces comp pat hay options p block st hs hf h0 h1 ho hl hx hc
  refine ⟨e, st', ?_⟩
  rw [a4]
  have : ps.flatMap (fun q => q.kept ++ q.answer) = ps.flatMap (fun q => q.kept ++ q.found) := by
    clear a1 a4
    induction ps with
    | nil => rfl
    | cons q ps ih =>
      rw [List.flatMap_cons, List.flatMap_cons, ih (fun x hx => a3 x (List.mem_cons_of_mem _ hx))]
      obtain ⟨_, st, gs, h⟩ := a3 q List.mem_cons_self
      rw [hb] at h
      rw [h]
  rw [this, ← a1]

example : ∀ (st : Unit) f gs, ((fun st gs => ((gs.head?.getD [] : Text), false, st) : Block Unit) st (f :: gs)).1 = f :=
  fun _ _ _ => rfl

/-- **C81**: `matches:` answers whether there is a match, and a text without one is left alone by `process:do:`. -/
theorem C81_matches {σ : Type} (comp : Compile) (pat hay : Text) (p : Pattern) (block : Block σ) (st : σ)
    (h0 : (0 : UInt8) ∉ hay) (h1 : (0 : UInt8) ∉ pat) (hc : comp pat false false = some (searchOf p)) :
    isMatch comp pat hay = .ok (.truth (p [] hay).isSome, false) ∧
    (isMatch comp pat hay = .ok (.truth false, false) →
      processPlain comp pat (some hay) (some block) st 1 = .ok (some (.text hay, false, st))) := by
  have hm : isMatch comp pat hay = .ok (.truth (p [] hay).isSome, false) := by
    unfold isMatch
    rw [cstring_eq h1, cstring_eq h0, hc]
    dsimp only
    unfold searchOf
    cases p [] hay <;> rfl
  refine ⟨hm, fun h => ?_⟩
  rw [hm] at h
  injection h with h
  injection h with h
  injection h with h
  have hn : p [] hay = none := by simpa using h
  unfold processPlain process
  have ho : ∀ c, option c [] = false := fun _ => rfl
  dsimp only
  rw [ho, ho, ho, cstring_eq h1, hc]
  dsimp only
  rw [cstring_eq h0]
  have : (loop (searchOf p) block 1 ⟨hay, [], false, st⟩) = .ok (some ⟨hay, [], false, st⟩) := by
    unfold loop round searchOf
    rw [hn]
    rfl
  rw [if_neg (by simp), this]
  rfl

example : isMatch (always ap) [97] [98, 98] = .ok (.truth false, false) ∧
    isMatch (always ap) [97] [98, 97] = .ok (.truth true, false) := ⟨rfl, rfl⟩

/-- **C81**: with the option `!` the text is answered as it is and the block never runs. -/
theorem C81_off {σ : Type} (comp : Compile) (pat hay options : Text) (s : Search) (block : Block σ) (st : σ) (n : Nat)
    (h0 : (0 : UInt8) ∉ hay) (h1 : (0 : UInt8) ∉ pat) (ho : (0 : UInt8) ∉ options) (hl : options.length < 256)
    (hx : 33 ∈ options) (hc : comp pat (options.contains 110) (options.contains 105) = some s) :
    process comp pat (some hay) (some block) options st n = .ok (some (.text hay, false, st)) := by
  unfold process
  dsimp only
  rw [option_short ho hl, option_short ho hl, option_short ho hl, cstring_eq h1, hc]
  dsimp only
  have hx' : options.contains 33 = true := by simpa using hx
  rw [hx', cstring_eq h0, if_pos rfl]

example : (33 : UInt8) ∈ [110, 33] ∧ (0 : UInt8) ∉ [110, 33] := by decide

/-- A pattern that matches the empty text, like `b*`: in `a` the search never ends. -/
theorem C81_empty_violated (rounds : Nat) : star.Sound ∧
    (∃ out, Replaced (σ := Unit) star (fun st _ => ([45], false, st)) [] [97] () out false ()) ∧
    process (σ := Unit) (always star) [98, 42] (some [97]) (some fun st _ => ([45], false, st)) [] () rounds = .ok none := by
  refine ⟨?_, ⟨_, .empty (h := ⟨0, 0, []⟩) (c := 97) (tail := []) rfl rfl rfl rfl
    (.last (h := ⟨0, 0, []⟩) rfl rfl rfl rfl)⟩, ?_⟩
  · intro b t h e
    injection e with e
    subst e
    exact ⟨Nat.zero_le _, (List.takeWhile_sublist _).length_le, by intro x y hm; cases hm⟩
  · have main : ∀ (n : Nat) (new : Text), loop (σ := Unit) (searchOf star) (fun st _ => ([45], false, st)) n
        ⟨[97], new, false, ()⟩ = .ok none := by
      intro n
      induction n with
      | zero => intro _; rfl
      | succ n ih =>
        intro new
        have h : round (σ := Unit) (searchOf star) (fun st _ => ([45], false, st)) ⟨[97], new, false, ()⟩ =
            .ok (some ⟨[97], new ++ [] ++ [45], false, ()⟩) := rfl
        unfold loop
        rw [h, bind_ok]
        exact ih _
    have ho : ∀ c, option c [] = false := fun _ => rfl
    unfold process always
    dsimp only
    rw [ho, if_neg (by simp)]
    have hz : cstring [97] = [97] := rfl
    rw [hz, main]
    rfl

/-- `^a` matches again at the start of what is left: `aa` becomes `bb` and not `ba`. -/
theorem C81_anchor_violated : anchored.Sound ∧ anchored.Filled ∧ anchored.Full ∧
    Replaced (σ := Unit) anchored (fun st _ => ([98], false, st)) [] [97, 97] () [98, 97] false () ∧
    process (σ := Unit) (always anchored) [94, 97] (some [97, 97]) (some fun st _ => ([98], false, st)) [] () 3 =
      .ok (some (.text [98, 98], false, ())) := by
  have key : ∀ b t h, anchored b t = some h → h = ⟨0, 1, []⟩ ∧ 1 ≤ t.length := by
    intro b t h e
    unfold anchored at e
    split at e
    · rename_i hb
      injection e with e
      refine ⟨e.symm, ?_⟩
      cases t with
      | nil => cases hb.2
      | cons c t => simp
    · cases e
  refine ⟨?_, ?_, ?_, .hit (before := []) (rest := [97, 97]) (st := ()) (h := ⟨0, 1, []⟩) (r := [98]) (st' := ())
    (out := [97]) (e := false) (st'' := ()) rfl (by decide) rfl (.done rfl), rfl⟩
  · intro b t h e
    obtain ⟨rfl, hl⟩ := key b t h e
    exact ⟨Nat.zero_le _, hl, by intro x y hm; cases hm⟩
  · intro b t h e
    obtain ⟨rfl, _⟩ := key b t h e
    decide
  · intro b t h e
    obtain ⟨rfl, _⟩ := key b t h e
    exact ⟨by simp, by simp⟩

/-- A group behind one that took no part is not handed over: for `(a)|(b)` in `b` the block gets one text, not three. -/
theorem C81_group_violated :
    handed [98] ⟨0, 1, [none, some (0, 1)]⟩ = [[98], [], [98]] ∧ ab [] [98] = some ⟨0, 1, [none, some (0, 1)]⟩ ∧
    Replaced (σ := Unit) ab (fun st gs => (List.replicate gs.length 120, false, st)) [] [98] () [120, 120, 120] false () ∧
    process (σ := Unit) (always ab) [40, 97, 41, 124, 40, 98, 41] (some [98])
      (some fun st gs => (List.replicate gs.length 120, false, st)) [] () 2 = .ok (some (.text [120], false, ())) :=
  ⟨rfl, rfl, .hit (before := []) (rest := [98]) (st := ()) (h := ⟨0, 1, [none, some (0, 1)]⟩) (r := [120, 120, 120])
    (st' := ()) (out := []) (e := false) (st'' := ()) rfl (by decide) rfl (.done rfl), rfl⟩

/-- After an error in the block the block runs again for the next match. -/
theorem C81_error_violated :
    (∀ out e n, Replaced (σ := Nat) ap (fun n _ => ([], true, n + 1)) [] [97, 97] 0 out e n → n = 1) ∧
    process (σ := Nat) (always ap) [97] (some [97, 97]) (some fun n _ => ([], true, n + 1)) [] 0 3 =
      .ok (some (.text [], true, 2)) := by
  refine ⟨?_, rfl⟩
  intro out e n h
  cases h with
  | done h => cases h
  | hit _ _ h _ => injection h with _ h; injection h with h; cases h
  | empty _ _ h _ _ => injection h with _ h; injection h with h; cases h
  | last _ _ h _ => injection h with _ h; injection h with h; cases h
  | fail _ h => injection h with _ h; injection h with _ h; exact h.symm

/-- 256 options count as none. -/
theorem C81_options_violated : (33 : UInt8) ∈ List.replicate 256 (33 : UInt8) ∧
    process (σ := Unit) (always ap) [97] (some [97]) (some fun st _ => ([98], false, st)) (List.replicate 256 33) () 2 =
      .ok (some (.text [98], false, ())) := by
  refine ⟨by decide +kernel, ?_⟩
  have h : ∀ c, option c (List.replicate 256 33) = false := by
    intro c
    have : cstring (List.replicate 256 33) = List.replicate 256 33 := cstring_eq (by decide +kernel)
    unfold option
    rw [this, List.length_replicate]
    rfl
  unfold process
  dsimp only
  rw [h, h, h]
  rfl

/-- Zero bytes are lost, in the answer as in the search. -/
theorem C81_zero_violated :
    process (σ := Unit) (always ap) [97] (some [98, 0, 98]) (some fun st _ => ([98], false, st)) [] () 4 =
      .ok (some (.text [98, 98], false, ())) := rfl

/-- The text has to be a text: any other object is read as if it were one. -/
theorem C81_object_violated {σ : Type} (comp : Compile) (pat : Text) (s : Search) (block : Block σ) (st : σ) (n : Nat)
    (hc : comp (cstring pat) false false = some s) : processPlain comp pat none (some block) st n = .ub := by
  unfold processPlain process
  have ho : ∀ c, option c [] = false := fun _ => rfl
  dsimp only
  rw [ho, ho, hc]

/-- `matches:` with a text that is no pattern frees what was never made. -/
theorem C81_pattern_violated (comp : Compile) (pat hay : Text) (hc : comp (cstring pat) false false = none) :
    isMatch comp pat hay = .ub := by
  unfold isMatch
  rw [hc]

end Verif.Props.Rx
