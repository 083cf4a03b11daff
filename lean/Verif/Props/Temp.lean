import Verif.Lemmas.TempRelease

/-!
# Intermediate values and the collector (C90)

A program is run twice: once with the collector, once without. The claim is that a program cannot tell the difference,
although receivers, arguments and answers are held by C variables that the collector does not know.

The full statement - for every program - is false: see the `violated` theorems. What is proved is the claim for all runs
in which every C variable that is read after a collection is pinned or can be reached (`Verif.Spec.Temp.CalmStmts`), and
that all programs that follow a rule that can be checked by reading them (`Verif.Spec.Temp.tidyStmts`) are such runs.
-/

namespace Verif.Props.Temp

open Verif.Model Verif.Model.Temp
open Verif.Model.GC (Wf)
open Verif.Spec.Temp

/-- The state before a program runs: objects refer to values that exist, names are texts without contents, the list of all
objects (`l`) is intact, nothing is marked, and the open scopes are sticky. -/
structure Start (s : St) : Prop where
  opened : s.ctxs ≠ []
  scopes : ∀ c ∈ s.ctxs, s.kind c = .scope ∧ ∃ o, s.heap.mem c = some o ∧ o.sticky = true
  distinct : s.ctxs.Nodup
  values : ∀ x o, s.heap.mem x = some o → ∀ v, (o.isArray = true ∧ v ∈ o.elems) ∨ (∃ p ∈ o.props ++ o.methods, p.2 = v) →
    s.kind v = .value ∧ ∃ p, s.heap.mem v = some p
  names : ∀ x o, s.heap.mem x = some o → ∀ p ∈ o.props ++ o.methods, (∃ n, s.kind p.1 = .name n) ∧ ∃ q, s.heap.mem p.1 = some q
  plain : ∀ x o n, s.kind x = .name n → s.heap.mem x = some o → o.props = [] ∧ o.methods = [] ∧ (o.isArray = true → o.elems = [])
  listed : ∃ l, Wf s.heap l
  unmarked : ∀ x o, s.heap.mem x = some o → o.mark = false

/-- The same contents in both runs. -/
def Same (s t : St) (x : Nat) : Prop :=
  ∃ o o', s.heap.mem x = some o ∧ t.heap.mem x = some o' ∧ o.isArray = o'.isArray ∧ o.elems = o'.elems ∧ o.tail = o'.tail ∧
    o.props = o'.props ∧ o.methods = o'.methods

/-- Both runs are alike for the program: same scopes, same contents of everything that can be reached from scopes and answer. -/
def Alike (s t : St) (answer : Option Nat) : Prop :=
  s.ctxs = t.ctxs ∧ s.inMsg = t.inMsg ∧ s.kind = t.kind ∧ ∀ x, Reaches t answer.toList x → Same s t x

theorem Start.ok {s : St} (h : Start s) : Ok s where
  lt x o e := by
    obtain ⟨l, hw⟩ := h.listed
    exact hw.lt x ((hw.all x).1 (by rw [e]; rfl))
  outs x o e y hy := by
    refine h.values x o e y ?_
    simp only [GC.Obj.outs, List.mem_append, List.mem_map] at hy
    rcases hy with (hy | ⟨p, hp, rfl⟩) | ⟨p, hp, rfl⟩
    · by_cases ha : o.isArray = true
      · rw [if_pos ha] at hy; exact .inl ⟨ha, hy⟩
      · rw [if_neg ha] at hy; cases hy
    · exact .inr ⟨p, List.mem_append.2 (.inl hp), rfl⟩
    · exact .inr ⟨p, List.mem_append.2 (.inr hp), rfl⟩
  keys x o e y hy := by
    simp only [GC.Obj.keys, List.mem_append, List.mem_map] at hy
    rcases hy with ⟨p, hp, rfl⟩ | ⟨p, hp, rfl⟩
    · exact h.names x o e p (List.mem_append.2 (.inl hp))
    · exact h.names x o e p (List.mem_append.2 (.inr hp))
  plain x o n hk e := by
    obtain ⟨h1, h2, h3⟩ := h.plain x o n hk e
    refine ⟨?_, by simp [GC.Obj.keys, h1, h2]⟩
    simp only [GC.Obj.outs, h1, h2, List.map_nil, List.append_nil]
    by_cases ha : o.isArray = true
    · rw [if_pos ha]; exact h3 ha
    · rw [if_neg ha]
  ctx c hc := ⟨(h.scopes c hc).1, (h.scopes c hc).2.imp fun _ h => h.1⟩
  nodup := h.distinct

theorem Start.sim {s : St} (h : Start s) : Sim s s [] where
  ok := h.ok
  vals _ hx := nomatch hx
  ctxs := rfl
  kind := rfl
  msg := rfl
  fresh := rfl
  wf := h.listed
  un := h.unmarked
  sticky c hc := (h.scopes c hc).2
  stick _ o e h' := ⟨o, e, h'⟩
  like x hx := by
    obtain ⟨o, e⟩ := (h.ok.held (G := []) (fun _ h => nomatch h) hx).1
    exact ⟨o, o, e, e, rfl⟩

theorem Start.of_sim {s : St} {G : List Nat} (h : Sim s s G) (hc : s.ctxs ≠ []) : Start s where
  opened := hc
  scopes c hm := ⟨(h.ok.ctx c hm).1, h.sticky c hm⟩
  distinct := h.ok.nodup
  values x o e v hv := by
    refine h.ok.outs x o e v ?_
    simp only [GC.Obj.outs, List.mem_append, List.mem_map]
    rcases hv with ⟨h1, h2⟩ | ⟨p, hp, rfl⟩
    · rw [if_pos h1]; exact .inl (.inl h2)
    · rcases List.mem_append.1 hp with hp | hp
      · exact .inl (.inr ⟨p, hp, rfl⟩)
      · exact .inr ⟨p, hp, rfl⟩
  names x o e p hp := by
    refine h.ok.keys x o e p.1 ?_
    simp only [GC.Obj.keys, List.mem_append, List.mem_map]
    rcases List.mem_append.1 hp with hp | hp
    · exact .inl ⟨p, hp, rfl⟩
    · exact .inr ⟨p, hp, rfl⟩
  plain x o n hk e := by
    obtain ⟨h1, h2⟩ := h.ok.plain x o n hk e
    simp only [GC.Obj.outs, GC.Obj.keys, List.append_eq_nil_iff, List.map_eq_nil_iff] at h1 h2
    refine ⟨h2.1, h2.2, fun ha => ?_⟩
    have := h1.1.1
    rw [if_pos ha] at this
    exact this
  listed := h.wf
  unmarked := h.un

theorem Start.cons {s : St} (h : Start s) : ∃ c rest, s.ctxs = c :: rest := by
  cases e : s.ctxs with
  | nil => exact absurd e h.opened
  | cons c rest => exact ⟨c, rest, rfl⟩

theorem alike {s t : St} {a : Option Nat} (h : Sim s t a.toList) : Alike s t a := by
  refine ⟨h.ctxs, h.msg, h.kind, fun x hx => ?_⟩
  obtain ⟨o, o', e1, e2, hl⟩ := h.like x (reaches_iff.1 hx)
  obtain ⟨h1, h2, h3, h4, h5, _⟩ := Obj.Like.props hl
  exact ⟨o, o', e1, e2, h4, h3, h5, h1, h2⟩

/-- **C90** (part). A run in which every C variable that is read after a collection is pinned or can be reached gives the
same with and without the collector, whenever collections happen: no value is freed that is still needed. Missing: the
full claim, which does not ask anything of the run, is false (`C90_violated_receiver`, `C90_violated_glue`). -/
theorem C90_calm_partial {s : St} (h : Start s) {p : List Stmt} (hp : CalmStmts s p) {t : St} {a : Option Nat}
    (e : stmts false s p = .ok (t, a)) : ∃ s', stmts true s p = .ok (s', a) ∧ Alike s' t a := by
  obtain ⟨c, rest, hc⟩ := h.cons
  obtain ⟨s', e1, h1, _⟩ := sim_stmts h.sim hc p hp e
  exact ⟨s', e1, alike h1⟩

/-- Nothing goes wrong in a run in which nothing is freed: reading through a dangling pointer is always the collector's
doing. -/
theorem C90_without_collector {s : St} (h : Start s) (p : List Stmt) : stmts false s p ≠ .ub := by
  obtain ⟨c, rest, hc⟩ := h.cons
  intro e
  have := safe_stmts h.ok hc p
  rw [e] at this
  exact this

/-- **C90** (part). Programs that follow the rule (`tidyStmts`) cannot tell whether there is a collector: for every start,
every way the program runs and every choice of the statements after which garbage is collected. (`exit`: the tree is not
the run of a program, for it uses C variables that do not exist or takes elements of an object that is not a sequence.) -/
theorem C90_tidy_partial {s : St} (h : Start s) {p : List Stmt} (hp : tidyStmts p = true) (hx : stmts false s p ≠ .exit) :
    ∃ t s' a, stmts false s p = .ok (t, a) ∧ stmts true s p = .ok (s', a) ∧ Alike s' t a := by
  obtain ⟨c, rest, hc⟩ := h.cons
  cases e : stmts false s p with
  | ub => exact absurd e (C90_without_collector h p)
  | exit => exact absurd e hx
  | ok q =>
    obtain ⟨t, a⟩ := q
    obtain ⟨s', e1, h1⟩ := C90_calm_partial h (tidy_stmts h.ok hc p hp) e
    exact ⟨t, s', a, rfl, e1, h1⟩

/-! ### Built-in operations that run blocks follow the rule -/

theorem reads_each (names : List Nat) : ∀ (i : Nat) (rounds : List (Nat × List Stmt)), 2 ≤ i →
    ∀ k ∈ reads (eachSteps names i rounds), k ≤ 1 ∨ i ≤ k
  | _, [], _, _, hk => nomatch hk
  | i, (j, body) :: rounds, hi, k, hk => by
    have hz : ∀ q ∈ (names.zip [i, i + 1, 0]).map (·.2), q ≤ 1 ∨ i ≤ q := by
      intro q hq
      obtain ⟨⟨a, b⟩, hab, rfl⟩ := List.mem_map.1 hq
      have := List.of_mem_zip hab
      simp only [List.mem_cons, List.not_mem_nil, or_false] at this ⊢
      omega
    simp only [eachSteps, reads, readsOf, Option.toList_none, List.append_nil, List.mem_append, List.mem_cons, List.not_mem_nil,
      or_false, false_or] at hk
    rcases hk with hk | hk | hk | hk | (hk | hk) | hk
    · omega
    · omega
    · omega
    · omega
    · omega
    · exact hz k hk
    · have := reads_each names (i + 3) rounds (by omega) k hk
      omega

/-- All bodies follow the rule. -/
def Tidy (bodies : List (List Stmt)) : Prop := ∀ b ∈ bodies, tidyStmts b = true

theorem tidy_each (names : List Nat) (named : Bool) : ∀ (rounds : List (Nat × List Stmt)) (i : Nat) (safe : List Nat), 2 ≤ i → 1 ∈ safe →
    Tidy (rounds.map (·.2)) → tidySteps safe named i 0 (eachSteps names i rounds) = true
  | [], _, _, _, _, _ => rfl
  | (j, body) :: rounds, i, safe, hi, hs, ht => by
    have hb : tidyStmts body = true := ht body (by simp)
    have ih := tidy_each names named rounds (i + 3) ((i + 1) :: 0 :: 1 :: safe) (by omega) (by simp)
      (fun b hb => ht b (by simp only [List.map_cons, List.mem_cons]; exact .inr hb))
    simp only [eachSteps, tidySteps, grows, pinned, Nat.add_zero, Bool.and_eq_true]
    refine ⟨⟨⟨hb, by simp⟩, ?_⟩, by simpa [Nat.add_assoc] using ih⟩
    rw [List.all_eq_true]
    intro k hk
    simp only [Bool.or_eq_true, List.contains_iff_mem, List.mem_cons]
    rcases List.mem_append.1 hk with hk | hk
    · rcases reads_each names (i + 3) rounds (by omega) k hk with h | h
      · have : k = 0 ∨ k = 1 := by omega
        rcases this with rfl | rfl
        · exact .inl (.inl (.inr (.inl rfl)))
        · exact .inl (.inl (.inr (.inr (.inl rfl))))
      · exact .inl (.inr (decide_eq_true (by omega)))
    · rw [List.mem_singleton] at hk
      subst hk
      exact .inl (.inl (.inr (.inl rfl)))

/-- `each:` follows the rule for every receiver whose name the argument does not write, every number of rounds, and whatever
the block does to the sequence or its variable. -/
theorem C90_each_tidy {lit : Bool} {held : List Nat} {arg : Exp} (ha : tidyExp arg = true)
    (hw : lit = true ∨ ∀ n ∈ held, n ∉ writesExp false arg) {names : List Nat} {rounds : List (Nat × List Stmt)}
    (ht : Tidy (rounds.map (·.2))) : tidyMsgs lit held [.mk [arg] (eachSteps names 2 rounds) 0] = true := by
  simp only [tidyMsgs, tidyArgs, ha, Bool.and_true, Bool.true_and, Bool.and_eq_true, List.length_singleton]
  refine ⟨?_, ?_⟩
  · rcases hw with rfl | hw
    · simp
    · cases lit with
      | true => simp
      | false =>
        simp only [Bool.or_eq_true, Bool.not_false, Bool.true_and, List.all_eq_true]
        right
        intro n hn
        have := hw n hn
        simpa [writesArgs] using this
  · exact tidy_each names _ rounds 2 _ (Nat.le_refl 2) (by simp) ht

theorem reads_sort (names : List Nat) : ∀ (i : Nat) (rounds : List (Nat × Nat × List Stmt)), 2 ≤ i →
    ∀ k ∈ reads (sortSteps names i rounds), k ≤ 1 ∨ i ≤ k
  | _, [], _, _, hk => nomatch hk
  | i, (j, j', body) :: rounds, hi, k, hk => by
    have hz : ∀ q ∈ (names.zip [i, i + 1]).map (·.2), q ≤ 1 ∨ i ≤ q := by
      intro q hq
      obtain ⟨⟨a, b⟩, hab, rfl⟩ := List.mem_map.1 hq
      have := List.of_mem_zip hab
      simp only [List.mem_cons, List.not_mem_nil, or_false] at this ⊢
      omega
    simp only [sortSteps, reads, readsOf, Option.toList_none, List.append_nil, List.mem_append, List.mem_cons, List.not_mem_nil,
      or_false] at hk
    rcases hk with hk | hk | hk | hk | hk | hk | (hk | hk) | hk
    · omega
    · omega
    · omega
    · omega
    · omega
    · omega
    · omega
    · exact hz k hk
    · have := reads_sort names (i + 3) rounds (by omega) k hk
      omega

theorem tidy_sort (names : List Nat) (named : Bool) : ∀ (rounds : List (Nat × Nat × List Stmt)) (i : Nat) (safe : List Nat), 2 ≤ i →
    1 ∈ safe → Tidy (rounds.map (·.2.2)) → tidySteps safe named i 0 (sortSteps names i rounds) = true
  | [], _, _, _, _, _ => rfl
  | (j, j', body) :: rounds, i, safe, hi, hs, ht => by
    have hb : tidyStmts body = true := ht body (by simp)
    have ih := tidy_sort names named rounds (i + 3) (0 :: i :: 0 :: 1 :: safe) (by omega) (by simp)
      (fun b hb => ht b (by simp only [List.map_cons, List.mem_cons]; exact .inr hb))
    simp only [sortSteps, tidySteps, grows, pinned, Nat.add_zero, Bool.and_eq_true]
    refine ⟨⟨⟨hb, by simp⟩, ?_⟩, by simpa [Nat.add_assoc] using ih⟩
    rw [List.all_eq_true]
    intro k hk
    simp only [Bool.or_eq_true, List.contains_iff_mem, List.mem_cons]
    rcases List.mem_append.1 hk with hk | hk
    · rcases reads_sort names (i + 3) rounds (by omega) k hk with h | h
      · have : k = 0 ∨ k = 1 := by omega
        rcases this with rfl | rfl
        · exact .inl (.inl (.inl rfl))
        · exact .inl (.inl (.inr (.inr (.inr (.inl rfl)))))
      · exact .inl (.inr (decide_eq_true (by omega)))
    · rw [List.mem_singleton] at hk
      subst hk
      exact .inl (.inl (.inl rfl))

/-- So does `sort:`, whatever comparisons are made and whatever the block does. -/
theorem C90_sort_tidy {lit : Bool} {held : List Nat} {arg : Exp} (ha : tidyExp arg = true)
    (hw : lit = true ∨ ∀ n ∈ held, n ∉ writesExp false arg) {names : List Nat} {rounds : List (Nat × Nat × List Stmt)}
    (ht : Tidy (rounds.map (·.2.2))) : tidyMsgs lit held [.mk [arg] (sortSteps names 2 rounds) 0] = true := by
  simp only [tidyMsgs, tidyArgs, ha, Bool.and_true, Bool.true_and, Bool.and_eq_true, List.length_singleton]
  refine ⟨?_, ?_⟩
  · rcases hw with rfl | hw
    · simp
    · cases lit with
      | true => simp
      | false =>
        simp only [Bool.or_eq_true, Bool.not_false, Bool.true_and, List.all_eq_true]
        right
        intro n hn
        have := hw n hn
        simpa [writesArgs] using this
  · exact tidy_sort names _ rounds 2 _ (Nat.le_refl 2) (by simp) ht

/-- A message whose steps are fine if the receiver is pinned or held by a name that is not written. -/
theorem tidy_msg {lit : Bool} {held : List Nat} {args : List Exp} {steps : List Step} {res : Nat} (ha : tidyArgs args = true)
    (hw : lit = true ∨ ∀ n ∈ held, n ∉ writesArgs false args ∧ n ∉ writesSteps steps)
    (hs : ∀ safe named, (0 ∈ safe ∨ named = true) → (∀ i, 1 ≤ i → i ≤ args.length → i ∈ safe) →
      tidySteps safe named (args.length + 1) res steps = true) : tidyMsgs lit held [.mk args steps res] = true := by
  have hr : ∀ (l : List Nat) i, 1 ≤ i → i ≤ args.length → i ∈ l ++ List.range' 1 args.length := by
    intro l i h1 h2
    refine List.mem_append.2 (.inr ?_)
    rw [List.mem_range'_1]
    omega
  cases lit with
  | true =>
    have h := hs ((if true then [0] else []) ++ List.range' 1 args.length) false (.inl (by simp)) (hr _)
    simp only [tidyMsgs, ha, Bool.true_and, Bool.true_or, Bool.and_true, Bool.not_true, Bool.false_and]
    exact h
  | false =>
    have hw := hw.resolve_left (fun h => nomatch h)
    have h1 : (held.all fun n => !(writesArgs false args).contains n) = true := by
      rw [List.all_eq_true]
      intro n hn
      have := (hw n hn).1
      simpa using this
    have h2 : (held.all fun n => !(writesSteps steps).contains n) = true := by
      rw [List.all_eq_true]
      intro n hn
      have := (hw n hn).2
      simpa using this
    have h := hs ((if false then [0] else []) ++ List.range' 1 args.length) true (.inr rfl) (hr _)
    simp only [tidyMsgs, ha, h1, h2, Bool.true_and, Bool.and_true, Bool.not_false, Bool.or_true]
    exact h

/-- Names that none of the bodies writes. -/
def Spared (held : List Nat) (bodies : List (List Stmt)) : Prop := ∀ n ∈ held, ∀ b ∈ bodies, n ∉ writesStmts b

theorem writes_times (names : List Nat) : ∀ (i : Nat) (rounds : List (List Stmt)) (n : Nat), n ∈ writesSteps (timesSteps names i rounds) →
    ∃ b ∈ rounds, n ∈ writesStmts b
  | _, [], _, hn => nomatch hn
  | i, body :: rounds, n, hn => by
    simp only [timesSteps, writesSteps, writesOf, List.nil_append, List.mem_append] at hn
    rcases hn with hn | hn
    · exact ⟨body, List.mem_cons_self, hn⟩
    · obtain ⟨b, hb, h⟩ := writes_times names (i + 2) rounds n hn
      exact ⟨b, List.mem_cons_of_mem _ hb, h⟩

theorem reads_times (names : List Nat) : ∀ (i : Nat) (rounds : List (List Stmt)), ∀ k ∈ reads (timesSteps names i rounds), k = 0 ∨ i ≤ k
  | _, [], _, hk => nomatch hk
  | i, body :: rounds, k, hk => by
    have hz : ∀ q ∈ (names.zip [i]).map (·.2), i ≤ q := by
      intro q hq
      obtain ⟨⟨a, b⟩, hab, rfl⟩ := List.mem_map.1 hq
      have := List.of_mem_zip hab
      simp only [List.mem_cons, List.not_mem_nil, or_false] at this ⊢
      omega
    simp only [timesSteps, reads, readsOf, Option.toList_none, List.append_nil, List.mem_append, List.mem_cons, List.not_mem_nil,
      false_or] at hk
    rcases hk with (hk | hk) | hk
    · exact .inl hk
    · exact .inr (hz k hk)
    · have := reads_times names (i + 2) rounds k hk
      omega

theorem tidy_times (names : List Nat) {named : Bool} {safe : List Nat} (h0 : 0 ∈ safe ∨ named = true) :
    ∀ (rounds : List (List Stmt)) (i : Nat), Tidy rounds → tidySteps safe named i 0 (timesSteps names i rounds) = true
  | [], _, _ => rfl
  | body :: rounds, i, ht => by
    have hb : tidyStmts body = true := ht body List.mem_cons_self
    have ih := tidy_times names h0 rounds (i + 2) (fun b hb => ht b (List.mem_cons_of_mem _ hb))
    simp only [timesSteps, tidySteps, grows, pinned, Bool.and_eq_true, hb, true_and, Option.getD_none]
    refine ⟨⟨?_, ?_⟩, ih⟩
    · rcases h0 with h | h <;> simp [h]
    · rw [List.all_eq_true]
      intro k hk
      have : k = 0 ∨ i + 1 ≤ k := by
        rcases List.mem_append.1 hk with hk | hk
        · have := reads_times names (i + 2) rounds k hk
          omega
        · rw [List.mem_singleton] at hk
          exact .inl hk
      rcases this with rfl | h
      · rcases h0 with h | h <;> simp [h]
      · simp [h]

/-- So does `×`, if the block is written down in place or its variable is not written meanwhile. -/
theorem C90_times_tidy {lit : Bool} {held : List Nat} {arg : Exp} (ha : tidyExp arg = true) {names : List Nat} {rounds : List (List Stmt)}
    (hw : lit = true ∨ (∀ n ∈ held, n ∉ writesExp false arg) ∧ Spared held rounds) (ht : Tidy rounds) :
    tidyMsgs lit held [.mk [arg] (timesSteps names 2 rounds) 0] = true := by
  refine tidy_msg (by simp [tidyArgs, ha]) ?_ (fun safe named h0 _ => tidy_times names h0 rounds 2 ht)
  refine hw.imp id fun h n hn => ⟨by simpa [writesArgs] using h.1 n hn, fun hm => ?_⟩
  obtain ⟨b, hb, hm⟩ := writes_times names 2 rounds n hm
  exact h.2 n hn b hb hm

/-- The bodies of a `while:`. -/
def whileBodies : List (List Stmt × List Stmt) → List Stmt → List (List Stmt)
  | [], last => [last]
  | (cond, body) :: rounds, last => cond :: body :: whileBodies rounds last

theorem writes_while (names names' : List Nat) (last : List Stmt) : ∀ (rounds : List (List Stmt × List Stmt)) (n : Nat),
    n ∈ writesSteps (whileSteps names names' rounds last) → ∃ b ∈ whileBodies rounds last, n ∈ writesStmts b
  | [], n, hn => by
    simp only [whileSteps, writesSteps, List.append_nil] at hn
    exact ⟨last, List.mem_cons_self, hn⟩
  | (cond, body) :: rounds, n, hn => by
    simp only [whileSteps, writesSteps, List.mem_append] at hn
    rcases hn with hn | hn | hn
    · exact ⟨cond, List.mem_cons_self, hn⟩
    · exact ⟨body, List.mem_cons_of_mem _ List.mem_cons_self, hn⟩
    · obtain ⟨b, hb, h⟩ := writes_while names names' last rounds n hn
      exact ⟨b, List.mem_cons_of_mem _ (List.mem_cons_of_mem _ hb), h⟩

theorem zip_one {names : List Nat} {k q : Nat} (h : q ∈ (names.zip [k]).map (·.2)) : q = k := by
  obtain ⟨⟨a, b⟩, hab, rfl⟩ := List.mem_map.1 h
  simpa using (List.of_mem_zip hab).2

theorem reads_while (names names' : List Nat) (last : List Stmt) : ∀ (rounds : List (List Stmt × List Stmt)),
    ∀ k ∈ reads (whileSteps names names' rounds last), k = 0 ∨ k = 1
  | [], k, hk => by
    simp only [whileSteps, reads, Option.toList_none, List.append_nil, List.mem_cons] at hk
    exact .inr (hk.elim id zip_one)
  | (cond, body) :: rounds, k, hk => by
    simp only [whileSteps, reads, Option.toList_none, List.append_nil, List.mem_append, List.mem_cons] at hk
    rcases hk with (hk | hk) | (hk | hk) | hk
    · exact .inr hk
    · exact .inr (zip_one hk)
    · exact .inl hk
    · exact .inr (zip_one hk)
    · exact reads_while names names' last rounds k hk

theorem tidy_while (names names' : List Nat) (last : List Stmt) {named : Bool} {safe : List Nat} (h0 : 0 ∈ safe ∨ named = true)
    (h1 : 1 ∈ safe) : ∀ (rounds : List (List Stmt × List Stmt)) (i : Nat), Tidy (whileBodies rounds last) →
    tidySteps safe named i 0 (whileSteps names names' rounds last) = true := by
  have hall : ∀ (l : List Nat) i, (∀ k ∈ l, k = 0 ∨ k = 1) →
      l.all (fun k => safe.contains k || decide (i ≤ k) || (named && k == 0)) = true := by
    intro l i hl
    rw [List.all_eq_true]
    intro k hk
    rcases hl k hk with rfl | rfl
    · rcases h0 with h | h <;> simp [h]
    · simp [h1]
  intro rounds
  induction rounds with
  | nil =>
    intro i ht
    have hb : tidyStmts last = true := ht last List.mem_cons_self
    simp only [whileSteps, tidySteps, reads, List.nil_append, Bool.and_eq_true, Bool.and_true]
    refine ⟨⟨hb, by simp [h1]⟩, hall [0] i (by simp)⟩
  | cons q rounds ih =>
    obtain ⟨cond, body⟩ := q
    intro i ht
    have hb : tidyStmts cond = true := ht cond List.mem_cons_self
    have hb' : tidyStmts body = true := ht body (List.mem_cons_of_mem _ List.mem_cons_self)
    have ih := ih (i + 1 + 1) (fun b hb => ht b (List.mem_cons_of_mem _ (List.mem_cons_of_mem _ hb)))
    have hr := reads_while names names' last rounds
    simp only [whileSteps, tidySteps, Bool.and_eq_true]
    refine ⟨⟨⟨hb, by simp [h1]⟩, hall _ i ?_⟩, ⟨⟨hb', ?_⟩, hall _ (i + 1) ?_⟩, ih⟩
    · intro k hk
      simp only [reads, Option.toList_none, List.append_nil, List.mem_append, List.mem_cons, List.not_mem_nil, or_false] at hk
      rcases hk with ((hk | hk) | hk) | hk
      · exact .inl hk
      · exact .inr (zip_one hk)
      · exact hr k hk
      · exact .inl hk
    · rcases h0 with h | h <;> simp [h]
    · intro k hk
      rcases List.mem_append.1 hk with hk | hk
      · exact hr k hk
      · exact .inl (List.mem_singleton.1 hk)

/-- So does `while:`. -/
theorem C90_while_tidy {lit : Bool} {held : List Nat} {arg : Exp} (ha : tidyExp arg = true) {names names' : List Nat}
    {rounds : List (List Stmt × List Stmt)} {last : List Stmt}
    (hw : lit = true ∨ (∀ n ∈ held, n ∉ writesExp false arg) ∧ Spared held (whileBodies rounds last)) (ht : Tidy (whileBodies rounds last)) :
    tidyMsgs lit held [.mk [arg] (whileSteps names names' rounds last) 0] = true := by
  refine tidy_msg (by simp [tidyArgs, ha]) ?_
    (fun safe named h0 h1 => tidy_while names names' last h0 (h1 1 (Nat.le_refl 1) (Nat.le_refl 1)) rounds 2 ht)
  refine hw.imp id fun h n hn => ⟨by simpa [writesArgs] using h.1 n hn, fun hm => ?_⟩
  obtain ⟨b, hb, hm⟩ := writes_while names names' last rounds n hm
  exact h.2 n hn b hb hm

/-- So do `true:` and `false:`. -/
theorem C90_if_tidy {lit : Bool} {held : List Nat} {arg : Exp} (ha : tidyExp arg = true) {names : List Nat} {body : List Stmt}
    (hw : lit = true ∨ (∀ n ∈ held, n ∉ writesExp false arg) ∧ Spared held [body]) (ht : tidyStmts body = true) :
    tidyMsgs lit held [.mk [arg] (ifSteps names body) 0] = true := by
  refine tidy_msg (by simp [tidyArgs, ha]) ?_ (fun safe named h0 h1 => ?_)
  · refine hw.imp id fun h n hn => ⟨by simpa [writesArgs] using h.1 n hn, fun hm => ?_⟩
    simp only [ifSteps, writesSteps, List.append_nil] at hm
    exact h.2 n hn body List.mem_cons_self hm
  · have h1 := h1 1 (Nat.le_refl 1) (Nat.le_refl 1)
    simp only [ifSteps, tidySteps, ht, reads, List.nil_append, List.all_cons, List.all_nil, Bool.and_true, Bool.true_and, Bool.and_eq_true,
      Option.getD_none]
    refine ⟨by simp [h1], ?_⟩
    rcases h0 with h | h <;> simp [h]

/-- So do messages that are answered by a method of the receiver, with any number of arguments. -/
theorem C90_call_tidy {lit : Bool} {held : List Nat} {args : List Exp} (ha : tidyArgs args = true) {n : Nat} {names : List Nat}
    {body : List Stmt} (hw : lit = true ∨ (∀ n ∈ held, n ∉ writesArgs false args) ∧ Spared held [body]) (ht : tidyStmts body = true) :
    tidyMsgs lit held [.mk args (callSteps n names args.length body) (args.length + 2)] = true := by
  refine tidy_msg ha ?_ (fun safe named h0 h1 => ?_)
  · refine hw.imp id fun h n hn => ⟨h.1 n hn, fun hm => ?_⟩
    simp only [callSteps, writesSteps, writesOf, List.nil_append, List.append_nil] at hm
    exact h.2 n hn body List.mem_cons_self hm
  · simp only [callSteps, tidySteps, ht, reads, List.nil_append, List.all_cons, List.all_nil, Bool.and_true, Bool.true_and, Bool.and_eq_true,
      Option.getD_some, grows, pinned]
    refine ⟨?_, by simp⟩
    rcases h0 with h | h <;> simp [h]

/-! ### A new world; concrete programs -/

/-- The objects of a new world: its scope, Nil and the name of Nil. -/
def world : St :=
  ⟨⟨fun x => if x = 0 then some ⟨false, [], 0, [(2, 1)], [], none, true, false, none⟩
      else if x = 1 then some ⟨false, [], 0, [], [], none, true, false, some 0⟩
      else if x = 2 then some ⟨false, [], 0, [], [], none, false, false, some 1⟩ else none, some 2, 3⟩,
    fun x => if x = 2 then .name 3 else if x = 1 then .value else if x = 0 then .scope else .value, [0], 0⟩

theorem boot_world : boot = .ok world := by
  have hm : GC.upd (GC.upd (GC.upd (GC.upd (fun _ => none) 0 (some ⟨false, [], 0, [], [], none, true, false, none⟩))
      1 (some ⟨false, [], 0, [], [], none, true, false, some 0⟩)) 2 (some ⟨false, [], 0, [], [], none, false, false, some 1⟩))
      0 (some ⟨false, [], 0, [(2, 1)], [], none, true, false, none⟩) = world.heap.mem := by
    funext x
    simp only [GC.upd, world]
    split
    · rfl
    · split
      · rename_i h; subst h; rfl
      · split
        · rename_i h; subst h; rfl
        · rfl
  show Out.ok (St.mk ⟨GC.upd (GC.upd (GC.upd (GC.upd (fun _ => none) 0 (some ⟨false, [], 0, [], [], none, true, false, none⟩))
      1 (some ⟨false, [], 0, [], [], none, true, false, some 0⟩)) 2 (some ⟨false, [], 0, [], [], none, false, false, some 1⟩))
      0 (some ⟨false, [], 0, [(2, 1)], [], none, true, false, none⟩), some 2, 3⟩ world.kind [0] 0) = _
  rw [hm]
  rfl

theorem mem_world {x : Nat} {o : GC.Obj} (e : world.heap.mem x = some o) :
    (x = 0 ∧ o = ⟨false, [], 0, [(2, 1)], [], none, true, false, none⟩) ∨
    (x = 1 ∧ o = ⟨false, [], 0, [], [], none, true, false, some 0⟩) ∨
    (x = 2 ∧ o = ⟨false, [], 0, [], [], none, false, false, some 1⟩) := by
  simp only [world] at e
  split at e
  · rename_i h; cases e; exact .inl ⟨h, rfl⟩
  · split at e
    · rename_i h; cases e; exact .inr (.inl ⟨h, rfl⟩)
    · split at e
      · rename_i h; cases e; exact .inr (.inr ⟨h, rfl⟩)
      · cases e

theorem world_start : Start world where
  opened := by simp [world]
  scopes c hc := by
    simp only [world, List.mem_singleton] at hc
    subst hc
    exact ⟨rfl, _, rfl, rfl⟩
  distinct := by simp [world]
  values x o e v h := by
    rcases mem_world e with ⟨rfl, rfl⟩ | ⟨rfl, rfl⟩ | ⟨rfl, rfl⟩
    · simp at h
      subst h
      exact ⟨rfl, _, rfl⟩
    · simp at h
    · simp at h
  names x o e p h := by
    rcases mem_world e with ⟨rfl, rfl⟩ | ⟨rfl, rfl⟩ | ⟨rfl, rfl⟩
    · simp at h
      subst h
      exact ⟨⟨3, rfl⟩, _, rfl⟩
    · simp at h
    · simp at h
  plain x o n hk e := by
    rcases mem_world e with ⟨rfl, rfl⟩ | ⟨rfl, rfl⟩ | ⟨rfl, rfl⟩
    · cases hk
    · exact ⟨rfl, rfl, fun _ => rfl⟩
    · exact ⟨rfl, rfl, fun _ => rfl⟩
  listed := by
    refine ⟨[2, 1, 0], ⟨rfl, _, rfl, rfl, _, rfl, rfl, _, rfl, rfl⟩, by decide, ?_, ?_⟩
    · intro x
      constructor
      · intro h
        obtain ⟨o, e⟩ := Option.isSome_iff_exists.1 h
        rcases mem_world e with ⟨rfl, _⟩ | ⟨rfl, _⟩ | ⟨rfl, _⟩ <;> simp
      · intro h
        simp only [List.mem_cons, List.not_mem_nil, or_false] at h
        rcases h with rfl | rfl | rfl <;> rfl
    · intro x h
      simp only [List.mem_cons, List.not_mem_nil, or_false] at h
      show x < 3
      omega
  unmarked x o e := by
    rcases mem_world e with ⟨rfl, rfl⟩ | ⟨rfl, rfl⟩ | ⟨rfl, rfl⟩ <;> rfl

/-- `☞ x ≔ List new add: 7.` (variable 5). -/
def listOf (x : Nat) : Stmt :=
  .mk (.loc x (.msg .lit [.mk [] [.basic (.new true), .basic (.new false), .basic (.push 1 2)] 1])) false true

/-- `x each: { :i :v v get. }`: two rounds, and memory is cleaned after every statement. -/
def eachProgram : List Stmt :=
  [listOf 5, .mk (.msg (.ref 5) [.mk [.lit] (eachSteps [6, 7] 2
      [(0, [.mk (.var 5 .lit) false true, .mk (.msg (.ref 7) [.mk [] [.basic (.get false 0 4)] 1]) false true]),
       (0, [.mk (.msg (.ref 7) [.mk [] [.basic (.get false 0 4)] 1]) false true])]) 0]) true false]

/-- The number of objects that exist below a bound; and whether the run was fine. -/
def living (x : Out (St × Option Nat)) : Option Nat :=
  match x with
  | .ok (s, _) => some ((List.range s.heap.fresh).countP fun x => (s.heap.mem x).isSome)
  | _ => none

/-- `x get: { x ≔ 1. } run`: the sequence is asked for its element after its argument has given `x` another value and memory
was cleaned. -/
def receiverProgram : List Stmt :=
  [listOf 5, .mk (.msg (.ref 5) [.mk [.msg .lit [.mk [] [.run 0 [] none [.mk (.var 5 .lit) false true]] 1]]
    [.basic (.elem 0 0), .basic (.get false 2 4)] 0]) false true]

/-- `x join: y` with a method for the text (name 9) in the argument `y` and in the elements; memory is cleaned after a
statement of the second element's method. -/
def joinProgram : List Stmt :=
  [.mk (.loc 5 (.msg .lit [.mk [] [.basic (.new true), .basic (.new false), .basic (.new false), .basic (.put true 2 9 3),
      .basic (.push 1 2), .basic (.push 1 2)] 1])) false true,
   .mk (.loc 6 (.msg .lit [.mk [] [.basic (.new false), .basic (.put true 0 9 1)] 0])) false true,
   .mk (.msg (.ref 5) [.mk [.ref 6] (joinSteps 9 [.mk .lit true false]
      [(0, [.mk .lit true false]), (1, [.mk .lit false true, .mk .lit true false])]) 11]) false true]

/-- `(List new add: 7) each: {}`, after which memory is cleaned. -/
def leakProgram : List Stmt :=
  [.mk (.msg .lit [.mk [] [.basic (.new true), .basic (.new false), .basic (.push 1 2)] 1,
      .mk [.lit] (eachSteps [] 2 [(0, [])]) 0]) false true]

/-- **C90 fails** for receivers: a variable that is overwritten while the arguments are evaluated leaves the receiver without
protection for its contents; without the collector the program is fine, with it freed memory is read. -/
theorem C90_violated_receiver : Start world ∧ (∃ t a, stmts false world receiverProgram = .ok (t, a)) ∧
    stmts true world receiverProgram = .ub :=
  ⟨world_start, ⟨_, _, rfl⟩, Out.of_isUb (by decide +kernel)⟩

/-- **C90 fails** for `join:`: the text between the elements is held by a C variable only. -/
theorem C90_violated_glue : Start world ∧ (∃ t a, stmts false world joinProgram = .ok (t, a)) ∧
    stmts true world joinProgram = .ub :=
  ⟨world_start, ⟨_, _, rfl⟩, Out.of_isUb (by decide +kernel)⟩

/-- **C90 fails** for release: after `each:` at the top level and a collection the sequence (object 5) still exists, although
nothing but a nameless property of the world refers to it. -/
theorem C90_violated_release : ∃ s, stmts true world leakProgram = .ok (s, none) ∧ nameless s 0 = [5, 8, 8, 5] ∧
    (∃ o, s.heap.mem 5 = some o ∧ o.sticky = false) ∧
    ∀ y < s.heap.fresh, ∀ o ∈ s.heap.mem y, 5 ∉ o.elems ∧ ∀ p ∈ o.props ++ o.methods, p.2 = 5 → y = 0 ∧ s.kind p.1 = .name 0 :=
  ⟨_, rfl, by decide +kernel, ⟨_, rfl, rfl⟩, by decide +kernel⟩

/-! ### Release -/

theorem nameless_pins (s : St) (c : Nat) : nameless s c = pins s c := rfl

theorem nameless_same {s t : St} {c : Nat} (hk : s.kind = t.kind) (h : Same s t c) : nameless s c = nameless t c := by
  obtain ⟨o, o', e1, e2, _, _, _, h4, _⟩ := h
  unfold nameless
  rw [e1, e2, hk]
  simp only [h4]

/-- **C90** (part). What is evaluated pins nothing for good: after an expression the innermost scope holds the same nameless
values as before, if no operation pins by itself and no block is called inside of another message. Missing: the general
claim is false (`C90_violated_release`). -/
theorem C90_released_partial {s : St} (h : Start s) (hm : s.inMsg = 0) {x : Exp} (hn : neatExp false x = true) (hx : tidyExp x = true)
    {t : St} {v : Nat} (e : eval false s x = .ok (t, v)) :
    ∃ s', eval true s x = .ok (s', v) ∧ ∀ c ∈ s.ctxs, nameless s' c = nameless s c := by
  obtain ⟨c, rest, hc⟩ := h.cons
  obtain ⟨s', e1, h1, f1⟩ := sim_eval h.sim hc x (tidy_exp h.ok hc x hx) e
  refine ⟨s', e1, ?_⟩
  have ha := alike (a := some v) h1
  obtain ⟨q, p⟩ := quiet_eval h.ok hc x e
  intro d hd
  have hs : Same s' t d := ha.2.2.2 d (.root (List.mem_append.2 (.inl (by rw [f1.ctxs]; exact hd))))
  rw [nameless_same ha.2.2.1 hs, nameless_pins, nameless_pins]
  rw [hc] at hd
  rcases List.mem_cons.1 hd with rfl | hd
  · exact p false (fun _ => hm) hn
  · exact q.pins d hd

/-- **C90** (part). Whatever statements do - also with `each:` and with calls inside of messages - they leave nothing behind in
the scopes around theirs: what a block pinned is released when the block ends. -/
theorem C90_block_released {s : St} (h : Start s) {c : Nat} {rest : List Nat} (hc : s.ctxs = c :: rest) {p : List Stmt}
    (hp : tidyStmts p = true) {t : St} {a : Option Nat} (e : stmts false s p = .ok (t, a)) :
    ∃ s', stmts true s p = .ok (s', a) ∧ ∀ d ∈ rest, nameless s' d = nameless s d := by
  obtain ⟨s', e1, h1, f1⟩ := sim_stmts h.sim hc p (tidy_stmts h.ok hc p hp) e
  refine ⟨s', e1, ?_⟩
  have ha := alike h1
  have q := quiet_stmts h.ok hc p e
  intro d hd
  have hs : Same s' t d := ha.2.2.2 d (.root (List.mem_append.2 (.inl (by rw [f1.ctxs, hc]; exact List.mem_cons_of_mem _ hd))))
  rw [nameless_same ha.2.2.1 hs, nameless_pins, nameless_pins]
  exact q.pins d hd

/-! ### Concrete cases -/

/-- The start is what the interpreter makes. -/
example : ∃ s, boot = .ok s ∧ Start s := ⟨world, boot_world, world_start⟩

/-- A program with a sequence, a block that overwrites the variable of the sequence, and collections follows the rule. -/
example : tidyStmts eachProgram = true ∧ stmts false world eachProgram ≠ .exit :=
  ⟨by decide +kernel, by intro h; have : living (stmts false world eachProgram) = none := by rw [h]; rfl
                         revert this; decide +kernel⟩

/-- So it is calm. -/
example : CalmStmts world eachProgram := tidy_stmts world_start.ok rfl _ (by decide +kernel)

/-- The collector has something to do in it: 8 of 28 objects are freed. -/
example : living (stmts false world eachProgram) = some 28 ∧ living (stmts true world eachProgram) = some 20 := by decide +kernel

/-- The programs that go wrong do not follow the rule. -/
example : tidyStmts receiverProgram = false ∧ tidyStmts joinProgram = false := by decide +kernel

/-- The statements of `each:`, `sort:`, `×`, `while:`, `true:` and methods. -/
example : tidyMsgs false [5, 2] [.mk [.lit] (eachSteps [6] 2 [(0, [.mk (.var 5 .lit) false true])]) 0] = true :=
  C90_each_tidy rfl (.inr (by simp [writesExp])) (by simp [Tidy, tidyStmts, tidyExp])

example : tidyMsgs false [5, 2] [.mk [.lit] (sortSteps [6, 7] 2 [(0, 1, [.mk (.ref 6) true true]), (1, 2, [.mk (.ref 7) true true])]) 0] = true :=
  C90_sort_tidy rfl (.inr (by simp [writesExp])) (by simp [Tidy, tidyStmts, tidyExp])

example : tidyMsgs false [5, 2] [.mk [.lit] (timesSteps [6] 2 [[.mk (.loc 5 (.ref 6)) false true], [.mk (.var 8 (.ref 6)) false true]]) 0] = true :=
  C90_times_tidy rfl (.inr ⟨by simp [writesExp], by simp [Spared, writesStmts, writesExp]⟩) (by simp [Tidy, tidyStmts, tidyExp])

example : tidyMsgs true [] [.mk [.lit] (whileSteps [] [] [([.mk (.ref 5) true true], [.mk (.var 5 .lit) false true])] [.mk (.ref 5) true true]) 0] = true :=
  C90_while_tidy rfl (.inl rfl) (by simp [Tidy, whileBodies, tidyStmts, tidyExp])

example : tidyMsgs false [5, 2] [.mk [.lit] (ifSteps [] [.mk (.var 6 .lit) false true]) 0] = true :=
  C90_if_tidy rfl (.inr ⟨by simp [writesExp], by simp [Spared, writesStmts, writesExp]⟩) (by simp [tidyStmts, tidyExp])

example : tidyMsgs false [5, 2] [.mk [.lit, .ref 6] (callSteps 9 [7, 8] 2 [.mk (.ownSet 4 (.ref 7)) false true]) 4] = true :=
  C90_call_tidy rfl (.inr ⟨by simp [writesArgs, writesExp], by simp [Spared, writesStmts, writesExp]⟩) (by simp [tidyStmts, tidyExp])

/-- Variables that the block writes must not hold the receiver. -/
example : tidyMsgs false [5, 2] [.mk [.lit] (timesSteps [6] 2 [[.mk (.var 5 .lit) false true]]) 0] = false := by decide +kernel

/-- An expression that pins nothing for good: `(7 + 8) × 9` with a block called at the top. -/
example : neatExp false (.msg .lit [.mk [.lit, .msg .lit [.mk [.lit] [.basic (.new false)] 2]] [.basic (.new false), .run 1 [] none
    [.mk .lit false true]] 4]) = true ∧
    tidyExp (.msg .lit [.mk [.lit, .msg .lit [.mk [.lit] [.basic (.new false)] 2]] [.basic (.new false), .run 1 [] none
    [.mk .lit false true]] 4]) = true ∧
    ∃ t v, eval false world (.msg .lit [.mk [.lit, .msg .lit [.mk [.lit] [.basic (.new false)] 2]] [.basic (.new false), .run 1 [] none
    [.mk .lit false true]] 4]) = .ok (t, v) := ⟨by decide +kernel, by decide +kernel, _, _, rfl⟩

/-- A scope inside of the world; statements with `each:` leave the world's scope alone. -/
example : ∃ s, Start s ∧ s.ctxs = [3, 0] ∧ tidyStmts leakProgram = true ∧ ∃ t a, stmts false s leakProgram = .ok (t, a) :=
  ⟨openScope world, Start.of_sim world_start.sim.openScope.1 (by simp [openScope]), rfl, by decide +kernel, _, _, rfl⟩

end Verif.Props.Temp
