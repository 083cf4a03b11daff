import Verif.Model.Interp

/-!
# The bound on nested calls does not matter

A run that ends within a bound has the same result with every larger bound.
-/

namespace Verif.Model.Interp

/-- Two outcomes that may stand for "unknown". -/
inductive Bot where
  | more
  | type

/-- `x` is the outcome chosen for "unknown". -/
def Bot.is (b : Bot) (x : Res α) : Prop :=
  match b with
  | .more => x = .more
  | .type => x = .ub .type

/-- `y` is the same as `x`, unless `x` is unknown. -/
def Res.Le (bot : Bot) (x y : Res α) : Prop := bot.is x ∨ y = x

variable {bot : Bot}

theorem Res.Le.rfl {x : Res α} : x.Le bot x := .inr (Eq.refl _)

theorem Res.Le.bind {x y : Res α} {f g : α → Res β} (h : x.Le bot y) (hf : ∀ a, (f a).Le bot (g a)) :
    (x >>= f).Le bot (y >>= g) := by
  rcases h with h | h
  · cases bot
    · cases h; exact .inl (Eq.refl _)
    · cases h; exact .inl (Eq.refl _)
  · subst h
    cases y with
    | ok a => exact hf a
    | ub u => exact .inr (Eq.refl _)
    | exit => exact .inr (Eq.refl _)
    | more => exact .inr (Eq.refl _)

theorem Res.Le.ite {c : Prop} [Decidable c] {x x' y y' : Res α} (h : x.Le bot x') (k : y.Le bot y') :
    (if c then x else y).Le bot (if c then x' else y') := by
  split
  · exact h
  · exact k

/-- `ev'` extends `ev`. -/
def EvLe (bot : Bot) (ev ev' : Eval) : Prop := ∀ t s, (ev t s).Le bot (ev' t s)

variable {ev ev' : Eval}

theorem le_evalArgs (h : EvLe bot ev ev') (es : List Node) : ∀ (k : Nat) (s : St),
    (evalArgs ev k es s).Le bot (evalArgs ev' k es s) := by
  induction es with
  | nil => intro k s; exact .rfl
  | cons e es ih =>
    intro k s
    refine (h _ _).bind ?_
    rintro ⟨s1, v, b⟩
    exact .ite .rfl ((ih _ _).bind fun _ => .rfl)

theorem le_chain (h : EvLe bot ev ev') (ms : List (Name × List Node)) : ∀ (lit : Bool) (r : Nat) (s : St),
    (chain ev lit r ms s).Le bot (chain ev' lit r ms s) := by
  induction ms with
  | nil => intro lit r s; exact .rfl
  | cons m ms ih =>
    intro lit r s
    obtain ⟨m, as⟩ := m
    refine Res.Le.rfl.bind fun s1 => ?_
    refine (le_evalArgs h as _ _).bind ?_
    rintro ⟨s2, vs⟩
    refine (h _ _).bind ?_
    rintro ⟨s3, v, b⟩
    exact ih _ _ _

theorem le_message (h : EvLe bot ev ev') (recv : Node) (ms : List (Name × List Node)) (s : St) :
    (message ev recv ms s).Le bot (message ev' recv ms s) := by
  refine Res.Le.rfl.bind fun s1 => ?_
  cases recv with
  | ref own k => exact .ite .rfl (le_chain h _ _ _ _)
  | str k => exact le_chain h _ _ _ _
  | num k => exact le_chain h _ _ _ _
  | code ps b => exact le_chain h _ _ _ _
  | nested n =>
    refine (h _ _).bind ?_
    rintro ⟨s2, r, b⟩
    exact le_chain h _ _ _ _
  | msg _ _ => exact .rfl
  | assign _ _ _ => exact .rfl
  | ret _ => exact .rfl
  | eop => exact .rfl

theorem le_assignment (h : EvLe bot ev ev') (mode : Mode) (k : Name) (value : Node) (s : St) :
    (assignment ev mode k value s).Le bot (assignment ev' mode k value s) := by
  refine Res.Le.rfl.bind fun s1 => ?_
  refine (h _ _).bind ?_
  rintro ⟨s2, x, b⟩
  exact .rfl

theorem le_expr (h : EvLe bot ev ev') (e : Node) (s : St) : (expr ev e s).Le bot (expr ev' e s) := by
  refine Res.Le.rfl.bind fun s1 => ?_
  cases e with
  | str k => exact .rfl
  | num k => exact .rfl
  | code ps b => exact .rfl
  | ref own k => exact .rfl
  | msg recv ms => exact (le_message h _ _ _).bind fun _ => .rfl
  | assign mode k v => exact (le_assignment h _ _ _ _).bind fun _ => .rfl
  | ret v => exact Res.Le.rfl.bind fun s2 => (h _ _).bind fun _ => .rfl
  | nested n => exact h _ _
  | eop => exact .rfl

theorem le_runList (h : EvLe bot ev ev') (es : List Node) : ∀ (s : St),
    (runList ev es s).Le bot (runList ev' es s) := by
  induction es with
  | nil => intro s; exact .rfl
  | cons e es ih =>
    intro s
    refine (h _ _).bind ?_
    rintro ⟨s1, v, b⟩
    exact .ite .rfl (ih _)

theorem le_cast2string (h : EvLe bot ev ev') (o : Nat) (s : St) :
    (cast2string ev o s).Le bot (cast2string ev' o s) := by
  unfold cast2string
  split
  · exact .rfl
  · exact (h _ _).bind fun _ => .rfl

theorem le_cast2number (h : EvLe bot ev ev') (o : Nat) (s : St) :
    (cast2number ev o s).Le bot (cast2number ev' o s) := by
  unfold cast2number
  split
  · exact .rfl
  · exact (h _ _).bind fun _ => .rfl

theorem le_cast2bool (h : EvLe bot ev ev') (o : Nat) (s : St) :
    (cast2bool ev o s).Le bot (cast2bool ev' o s) := by
  unfold cast2bool
  split
  · exact .rfl
  · exact (h _ _).bind fun _ => .rfl

theorem le_handle (h : EvLe bot ev ev') (b res : Nat) (s : St) :
    (handle ev b res s).Le bot (handle ev' b res s) := by
  unfold handle
  split
  · exact .rfl
  · exact .rfl
  · exact .rfl
  · split
    · exact .rfl
    · refine (le_cast2string h _ _).bind ?_
      rintro ⟨s1, a⟩
      exact (h _ _).bind fun _ => .rfl

theorem le_blockRun (h : EvLe bot ev ev') (b : Nat) (args : List Nat) (my : Option Nat) (s : St) :
    (blockRun ev b args my s).Le bot (blockRun ev' b args my s) := by
  unfold blockRun
  split
  · exact .rfl
  · exact .rfl
  · refine Res.Le.rfl.bind fun s1 => ?_
    refine (le_runList h _ _).bind ?_
    rintro ⟨s2, r⟩
    exact le_handle h _ _ _
  · exact .rfl

theorem le_timesLoop (h : EvLe bot ev ev') (b : Nat) : ∀ (n i : Nat) (s : St),
    (timesLoop ev b n i s).Le bot (timesLoop ev' b n i s) := by
  intro n
  induction n with
  | zero => intro i s; exact .rfl
  | succ n ih =>
    intro i s
    refine (h _ _).bind ?_
    rintro ⟨s2, v, r⟩
    exact .ite .rfl (ih _ _)

theorem le_whileRound (h : EvLe bot ev ev') (b c : Nat) (args : List Nat) (s : St) :
    (whileRound ev b c args s).Le bot (whileRound ev' b c args s) := by
  unfold whileRound
  refine .ite .rfl ?_
  refine (h _ _).bind ?_
  rintro ⟨s1, v, r⟩
  refine (le_cast2bool h _ _).bind ?_
  rintro ⟨s2, t⟩
  refine .ite .rfl ?_
  refine (h _ _).bind ?_
  rintro ⟨s3, v, r⟩
  exact h _ _

theorem le_eachRound (h : EvLe bot ev ev') (r b i : Nat) (s : St) :
    (eachRound ev r b i s).Le bot (eachRound ev' r b i s) := by
  unfold eachRound
  split
  · split
    · exact .rfl
    · refine (h _ _).bind ?_
      rintro ⟨s1, v, r⟩
      exact .ite .rfl (h _ _)
  · exact .rfl

theorem le_branch (h : EvLe bot ev ev') (hit : Bool) (r : Nat) (args : List Nat) (s : St) :
    (branch ev hit r args s).Le bot (branch ev' hit r args s) := by
  refine .ite ?_ .rfl
  refine Res.Le.rfl.bind fun b => ?_
  refine .ite ?_ .rfl
  exact (h _ _).bind fun _ => .rfl

theorem le_native (env : Env) (h : EvLe bot ev ev') (f : Native) (r : Nat) (args : List Nat) (s : St) :
    (native env ev f r args s).Le bot (native env ev' f r args s) := by
  cases f with
  | caseDo =>
    refine Res.Le.rfl.bind fun b => ?_
    refine .ite ?_ .rfl
    refine Res.Le.rfl.bind fun x => ?_
    refine (h _ _).bind ?_
    rintro ⟨s1, v, q⟩
    refine (le_cast2bool h _ _).bind ?_
    rintro ⟨s2, t⟩
    exact .ite ((h _ _).bind fun _ => .rfl) .rfl
  | message =>
    refine Res.Le.rfl.bind fun b => ?_
    refine (le_cast2string h _ _).bind ?_
    rintro ⟨s1, m⟩
    refine Res.Le.rfl.bind fun l => ?_
    dsimp only
    split
    · exact (h _ _).bind fun _ => .rfl
    · exact .rfl
  | ifTrue => exact Res.Le.rfl.bind fun c => le_branch h _ _ _ _
  | ifFalse => exact Res.Le.rfl.bind fun c => le_branch h _ _ _ _
  | run => exact (h _ _).bind fun _ => .rfl
  | times =>
    refine Res.Le.rfl.bind fun a => ?_
    refine (le_cast2number h _ _).bind ?_
    rintro ⟨s1, t⟩
    refine .ite ?_ .rfl
    exact (le_timesLoop h _ _ _ _).bind fun _ => .rfl
  | whileTrue =>
    refine Res.Le.rfl.bind fun c => ?_
    exact (h _ _).bind fun _ => .rfl
  | procedure => exact (h _ _).bind fun _ => .rfl
  | set =>
    refine Res.Le.rfl.bind fun k => ?_
    exact (le_cast2string h _ _).bind fun _ => .rfl
  | each =>
    refine Res.Le.rfl.bind fun b => ?_
    refine .ite ?_ .rfl
    exact (h _ _).bind fun _ => .rfl
  | eval =>
    simp only [native]
    generalize (s.obj r).val = v
    cases v with
    | str k =>
      dsimp only; generalize env.parse k = p
      cases p with
      | none => exact .rfl
      | some e => exact (h _ _).bind fun _ => .rfl
    | _ => exact .rfl
  | _ => exact .rfl

theorem le_call (env : Env) (h : EvLe bot ev ev') (f r : Nat) (args : List Nat) (s : St) :
    (call env ev f r args s).Le bot (call env ev' f r args s) := by
  unfold call
  split
  · exact .ite .rfl (le_native env h _ _ _ _)
  · refine .ite (.ite .rfl ?_) ?_
    · exact (h _ _).bind fun _ => .rfl
    · exact (h _ _).bind fun _ => .rfl
  · exact .rfl

/-- A method search that ends within a bound has the same result with a larger one. -/
theorem search_succ (obj : Nat → Obj) (stack : List Nat) (rec : Option Nat) (r : Nat) (m : Name) :
    ∀ (n o : Nat) (x : Option Nat × Option Nat), search obj stack rec r m n o = some x →
      search obj stack rec r m (n + 1) o = some x := by
  intro n
  induction n with
  | zero => intro o x h; cases h
  | succ n ih =>
    intro o x h
    rw [search] at h ⊢
    have up : ∀ y, (match (obj o).link with
        | some p => search obj stack rec r m n p
        | none => some (none, rec)) = some y →
        (match (obj o).link with
        | some p => search obj stack rec r m (n + 1) p
        | none => some (none, rec)) = some y := by
      intro y hy
      split at hy
      · exact ih _ _ hy
      · exact hy
    split at h
    · exact up x h
    · split at h
      · rename_i hc
        rw [if_pos hc]
        split at h
        · rename_i hr
          rw [if_pos hr]; exact h
        · rename_i hr
          rw [if_neg hr]; exact up x h
      · rename_i hc
        rw [if_neg hc]; exact h

theorem search_le (obj : Nat → Obj) (stack : List Nat) (rec : Option Nat) (r : Nat) (m : Name)
    {n k : Nat} (h : n ≤ k) {o : Nat} {x : Option Nat × Option Nat}
    (hs : search obj stack rec r m n o = some x) : search obj stack rec r m k o = some x := by
  induction h with
  | refl => exact hs
  | step _ ih => exact search_succ _ _ _ _ _ _ _ _ ih

theorem le_send (env : Env) (h : EvLe bot ev ev') {n k : Nat} (hk : n ≤ k) (r : Nat) (m : Name)
    (args : List Nat) (s : St)
    (hb : s.flow.isSome = false → search s.obj s.stack s.recursion r m n r = none → bot = .more) :
    (send env ev n r m args s).Le bot (send env ev' k r m args s) := by
  unfold send
  by_cases hf : s.flow.isSome
  · rw [if_pos hf, if_pos hf]; exact .rfl
  rw [if_neg hf, if_neg hf]
  cases hs : search s.obj s.stack s.recursion r m n r with
  | none => rw [hb (by simpa using hf) hs]; exact .inl rfl
  | some x =>
    rw [search_le _ _ _ _ _ hk hs]
    obtain ⟨f, rec⟩ := x
    cases f with
    | none => exact (h _ _).bind fun _ => .rfl
    | some f => exact (le_call env h _ _ _ _).bind fun _ => .rfl

theorem le_plain {x y : Res (St × Nat)} (h : x.Le bot y) : (plain x).Le bot (plain y) :=
  h.bind fun _ => .rfl

theorem exec_le_succ (env : Env) : ∀ n, EvLe .more (exec env n) (exec env (n + 1)) := by
  intro n
  induction n with
  | zero => intro t s; exact .inl rfl
  | succ n ih =>
    intro t s
    cases t with
    | expr e => exact le_expr ih e s
    | send r m args => exact le_plain (le_send env ih (Nat.le_succ n) r m args s fun _ _ => rfl)
    | block b args my => exact le_plain (le_blockRun ih b args my s)
    | loopWhile b c args => exact le_whileRound ih b c args s
    | loopEach r b i => exact le_eachRound ih r b i s

/-- Larger bounds extend smaller ones. -/
theorem exec_le (env : Env) {n k : Nat} (h : n ≤ k) : EvLe .more (exec env n) (exec env k) := by
  induction h with
  | refl => intro t s; exact .rfl
  | step _ ih =>
    intro t s
    rcases ih t s with e | e
    · exact .inl e
    · rcases exec_le_succ env _ t s with e' | e'
      · exact .inl (e.symm.trans e')
      · exact .inr (e'.trans e)

/-- The result of a run that ends does not depend on the bound. -/
theorem exec_stable (env : Env) {n k : Nat} (h : n ≤ k) {t : Task} {s : St}
    (hn : exec env n t s ≠ .more) : exec env k t s = exec env n t s :=
  (exec_le env h t s).resolve_left hn

/-- Two bounds that both suffice give the same result. -/
theorem exec_det (env : Env) {n k : Nat} {t : Task} {s : St} (hn : exec env n t s ≠ .more)
    (hk : exec env k t s ≠ .more) : exec env n t s = exec env k t s := by
  rcases Nat.le_total n k with h | h
  · exact (exec_stable env h hn).symm
  · exact exec_stable env h hk

theorem program_le (env : Env) {n k : Nat} (h : n ≤ k) (p : List Node) (s : St) :
    (program env n p s).Le .more (program env k p s) := le_runList (exec_le env h) p s

/-! ## Runs that never end

To show that a program never ends it is enough to run it to a point from which it never ends.  That
part of the run is computed by `execFrom` on top of an evaluator that answers `more` at such points and
"unknown" (`ub type`) elsewhere. -/

/-- `send`, unknown if the bound on the prototype chain is too small. -/
def sendFrom (env : Env) (ev : Eval) (n r : Nat) (m : Name) (args : List Nat) (s : St) :
    Res (St × Nat) :=
  if s.flow.isSome = false ∧ search s.obj s.stack s.recursion r m n r = none then .ub .type
  else send env ev n r m args s

/-- Whether a computation ran out of its bound. -/
def Res.isMore : Res α → Bool
  | .more => true
  | _ => false

/-- One level of the interpreter. -/
def stepFrom (env : Env) (ev : Eval) (n : Nat) (t : Task) (s : St) : Res Ans :=
  match t with
  | .expr e => expr ev e s
  | .send r m args => plain (sendFrom env ev n r m args s)
  | .block b args my => plain (blockRun ev b args my s)
  | .loopWhile b c args => whileRound ev b c args s
  | .loopEach r b i => eachRound ev r b i s

/-- The interpreter on top of another evaluator. -/
def execFrom (env : Env) (ev : Eval) : Nat → Eval
  | 0, t, s => ev t s
  | n + 1, t, s => if (ev t s).isMore then .more else stepFrom env (execFrom env ev n) n t s

theorem execFrom_le (env : Env) {ev : Eval} (h : ∀ n, EvLe .type ev (exec env n)) (n : Nat) :
    ∀ k, EvLe .type (execFrom env ev k) (exec env (n + k)) := by
  intro k
  induction k with
  | zero => exact h n
  | succ k ih =>
    intro t s
    rw [execFrom]
    split
    · rename_i hm
      rcases h (n + (k + 1)) t s with e | e
      · have e' : ev t s = .ub .type := e
        rw [e'] at hm; cases hm
      · rw [e]
        cases hx : ev t s with
        | more => exact .rfl
        | _ => rw [hx] at hm; cases hm
    · cases t with
      | expr e => exact le_expr ih e s
      | send r m args =>
        refine le_plain ?_
        unfold sendFrom
        split
        · exact .inl rfl
        · rename_i hc
          refine le_send env ih (Nat.le_add_left k n) r m args s fun h1 h2 => ?_
          exact absurd ⟨h1, h2⟩ hc
      | block b args my => exact le_plain (le_blockRun ih b args my s)
      | loopWhile b c args => exact le_whileRound ih b c args s
      | loopEach r b i => exact le_eachRound ih r b i s

/-- Answers `more` at the points described by a check. -/
def stopAt (check : Task → St → Bool) : Eval := fun t s => if check t s then .more else .ub .type

/-- If a program runs into points from which nothing ever ends, then it never ends. -/
theorem never_ends (env : Env) (check : Task → St → Bool) (p : List Node) (s : St) (k : Nat)
    (hcheck : ∀ n t s, check t s = true → exec env n t s = .more)
    (hrun : (runList (execFrom env (stopAt check) k) p s).isMore = true) :
    ∀ n, program env n p s = .more := by
  intro n
  have hrun' : runList (execFrom env (stopAt check) k) p s = .more := by
    revert hrun
    cases runList (execFrom env (stopAt check) k) p s with
    | more => exact fun _ => rfl
    | _ => exact fun h => (by cases h)
  have h : ∀ n, EvLe .type (stopAt check) (exec env n) := by
    intro n t s
    unfold stopAt
    by_cases hc : check t s = true
    · rw [if_pos hc]; exact .inr (hcheck n t s hc)
    · rw [if_neg hc]; exact .inl rfl
  rcases le_runList (execFrom_le env h n k) p s with e | e
  · rw [hrun'] at e; cases e
  · rw [hrun'] at e
    rcases program_le env (Nat.le_add_right n k) p s with e' | e'
    · exact e'
    · unfold program at e' ⊢
      rw [← e', e]

end Verif.Model.Interp
