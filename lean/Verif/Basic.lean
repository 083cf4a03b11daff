/-!
# Outcomes

Shared by all model files.  A C function of `/repo` either returns (`ok`), runs into undefined
behaviour (`ub`), or ends the process with `exit()` (`exit`, as in `memory.c:65-69`,
`walker.c:74-77`).  Raised Citrine errors (`CtrStdFlow`, `util.c:148-164`) are ordinary values: the
function returns and the error is pending in the state.
-/

namespace Verif

/-- Outcome of running a piece of C code. -/
inductive Out (α : Type) where
  /-- the function returned `a` -/
  | ok (a : α)
  /-- undefined behaviour in the sense of the C standard -/
  | ub
  /-- the process called `exit` -/
  | exit
  deriving Repr, DecidableEq

namespace Out

/-- Sequencing: undefined behaviour and exit are final. -/
def bind (x : Out α) (f : α → Out β) : Out β :=
  match x with
  | ok a => f a
  | ub => ub
  | exit => exit

instance : Monad Out where
  pure := ok
  bind := bind

@[simp] theorem pure_eq (a : α) : (pure a : Out α) = ok a := rfl
@[simp] theorem ok_bind (a : α) (f : α → Out β) : (ok a >>= f) = f a := rfl
@[simp] theorem ub_bind (f : α → Out β) : ((ub : Out α) >>= f) = ub := rfl
@[simp] theorem exit_bind (f : α → Out β) : ((exit : Out α) >>= f) = exit := rfl

/-- `x` returned normally. -/
def IsOk (x : Out α) : Prop := ∃ a, x = ok a

theorem bind_eq_ok {x : Out α} {f : α → Out β} {b : β} :
    (x >>= f) = ok b ↔ ∃ a, x = ok a ∧ f a = ok b := by
  cases x <;> simp

end Out

/-- Range of a C `int` (32 bit two's complement on every platform in the makefiles). -/
def InInt (n : Int) : Prop := -2147483648 ≤ n ∧ n < 2147483648

instance (n : Int) : Decidable (InInt n) := by unfold InInt; infer_instance

/-- Evaluates a check on the result of a computation. -/
def Out.sat (o : Out α) (p : α → Bool) : Bool :=
  match o with
  | .ok a => p a
  | _ => false

theorem Out.of_sat {o : Out α} {p : α → Bool} (h : o.sat p = true) : ∃ a, o = .ok a ∧ p a = true := by
  cases o with
  | ok a => exact ⟨a, rfl, h⟩
  | ub => cases h
  | exit => cases h

/-- Whether a computation has undefined behaviour. -/
def Out.isUb (o : Out α) : Bool :=
  match o with
  | .ub => true
  | _ => false

theorem Out.of_isUb {o : Out α} (h : o.isUb = true) : o = .ub := by
  cases o with
  | ok a => cases h
  | ub => rfl
  | exit => cases h

/-- Whether a computation ends the program. -/
def Out.isExit (o : Out α) : Bool :=
  match o with
  | .exit => true
  | _ => false

theorem Out.of_isExit {o : Out α} (h : o.isExit = true) : o = .exit := by
  cases o with
  | ok a => cases h
  | ub => cases h
  | exit => rfl

end Verif
