/-!
# Specification of timers

Nothing here refers to the model. A program sets timers (number, milliseconds), time passes, and now and then the timers are
looked at. What a program does when a timer fires is a list of settings, too.
-/

namespace Verif.Spec.Timer

/-- `Media timer: n after: ms`. -/
structure Set where
  n : Int
  ms : Int
  deriving DecidableEq, Repr

/-- What happens: a setting, a new time (of the frame that is drawn), the timers are looked at; then timer `i` causes the
settings `h i`. -/
inductive Op where
  | set (c : Set)
  | time (t : Nat)
  | look (h : Nat → List Set)

/-- When a timer that is set now is due. Negative times switch it off. -/
def due (now : Nat) (ms : Int) : Option Nat := if 0 ≤ ms then some (now + ms.toNat) else none

/-- What settings do to timer `n`. -/
def settle (n now : Nat) (d : Option Nat) (l : List Set) : Option Nat :=
  l.foldl (fun d (c : Set) => if c.n = (n : Int) then due now c.ms else d) d

/-- When timer `n` fires: whenever the timers are looked at after it was due, and then it is switched off, unless what
it causes sets it again. -/
def firings (n : Nat) : Option Nat → Nat → List Op → List Nat
  | _, _, [] => []
  | d, now, .set c :: l => firings n (settle n now d [c]) now l
  | d, _, .time t :: l => firings n d t l
  | d, now, .look h :: l =>
    match d with
    | some t => if t < now then now :: firings n (settle n now none (h n)) now l else firings n d now l
    | none => firings n d now l

/-- No other timer sets this one. -/
def Alone (n : Nat) : List Op → Prop
  | [] => True
  | .look h :: l => (∀ i, i ≠ n → ∀ c ∈ h i, c.n ≠ (n : Int)) ∧ Alone n l
  | _ :: l => Alone n l

/-- All times and all settings of timers are small. -/
def Small (bound : Nat) : List Op → Prop
  | [] => True
  | .set c :: l => c.ms ≤ bound ∧ Small bound l
  | .time t :: l => t ≤ bound ∧ Small bound l
  | .look h :: l => (∀ i, ∀ c ∈ h i, c.ms ≤ bound) ∧ Small bound l

/-! ## All timers together -/

/-- When each timer is due. -/
abbrev Plan := Nat → Option Nat

/-- The timers `is` are looked at one after the other: those that are due fire, are switched off, and what they cause happens before the
next one is looked at. -/
def sweep (now : Nat) (h : Nat → List Set) : List Nat → Plan → List Nat × Plan
  | [], p => ([], p)
  | i :: is, p =>
    match p i with
    | some t =>
      if t < now then
        let r := sweep now h is fun n => settle n now (if n = i then none else p n) (h i)
        (i :: r.1, r.2)
      else sweep now h is p
    | none => sweep now h is p

/-- When which timers fire: the timers are looked at in the order of their numbers. -/
def together : Plan → Nat → List Op → List (Nat × Nat)
  | _, _, [] => []
  | p, now, .set c :: l => together (fun n => settle n now (p n) [c]) now l
  | p, _, .time t :: l => together p t l
  | p, now, .look h :: l =>
    let r := sweep now h (List.range' 1 99) p
    r.1.map (fun i => (now, i)) ++ together r.2 now l

end Verif.Spec.Timer
