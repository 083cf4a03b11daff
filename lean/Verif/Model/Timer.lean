import Verif.Basic
import Verif.Spec.Timer

/-!
# Model of the timers of the media plugin

`plugins/media/media.c:192-193`, `276-279`, `1311-1332`, `1427-1429`, `1723`. The numbers that a program gives are `int`s
here (`(int)` of a number that is no `int` is undefined). What a program does when a timer fires is a list of settings.
-/

namespace Verif.Model.Timer
open Verif.Spec.Timer (Set Op)

/-- `CtrMediaTimers` and `CtrMediaTicks2`. The array is declared with 100 elements (`media.c:192`); with more elements this
describes a program that does no harm by storing behind the array. -/
structure St where
  timers : List Int
  ticks : Nat
  deriving DecidableEq, Repr

/-- The conversion of an `uint64_t` to an `int` (`media.c:1316`). -/
def toInt (n : Nat) : Int := let k := n % 4294967296; if k < 2147483648 then k else (k : Int) - 4294967296

/-- Store into the array. -/
def store (timers : List Int) (i : Nat) (v : Int) : Out (List Int) := if i < timers.length then .ok (timers.set i v) else .ub

/-- The loop of `media.c:277-279`: the elements 1 to 100. -/
def resetLoop (timers : List Int) : Nat → Nat → Out (List Int)
  | 0, _ => .ok timers
  | k + 1, i => (store timers i (-1)).bind fun timers => resetLoop timers k (i + 1)

/-- The array of so many elements, zero at first, after `ctr_internal_media_reset` (`media.c:226-280`), which `begin`
calls (`4434`). -/
def begin_ (slots : Nat) : Out St := (resetLoop (List.replicate slots 0) 100 1).bind fun timers => .ok ⟨timers, 0⟩

/-- `ctr_media_timer`, `media.c:1310-1322`. With a number that is no timer there is an error and nothing changes. -/
def setTimer (s : St) (c : Set) : Out St :=
  if c.n < 1 ∨ c.n > 100 then .ok s
  else if c.ms > -1 then (store s.timers c.n.toNat (toInt (s.ticks + c.ms.toNat))).bind fun t => .ok { s with timers := t }
  else (store s.timers c.n.toNat (-1)).bind fun t => .ok { s with timers := t }

/-- Several settings (`media.c:1310-1322`, one after the other). -/
def setAll (s : St) : List Set → Out St
  | [] => .ok s
  | c :: l => (setTimer s c).bind fun s => setAll s l

/-- The loop of `ctr_internal_media_update_timers`, `media.c:1323-1332`, for `k` elements from `i` on: the timers that
fire, in this order. A number that is not negative compares as such with the `uint64_t`. -/
def update (h : Nat → List Set) (s : St) : Nat → Nat → Out (List Nat × St)
  | 0, _ => .ok ([], s)
  | k + 1, i =>
    match s.timers[i]? with
    | none => .ub
    | some v =>
      if v < 0 then update h s k (i + 1)
      else if v.toNat < s.ticks then
        (store s.timers i (-1)).bind fun t => (setAll { s with timers := t } (h i)).bind fun s =>
          (update h s k (i + 1)).bind fun r => .ok (i :: r.1, r.2)
      else update h s k (i + 1)

/-- What happens, one after the other: the times at which timers fired, with their numbers. The time is that of the last
frame (`media.c:1723`); the timers are looked at in `1427-1429`. -/
def run (s : St) : List Op → Out (List (Nat × Nat))
  | [] => .ok []
  | .set c :: l => (setTimer s c).bind fun s => run s l
  | .time t :: l => run { s with ticks := t } l
  | .look h :: l => (update h s 99 1).bind fun r => (run r.2 l).bind fun f => .ok (r.1.map (fun i => (s.ticks, i)) ++ f)

/-- A program from its beginning (`media.c:4434`, then the loop `1401-1757`). -/
def runAll (slots : Nat) (l : List Op) : Out (List (Nat × Nat)) := (begin_ slots).bind fun s => run s l

/-- When a timer fired. -/
def timesOf (n : Nat) (f : List (Nat × Nat)) : List Nat := (f.filter fun x => x.2 == n).map (·.1)

end Verif.Model.Timer
