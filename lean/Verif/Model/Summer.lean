import Verif.Model.Clock

/-!
# Moments in zones with summer time

The functions of `Verif.Model.Clock` that depend on the zone, for zones whose clocks are put forward for a part of the
year. `localtime` then also answers whether there is summer time (`tm_isdst`), and `mktime` uses that field: if it is
negative, it finds out by itself; otherwise the time is counted with the offset the field tells, even if the field does
not fit the date (as glibc does, if the zone has both kinds of time).
-/

namespace Verif.Model.Summer
open Verif Verif.Model Verif.Model.Clock

/-- A zone: its offset to UTC in seconds, by how much the clocks are put forward, and when (a function of the point in
time). Simplification: the two offsets of the zone never change. -/
structure Zone where
  std : Int
  save : Int
  summer : Int → Bool

/-- The offset if there is summer time, and if there is not. -/
def Zone.offset (z : Zone) (summer : Bool) : Int := if summer then z.std + z.save else z.std

/-- The offset at a point in time. -/
def Zone.off (z : Zone) (t : Int) : Int := z.offset (z.summer t)

/-- `localtime`: the broken-down time and `tm_isdst`. As in `Clock.localtime`, it answers `NULL` if the year is not an
`int`, and all callers use the answer. -/
def localtime (z : Zone) (t : Int) : Out (Tm × Bool) :=
  let d := breakDown (t + z.off t)
  if InInt d.year then .ok (d, z.summer t) else .ub

/-- `mktime`. With a known `tm_isdst` the offset is the one it tells. With a negative one (`none`) the point in time is
looked for at which the zone shows the time; `pick` tells which offset is taken if there are two such points, or none. As
in `Clock.mktime`, the answer is -1 if the year is not an `int`; simplification: the year before summer time is taken into
account. -/
def mktime (z : Zone) (pick : Int → Bool) (d : Tm) (isdst : Option Bool) : Int :=
  let s := seconds d
  if InInt (breakDown s).year then
    match isdst with
    | some b => s - z.offset b
    | none =>
      let winter := s - z.offset false
      let summer := s - z.offset true
      if z.summer winter = z.summer summer then s - z.offset (z.summer winter)
      else s - z.offset (pick s)
  else -1

/-- `ctr_clock_get_time`, `system.c:750-788`. -/
def getPart (z : Text → Zone) (p : Part) (m : Moment) (_tz : Text) : Out (Int × Text) :=
  (localtime (z m.zone) m.time).bind fun (d, _) =>
    .ok (match p with
      | .year => d.year + 1900
      | .month => d.mon + 1
      | .day => d.mday
      | .hour => d.hour
      | .minute => d.min
      | .second => d.sec, utc)

/-- `ctr_clock_set_time`, `system.c:793-853`: `tm_isdst` becomes -1 in line 844. -/
def setPart (z : Text → Zone) (pick : Int → Bool) (p : Part) (v : Int) (m : Moment) (_tz : Text) : Out (Moment × Text) :=
  (localtime (z m.zone) m.time).bind fun (d, _) =>
    if InInt (converted p v) then .ok ({ m with time := mktime (z m.zone) pick (assign p v d) none }, utc) else .ub

/-- `ctr_clock_change`, `system.c:1378-1428`: `tm_isdst` stays as `localtime` has left it. -/
def change (z : Text → Zone) (pick : Int → Bool) (w : Words) (forward : Bool) (n : Int) (q : Option Text) (m : Moment)
    (tz : Text) : Out (Moment × Text) :=
  let n := n * (if forward then 1 else -1)
  match q with
  | none => .ok (m, tz)
  | some q =>
    (localtime (z m.zone) m.time).bind fun (d, b) =>
      match unitOf w q with
      | none => .ok ({ m with time := mktime (z m.zone) pick d (some b) }, utc)
      | some u =>
        if InInt (moveField u n d) then
          .ok ({ m with time := mktime (z m.zone) pick (moveTm u n d) (some b) }, utc)
        else .ub

/-- `ctr_clock_add`, `system.c:1450-1452`. -/
def add (z : Text → Zone) (pick : Int → Bool) (w : Words) (n : Int) (q : Option Text) (m : Moment) (tz : Text) :
    Out (Moment × Text) :=
  change z pick w true n q m tz

/-- `ctr_clock_subtract`, `system.c:1474-1476`. -/
def subtract (z : Text → Zone) (pick : Int → Bool) (w : Words) (n : Int) (q : Option Text) (m : Moment) (tz : Text) :
    Out (Moment × Text) :=
  change z pick w false n q m tz

end Verif.Model.Summer
