import Verif.Basic
import Verif.Model.Text

/-!
# Moments (`system.c:724-1490`)

A moment has a time (seconds since 1970) and a zone. The C library functions `localtime` and `mktime` are not part of
`/repo`; they are modelled for zones that have a fixed offset from UTC, given by `Zones`, with the Gregorian calendar.
Zones with daylight saving time are not modelled. Numbers are integers here (in C they are `double`, exact up to
2^53).
-/

namespace Verif.Model.Clock
open Verif.Model

/-- Offset from UTC in seconds of every zone that `TZ` may name. -/
abbrev Zones := Text → Int

/-- A moment: the private properties `time` and `zone`, `system.c:1370-1373`. -/
structure Moment where
  time : Int
  zone : Text
  deriving DecidableEq

/-- `struct tm` of the C library. -/
structure Tm where
  year : Int
  mon : Int
  mday : Int
  hour : Int
  min : Int
  sec : Int
  wday : Int
  yday : Int
  deriving DecidableEq

/-! ## The C library -/

/-- Leap years. -/
def leap (y : Int) : Bool := y % 4 = 0 && (y % 100 ≠ 0 || y % 400 = 0)

/-- Days from 1 January 1970 to 1 January of the year. -/
def yearStart (y : Int) : Int := 365 * (y - 1970) + ((y - 1) / 4 - (y - 1) / 100 + (y - 1) / 400) - 477

/-- Days of the year before the month (counted from 0). -/
def monthStart (lp : Bool) (m : Int) : Int :=
  if m ≤ 0 then 0 else if m = 1 then 31
  else (if m = 2 then 59 else if m = 3 then 90 else if m = 4 then 120 else if m = 5 then 151 else if m = 6 then 181
    else if m = 7 then 212 else if m = 8 then 243 else if m = 9 then 273 else if m = 10 then 304 else 334)
    + (if lp then 1 else 0)

/-- The year of a day, by cycles of 400, 100, 4 years and 1 year counted from the year 1. -/
def yearOf (n : Int) : Int :=
  let d := n + 719162
  let e := d / 146097
  let r := d % 146097
  let c := if r / 36524 > 3 then 3 else r / 36524
  let r := r - 36524 * c
  let q := r / 1461
  let r := r % 1461
  let a := if r / 365 > 3 then 3 else r / 365
  1 + 400 * e + 100 * c + 4 * q + a

/-- The month (counted from 0) of a day of the year. -/
def monthOf (lp : Bool) (yd : Int) : Int :=
  if yd < monthStart lp 1 then 0 else if yd < monthStart lp 2 then 1 else if yd < monthStart lp 3 then 2
  else if yd < monthStart lp 4 then 3 else if yd < monthStart lp 5 then 4 else if yd < monthStart lp 6 then 5
  else if yd < monthStart lp 7 then 6 else if yd < monthStart lp 8 then 7 else if yd < monthStart lp 9 then 8
  else if yd < monthStart lp 10 then 9 else if yd < monthStart lp 11 then 10 else 11

/-- `localtime` without its limits. -/
def breakDown (t : Int) : Tm :=
  let n := t / 86400
  let s := t % 86400
  let y := yearOf n
  let yd := n - yearStart y
  let m := monthOf (leap y) yd
  ⟨y - 1900, m, yd - monthStart (leap y) m + 1, s / 3600, s / 60 % 60, s % 60, (n + 4) % 7, yd⟩

/-- `localtime`; it answers `NULL` if the year is not an `int`, and all callers use the answer. -/
def localtime (z : Zones) (tz : Text) (t : Int) : Out Tm :=
  let d := breakDown (t + z tz)
  if InInt d.year then .ok d else .ub

/-- The day named by a year (since 1900), a month and a day of the month, of any size. -/
def dayOf (year mon mday : Int) : Int :=
  let y := year + 1900 + mon / 12
  yearStart y + monthStart (leap y) (mon % 12) + mday - 1

/-- `mktime` without its limits. -/
def seconds (d : Tm) : Int := dayOf d.year d.mon d.mday * 86400 + d.hour * 3600 + d.min * 60 + d.sec

/-- `mktime`; it answers -1 if the year is not an `int`. -/
def mktime (z : Zones) (tz : Text) (d : Tm) : Int :=
  if InInt (breakDown (seconds d)).year then seconds d - z tz else -1

/-! ## Moments -/

/-- The text `UTC`. -/
def utc : Text := [85, 84, 67]

/-- The parts of a moment. -/
inductive Part where
  | year | month | day | hour | minute | second
  deriving DecidableEq

/-- `ctr_clock_get_time`, `system.c:750-788`, with the parts of `ctr_clock_year`, `system.c:1043-1045`, `ctr_clock_month`,
`system.c:1066-1068`, `ctr_clock_day`, `system.c:1089-1091`, `ctr_clock_hour`, `system.c:1112-1114`, `ctr_clock_minute`,
`system.c:1135-1137`, and `ctr_clock_second`, `system.c:1158-1160`. `tz` is the environment variable `TZ`; the new value is answered along. -/
def getPart (z : Zones) (p : Part) (m : Moment) (_tz : Text) : Out (Int × Text) :=
  (localtime z m.zone m.time).bind fun d =>
    .ok (match p with
      | .year => d.year + 1900
      | .month => d.mon + 1
      | .day => d.mday
      | .hour => d.hour
      | .minute => d.min
      | .second => d.sec, utc)

/-- The assignments of `system.c:810-848`. -/
def assign (p : Part) (v : Int) (d : Tm) : Tm :=
  match p with
  | .year => { d with year := v - 1900, mon := 0, mday := 1, hour := 0, min := 0, sec := 0 }
  | .month => { d with mon := v - 1, mday := 1, hour := 0, min := 0, sec := 0 }
  | .day => { d with mday := v, hour := 0, min := 0, sec := 0 }
  | .hour => { d with hour := v, min := 0, sec := 0 }
  | .minute => { d with min := v, sec := 0 }
  | .second => { d with sec := v }

/-- The value that is converted to `int`, `system.c:812`, `820`, `827`, `833`, `838`, `842`. -/
def converted (p : Part) (v : Int) : Int :=
  match p with
  | .year => v - 1900
  | .month => v - 1
  | _ => v

/-- `ctr_clock_set_time`, `system.c:793-853`, with the parts of `ctr_clock_set_year`, `system.c:905-907`, `ctr_clock_set_month`,
`system.c:928-930`, `ctr_clock_set_day`, `system.c:951-953`, `ctr_clock_set_hour`, `system.c:974-976`, `ctr_clock_set_minute`,
`system.c:997-999`, and `ctr_clock_set_second`, `system.c:1020-1022`. Converting a number that is not an `int` is undefined. -/
def setPart (z : Zones) (p : Part) (v : Int) (m : Moment) (_tz : Text) : Out (Moment × Text) :=
  (localtime z m.zone m.time).bind fun d =>
    if InInt (converted p v) then .ok ({ m with time := mktime z m.zone (assign p v d) }, utc) else .ub

/-- `ctr_clock_set_zone`, `system.c:864-867`. -/
def setZone (zone : Text) (m : Moment) : Moment := { m with zone := zone }

/-- `ctr_clock_yearday`, `system.c:1171-1180`: `TZ` is not set before. -/
def yearday (z : Zones) (m : Moment) (tz : Text) : Out (Int × Text) :=
  (localtime z tz m.time).bind fun d => .ok (d.yday, tz)

/-- `ctr_clock_weekday`, `system.c:1190-1199`: `TZ` is not set before. -/
def weekday (z : Zones) (m : Moment) (tz : Text) : Out (Int × Text) :=
  (localtime z tz m.time).bind fun d => .ok (d.wday + 1, tz)

/-- `ctr_clock_copy`, `system.c:1226-1240`. -/
def copy (m : Moment) : Moment := ⟨m.time, m.zone⟩

/-- `ctr_clock_equals`, `system.c:1257-1271`. The argument is `none` if it is not a moment: then there is no time and
`ctr_internal_cast2number` (`world.c:436-439`) uses address 0. -/
def equals (m : Moment) (o : Option Moment) : Out Bool :=
  match o with
  | none => .ub
  | some o =>
    if m.time = o.time then do
      let r ← Txt.strncmp m.zone o.zone m.zone.length
      .ok (r == .eq)
    else .ok false

/-- `ctr_clock_neq`, `system.c:1288-1292`. -/
def neq (m : Moment) (o : Option Moment) : Out Bool := do
  let b ← equals m o
  .ok (!b)

/-- Units of time, in the order in which `ctr_clock_change` looks for them. -/
inductive Unit' where
  | hour | minute | second | day | month | year | week
  deriving DecidableEq

/-- The words for the units in a language. -/
structure Words where
  hour : Text
  minute : Text
  second : Text
  day : Text
  month : Text
  year : Text
  week : Text

/-- `strncmp( unit, WORD, l ) == 0` with `l` the length of the unit; the word ends with a NUL byte. -/
def startsWord (unit word : Text) : Bool := Txt.strncmp unit (word ++ [0]) unit.length == .ok .eq

/-- The unit meant by a qualifier, `system.c:1409-1423`. -/
def unitOf (w : Words) (q : Text) : Option Unit' :=
  if startsWord q w.hour then some .hour
  else if startsWord q w.minute then some .minute
  else if startsWord q w.second then some .second
  else if startsWord q w.day then some .day
  else if startsWord q w.month then some .month
  else if startsWord q w.year then some .year
  else if startsWord q w.week then some .week
  else none

/-- The field that is changed, and its new value. -/
def moveField (u : Unit') (n : Int) (d : Tm) : Int :=
  match u with
  | .hour => d.hour + n
  | .minute => d.min + n
  | .second => d.sec + n
  | .day => d.mday + n
  | .month => d.mon + n
  | .year => d.year + n
  | .week => d.mday + n * 7

/-- The change of the broken-down time, `system.c:1409-1423`. -/
def moveTm (u : Unit') (n : Int) (d : Tm) : Tm :=
  match u with
  | .hour => { d with hour := moveField u n d }
  | .minute => { d with min := moveField u n d }
  | .second => { d with sec := moveField u n d }
  | .day => { d with mday := moveField u n d }
  | .month => { d with mon := moveField u n d }
  | .year => { d with year := moveField u n d }
  | .week => { d with mday := moveField u n d }

/-- `ctr_clock_change`, `system.c:1378-1428`. The qualifier is `none` if the number has none. -/
def change (z : Zones) (w : Words) (forward : Bool) (n : Int) (q : Option Text) (m : Moment) (tz : Text) :
    Out (Moment × Text) :=
  let n := n * (if forward then 1 else -1)
  match q with
  | none => .ok (m, tz)
  | some q =>
    (localtime z m.zone m.time).bind fun d =>
      match unitOf w q with
      | none => .ok ({ m with time := mktime z m.zone d }, utc)
      | some u =>
        if InInt (moveField u n d) then .ok ({ m with time := mktime z m.zone (moveTm u n d) }, utc) else .ub

/-- `ctr_clock_add`, `system.c:1450-1452`. -/
def add (z : Zones) (w : Words) (n : Int) (q : Option Text) (m : Moment) (tz : Text) : Out (Moment × Text) :=
  change z w true n q m tz

/-- `ctr_clock_subtract`, `system.c:1474-1476`. -/
def subtract (z : Zones) (w : Words) (n : Int) (q : Option Text) (m : Moment) (tz : Text) : Out (Moment × Text) :=
  change z w false n q m tz

end Verif.Model.Clock
