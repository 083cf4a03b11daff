import Verif.Model.Clock

/-!
# Moments as texts, numbers and weeks (`system.c:740-745`, `879-881`, `1209-1215`, `1303-1366`)

`strftime` of the C library is not part of `/repo`; it is modelled for the conversions that the files `i18n/*/msg.h` use.
`citrine.c` does not call `setlocale`, so the locale is "C".
-/

namespace Verif.Model.Clock
open Verif.Model

/-- A piece of a date format: the conversions `%Y`, `%m`, `%d`, `%H`, `%I`, `%M`, `%S`, `%p`, or a byte that stands for
itself. Formats are the macro `CTR_STDDATEFRMT` of `i18n/*/msg.h`. -/
inductive Piece where
  | year | month | day | hour | hour12 | minute | second | half
  | byte (c : UInt8)
  deriving DecidableEq

/-- Two decimal digits. -/
def two (n : Int) : Text := [UInt8.ofNat (48 + (n / 10 % 10).toNat), UInt8.ofNat (48 + (n % 10).toNat)]

/-- One piece, as `strftime` writes it. `yr` is how the C library writes a year (libraries differ in the number of digits
for years before 1000). -/
def piece (yr : Int → Text) (d : Tm) : Piece → Text
  | .year => yr (d.year + 1900)
  | .month => two (d.mon + 1)
  | .day => two d.mday
  | .hour => two d.hour
  | .hour12 => two (if d.hour % 12 = 0 then 12 else d.hour % 12)
  | .minute => two d.min
  | .second => two d.sec
  | .half => if d.hour < 12 then [65, 77] else [80, 77]
  | .byte c => [c]

/-- `strftime( description, 40, format, date )`: without room for the text and its NUL byte the contents of the array are
unspecified, and they are used all the same (`system.c:1342`, `1344`). -/
def strftime (yr : Int → Text) (room : Nat) (fmt : List Piece) (d : Tm) : Out Text :=
  let t := fmt.flatMap (piece yr d)
  if t.length < room then .ok t else .ub

/-- `ctr_clock_to_string`, `system.c:1325-1348`. -/
def toText (z : Zones) (yr : Int → Text) (fmt : List Piece) (m : Moment) (_tz : Text) : Out (Text × Text) :=
  (localtime z m.zone m.time).bind fun d => (strftime yr 40 fmt d).bind fun t => .ok (t, utc)

/-- `ctr_clock_week`, `system.c:1303-1315`: `TZ` is not set before. `%W` writes two digits, and the text is read back as a
number; the model goes directly to the number. -/
def week (z : Zones) (m : Moment) (tz : Text) : Out (Int × Text) :=
  (localtime z tz m.time).bind fun d => .ok ((d.yday + 7 - (d.wday + 6) % 7) / 7, tz)

/-- `ctr_clock_time`, `system.c:1209-1215`. -/
def time (m : Moment) : Int := m.time

/-- `ctr_clock_get_zone`, `system.c:879-881`. -/
def zone (m : Moment) : Text := m.zone

/-- `ctr_clock_init`, `system.c:1370-1373`, called by `ctr_clock_new`, `system.c:1484-1490`: `now` is the time of the
system and `std` the zone of the language (`CTR_STDTIMEZONE`). -/
def new (now : Int) (std : Text) : Moment := ⟨now, std⟩

/-- `ctr_clock_new_set`, `system.c:740-745`: the new property is found before the one of `ctr_clock_init`. -/
def newSet (now : Int) (std : Text) (n : Int) : Moment := { new now std with time := n }

/-- What the messages of a moment do, as far as it matters for `number`. -/
inductive Msg where
  | time | part (p : Part) | weekday | yearday | week | other
  deriving DecidableEq

/-- The messages of moments in a language, in the order in which they are registered, `world.c:974-1002`. -/
abbrev Registered := List (Text × Msg)

/-- The message that a word names. New messages are put in front of the list and the search takes the first one
(`ctr_internal_object_add_property`, `world.c:226-257`), so the one registered last is found. -/
def named (r : Registered) (w : Text) : Option Msg := (r.reverse.find? (fun e => e.1 = w)).map (·.2)

/-- What `number` answers: a number, the moment itself, or something this model does not describe. -/
inductive Answer where
  | number (n : Int)
  | itself
  | unknown
  deriving DecidableEq

/-- The word `time` in `system.c:1361`. -/
def timeWord : Text := [116, 105, 109, 101]

/-- `ctr_clock_to_number`, `system.c:1360-1362`: sends the message `time`, in every language. A message that is not
understood is answered by the object itself (`ctr_object_respond`, `base.c:515-517`). -/
def toNumber (z : Zones) (r : Registered) (m : Moment) (tz : Text) : Out (Answer × Text) :=
  match named r timeWord with
  | none => .ok (.itself, tz)
  | some .time => .ok (.number (time m), tz)
  | some (.part p) => (getPart z p m tz).bind fun (n, tz) => .ok (.number n, tz)
  | some .weekday => (weekday z m tz).bind fun (n, tz) => .ok (.number n, tz)
  | some .yearday => (yearday z m tz).bind fun (n, tz) => .ok (.number n, tz)
  | some .week => (week z m tz).bind fun (n, tz) => .ok (.number n, tz)
  | some .other => .ok (.unknown, tz)

end Verif.Model.Clock
