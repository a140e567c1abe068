/-!
# Date and time of the device

Clock with and without a clock chip. Files of `/repo/src/supla`: C `clock/clock.cpp`, R `clock/DS3231RTC.h` (`clock/DS1307RTC.h`
is the same but for the name of the flag of the chip), P `network/html/time_parameters.cpp`, D `../SuplaDevice.cpp`.

`mktime` and `localtime_r` are functions of the C library. They are modelled for 64-bit times, the proleptic Gregorian calendar
and no time zone (the device sets none; the server sends local time). Linux, where the time is not set (C 287-288), is left out.
-/

namespace Verif.Calendar

/-- `struct tm` and `TSDC_UserLocalTimeResult`, /repo/src/supla-common/proto.h lines 2482-2493, with the full year and months from 1. -/
structure Stamp where
  year : Int
  month : Int
  day : Int
  hour : Int
  min : Int
  sec : Int
deriving DecidableEq, Repr

/-! ## The C library -/

/-- Leap years. -/
def leap (y : Int) : Bool := y % 4 == 0 && (y % 100 != 0 || y % 400 == 0)

/-- Days from 1970 to the year `y`. -/
def yearDays (y : Int) : Int := 365 * (y - 1970) + (y - 1) / 4 - (y - 1) / 100 + (y - 1) / 400 - 477

/-- Days in the year before month `m` (from 0). -/
def monthDays (l : Bool) (m : Int) : Int :=
  (if m ≤ 0 then 0 else if m = 1 then 31 else if m = 2 then 59 else if m = 3 then 90 else if m = 4 then 120 else if m = 5 then 151
   else if m = 6 then 181 else if m = 7 then 212 else if m = 8 then 243 else if m = 9 then 273 else if m = 10 then 304 else 334)
  + (if l = true ∧ 2 ≤ m then 1 else 0)

/-- `mktime`: values outside their range are carried over. -/
def mktime (t : Stamp) : Int :=
  let m := 12 * t.year + (t.month - 1)
  (yearDays (m / 12) + monthDays (leap (m / 12)) (m % 12) + (t.day - 1)) * 86400 + t.hour * 3600 + t.min * 60 + t.sec

/-- The year of a day, from an estimate. -/
def yearOf (d : Int) : Int :=
  let y := 400 * d / 146097 + 1970
  if d < yearDays y then y - 1 else if yearDays (y + 1) ≤ d then y + 1 else y

/-- The month (from 0) of a day of the year. -/
def monthOf (l : Bool) (d : Int) : Int :=
  if d < monthDays l 1 then 0 else if d < monthDays l 2 then 1 else if d < monthDays l 3 then 2 else if d < monthDays l 4 then 3
  else if d < monthDays l 5 then 4 else if d < monthDays l 6 then 5 else if d < monthDays l 7 then 6 else if d < monthDays l 8 then 7
  else if d < monthDays l 9 then 8 else if d < monthDays l 10 then 9 else if d < monthDays l 11 then 10 else 11

/-- `localtime_r`. -/
def localtime (n : Int) : Stamp :=
  let y := yearOf (n / 86400)
  let d := n / 86400 - yearDays y
  let m := monthOf (leap y) d
  { year := y, month := m + 1, day := d - monthDays (leap y) m + 1, hour := n % 86400 / 3600, min := n % 3600 / 60, sec := n % 60 }

/-- `tm_wday`: 0 is Sunday; 1 January 1970 was a Thursday. -/
def weekDay (n : Int) : Int := (n / 86400 + 4) % 7

/-! ## The device -/

/-- A clock chip (R 121-123): its time, whether it is found by `begin`, and its own flag that it lost power. -/
structure Chip where
  time : Int
  found : Bool
  lost : Bool
deriving DecidableEq, Repr

/-- The clock: `time(0)`, `isClockReady`, and the chip if there is one. -/
structure Dev where
  sys : Int
  ready : Bool
  chip : Option Chip
deriving DecidableEq, Repr

/-- `getYear` to `getSec` when the clock is ready, C 36-111 and 129-189. -/
def shown (s : Dev) : Option Stamp := if s.ready then some (localtime s.sys) else none

/-- `getHvacDayOfWeek`, C 152-162. -/
def hvacDay (s : Dev) : Int := weekDay s.sys

/-- `getQuarter` and `getHour`, C 164-174: the quarter of the day. -/
def quarter (s : Dev) : Int := (localtime s.sys).hour * 4 + (localtime s.sys).min / 15

/-- `Clock::parseLocaltimeFromServer` and `setSystemTime`, C 196-211 and 277-298. -/
def parseBase (t : Stamp) (s : Dev) : Dev := { s with sys := if mktime t = 0 then s.sys else mktime t, ready := true }

/-- R 110-114: whether the chip is left alone. -/
def near (a b : Stamp) : Bool :=
  a.year == b.year && a.month == b.month && a.day == b.day && a.hour == b.hour && a.min == b.min && decide (a.sec - b.sec ≤ 5) && decide (-5 ≤ a.sec - b.sec)

/-- `DS3231RTC::parseLocaltimeFromServer`, R 84-118. Setting the chip clears its flag (the library does). -/
def parseChip (t : Stamp) (c : Chip) (s : Dev) : Dev :=
  { sys := mktime t, ready := true,
    chip := some (if c.found && !near (localtime c.time) (localtime (mktime t)) then { c with time := mktime t, lost := false } else c) }

/-- The virtual function. -/
def parse (t : Stamp) (s : Dev) : Dev :=
  match s.chip with
  | none => parseBase t s
  | some c => parseChip t c s

/-- `handleResponse`, P 140-190: `t` is what `strptime` made of the text, `none` if it failed. -/
def page (t : Option Stamp) (s : Dev) : Dev :=
  match t with
  | none => s
  | some t =>
    if t.year < 2023 ∨ t.year > 2099 then s
    else if t.month < 1 ∨ t.month > 12 then s
    else if t.day < 1 ∨ t.day > 31 then s
    else if t.hour < 0 ∨ t.hour > 23 then s
    else if t.min < 0 ∨ t.min > 59 then s
    else if t.sec < 0 ∨ t.sec > 59 then s
    else parse t s

/-- Size of `TSDC_UserLocalTimeResult`: 12 bytes and the 51 of the time zone (proto.h lines 2482-2493, 50). -/
def requestSize : Nat := 63

/-- The command to set the time, D 850-865; `t` is read from the data, which are zero beyond their size (srpc.c lines 1115-1116). -/
def command (type size : Nat) (t : Stamp) (s : Dev) : Dev × Bool :=
  if type ≠ 0 ∧ size ≠ requestSize then (s, false) else (parse t s, true)

/-- `DS3231RTC::onInit`, R 38-70, or a start without a chip. `sys` is what `time(0)` is at the start. -/
def start (sys : Int) (c : Option Chip) : Dev :=
  match c with
  | none => ⟨sys, false, none⟩
  | some c =>
    if c.found then ⟨mktime (localtime c.time), decide ((localtime (mktime (localtime c.time))).year ≥ 2023), some c⟩ else ⟨sys, false, some c⟩

/-- What happens: a message of the server, `n` seconds pass, the chip runs `k` seconds ahead, the chip loses power and shows `x`
afterwards, the device restarts. -/
inductive Op
  | server (t : Stamp)
  | tick (n : Nat)
  | drift (k : Int)
  | lose (x : Int)
  | restart (sys : Int)

/-- One operation. -/
def step (s : Dev) : Op → Dev
  | .server t => parse t s
  | .tick n => { s with sys := s.sys + n, chip := s.chip.map (fun c => { c with time := c.time + n }) }
  | .drift k => { s with chip := s.chip.map (fun c => { c with time := c.time + k }) }
  | .lose x => { s with chip := s.chip.map (fun c => { c with time := x, lost := true }) }
  | .restart sys => start sys s.chip

end Verif.Calendar
