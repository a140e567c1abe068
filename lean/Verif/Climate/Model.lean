import Mathlib.Data.Rat.Floor
import Verif.Common.Clock

/-!
# Thermometers and hygrometers: from the reading to the reported value

Files of `/repo/src/supla`: C `channels/channel.cpp`, K `correction.cpp`, T `sensor/therm_hygro_meter.cpp`, D `sensor/DHT.h`,
A `sensor/AHT.h`, B `sensor/BME280.h`.

Numbers of type `double` are rational numbers or "not a number" (`none`); the rounding of the last bit is left out. The libraries
of the sensors are not part of the repository: what they return is arbitrary.
-/

namespace Verif.Climate
open Verif

/-- A `double`: `none` is "not a number". -/
abbrev Num := Option Rat

/-- `TEMPERATURE_NOT_AVAILABLE`, `sensor/thermometer_driver.h` line 26. -/
def noTemp : Rat := -275
/-- `HUMIDITY_NOT_AVAILABLE`, `sensor/therm_hygro_meter.h` line 25. -/
def noHumi : Rat := -1
/-- `PRESSURE_NOT_AVAILABLE`, `sensor/therm_hygro_press_meter.h` line 24. -/
def noPress : Rat := -1

/-! ## Corrections -/

/-- The list of `Correction` objects: number of the channel, second value, correction. -/
abbrev Table := List ((Nat × Bool) × Rat)

/-- `getChannelNumber` as `uint8_t` (K 45; C 146, 182, 186). -/
def key (n : Int) (second : Bool) : Nat × Bool := ((n % 256).toNat, second)

/-- `Correction::get`, K 32-52. -/
def get : Table → Nat × Bool → Rat
  | [], _ => 0
  | (k, c) :: l, q => if k = q then c else get l q

/-- `Correction::add`, K 21-30 and 54-69. -/
def add : Table → Nat × Bool → Rat → Table
  | [], q, c => [(q, c)]
  | (k, d) :: l, q, c => if k = q then (k, c) :: l else (k, d) :: add l q c

/-- `Channel::setCorrection`, C 659-661. -/
def setCorrection (t : Table) (n : Int) (second : Bool) (c : Rat) : Table := add t (key n second) c

/-- `readCorrectionFromIndex`, T 130-148: the stored tenths, limited. -/
def limit (c : Int) : Int := if c < -500 then -500 else if c > 500 then 500 else c

/-- `onLoadConfig`, T 94-105: the stored corrections are put into effect (thermometers have the second one too). -/
def load (t : Table) (n : Int) (ct ch : Int) : Table := setCorrection (setCorrection t n false (limit ct / 10)) n true (limit ch / 10)

/-! ## The channel -/

/-- Types of channels that matter here. -/
inductive Kind
  | thermometer
  | climate
  | pressure
deriving DecidableEq, Repr

/-- The sum with "not a number". -/
def plus (x : Num) (c : Rat) : Num := x.map (· + c)

/-- `x <= y`, false for "not a number". -/
def leq (x : Num) (y : Rat) : Bool := match x with | none => false | some x => decide (x ≤ y)

/-- `x < y`, false for "not a number". -/
def less (x : Num) (y : Rat) : Bool := match x with | none => false | some x => decide (x < y)

/-- `setNewValue(double)`, C 136-154: what the channel holds. -/
def single (k : Kind) (t : Table) (n : Int) (x : Num) : Num :=
  if k = .thermometer ∧ leq x (-273) = true then x else plus x (get t (key n false))

/-- Conversion to an integer, towards zero. -/
def trunc (x : Rat) : Int := if 0 ≤ x then ⌊x⌋ else -⌊-x⌋

/-- Conversion to `int32_t`: undefined (`none`) for "not a number" and beyond the range. -/
def toInt32 (x : Num) : Option Int :=
  match x with
  | none => none
  | some x => if -2147483649 < x ∧ x < 2147483648 then some (trunc x) else none

/-- C 180-183. -/
def temp (t : Table) (n : Int) (x : Num) : Num := if leq x (-273) then x else plus x (get t (key n false))

/-- C 188-195: the limits apply when there is a correction. -/
def bounded (c : Rat) (h : Num) : Num :=
  if c > 1 / 100 ∨ c < -1 / 100 then (if less h 0 then some 0 else if less (h.map (- ·)) (-100) then some 100 else h) else h

/-- C 185-196. -/
def humi (t : Table) (n : Int) (h : Num) : Num :=
  if less h 0 then h else bounded (get t (key n true)) (plus h (get t (key n true)))

/-- `setNewValue(temp, humi)`, C 167-203, for channels of type "humidity and temperature": the two integers in the channel,
thousandths; `none` when the behaviour is undefined. -/
def pair (t : Table) (n : Int) (x h : Num) : Option (Int × Int) :=
  match toInt32 ((temp t n x).map (· * 1000)), toInt32 ((humi t n h).map (· * 1000)) with
  | some a, some b => some (a, b)
  | _, _ => none

/-- `getTempInt16` and `getHumiInt16`, T 44-78, of what the channel holds: hundredths, -32768 for "not available". -/
def int16 (na x : Rat) : Int :=
  if x ≤ na then -32768 else if x * 100 > 32767 then 32767 else if x * 100 ≤ -32768 then -32767 else trunc (x * 100)

/-! ## DHT and AHT: up to three failures are bridged -/

/-- `lastValidTemp` and `retryCountTemp`, D 83-87 (the same for humidity); `none` is "not available". -/
structure Bridge where
  last : Option Rat
  count : Nat
deriving DecidableEq, Repr

/-- D 39-59 (and A 36-50): one reading; `none` is "not a number". The value returned is `last`. `na` is the value for "not available". -/
def bridge (na : Rat) (s : Bridge) (r : Num) : Bridge :=
  let value := if r = some na then none else r
  match value with
  | none => if s.count + 1 > 3 then ⟨none, 0⟩ else ⟨s.last, s.count + 1⟩
  | some v => ⟨some v, 0⟩

/-- A history of readings of a DHT. -/
def dht (na : Rat) (rs : List Num) : Bridge := rs.foldl (bridge na) ⟨none, 0⟩

/-- AHT: `temp` (A 80), what the library wrote last, and the bridge. -/
structure Aht where
  event : Num
  b : Bridge
deriving DecidableEq, Repr

/-- A 33-52: the result of `getEvent` is not looked at; a failed call (`none`) leaves the event as it is. -/
def ahtStep (s : Aht) (r : Option Num) : Aht :=
  let e := r.getD s.event
  ⟨e, bridge noTemp s.b e⟩

/-- A history of readings of an AHT. -/
def aht (first : Num) (rs : List (Option Num)) : Aht := rs.foldl ahtStep ⟨first, ⟨none, 0⟩⟩

/-! ## BME280 -/

/-- What the library does in one call: results of two calls of `begin`, and of two readings. -/
structure Lib where
  begin1 : Bool
  read1 : Num
  begin2 : Bool
  read2 : Num

/-- `getTemp`, `getHumi` and the loop of `getPressure`, B 35-84: the new `sensorStatus` and the value. -/
def bme (na : Rat) (ok : Bool) (l : Lib) : Bool × Num :=
  let ok1 := if ok then true else l.begin1
  let v1 : Num := if ok1 then l.read1 else some na
  if v1 = none ∧ ok = true then (l.begin2, if l.begin2 then l.read2 else some na) else (ok1, v1)

/-- `getPressure`, B 67-84: with an altitude the value is converted by `sea` (the library: pressure at sea level). -/
def pressure (sea : Option (Rat → Rat)) (ok : Bool) (l : Lib) : Num :=
  match sea with
  | none => (bme noPress ok l).2
  | some f => (bme noPress ok l).2.map f

/-! ## When the sensor is read -/

/-- `lastReadTime`. -/
structure Poll where
  last : Nat
deriving DecidableEq, Repr

/-- `iterateAlways`, T 80-85: whether the sensor is read at time `now` (real time in ms). -/
def due (interval : Nat) (s : Poll) (now : Nat) : Bool := decide (since (clk now) s.last > interval)

/-- One pass. -/
def iterate (interval : Nat) (s : Poll) (now : Nat) : Poll := if due interval s now then ⟨clk now⟩ else s

end Verif.Climate
