import Verif.Probe.Spec

/-!
# Drivers of sensors

Files are in `/repo/src/supla/sensor/`: MK `MAX6675_K.cpp`, MT `MAXThermocouple.cpp`, DS `DS18B20.h`, DH `DHT.h`, SH
`SHT3x.h`, SI `Si7021_sonoff.cpp`, BH `bh1750.h`, ML `max44009.h`, BM `BME280.h`, AH `AHT.h`. A reading is `none` if it
is not available (or NaN). The libraries that talk to a chip are not modelled; what they return is given. Products
with 0.25 and 0.1 are left out: temperatures stay whole numbers of quarters or tenths of a degree.
-/

namespace Verif.Probe

/-- `MAX6675_K::spiRead`, MK lines 57-72: the bits are combined by `|`, each at its place. -/
def orBits : List Bool → Nat
  | [] => 0
  | b :: bs => (if b then 2 ^ bs.length else 0) + orBits bs

/-- `MAX6675_K::getValue`, MK lines 26-45, of the 16 bits on the line. -/
def maxK (line : List Bool) : Option Nat :=
  let v := (orBits (line.take 8) * 2 ^ 8 + orBits (line.drop 8)) % 2 ^ 16
  if v / 4 % 2 = 1 then none else some (v / 2 ^ 3)

/-- `MAXThermocouple::spiRead`, MT lines 78-92: `d <<= 1; d |= bit` with a `uint32_t`. -/
def shiftIn (line : List Bool) : Nat := line.foldl (fun d b => (2 * d + if b then 1 else 0) % 2 ^ 32) 0

/-- `MAXThermocouple::getValue`, MT lines 31-66, of an `int32_t`. Shifts to the right round down, `v |= 0xffffc000` sets
all bits above the 14th. -/
def decode (v : Int) : Option Int :=
  if v / 65536 = v % 65536 then
    if (v / 65536) / 4 % 2 = 1 ∨ v / 65536 ≤ 0 then none else some (v / 65536 / 8)
  else if v % 8 ≠ 0 then none
  else if v / 262144 / 8192 % 2 = 1 then some (v / 262144 % 16384 - 16384) else some (v / 262144)

/-- The same of the 32 bits on the line; the `uint32_t` becomes an `int32_t`. -/
def maxBoth (line : List Bool) : Option Int :=
  decode (if shiftIn line < 2 ^ 31 then (shiftIn line : Int) else (shiftIn line : Int) - 2 ^ 32)

/-- The number of failed attempts and the last value. -/
structure Hold (α : Type) where
  retry : Nat
  last : Option α

/-- `getValue`, DS lines 169-181; `getTemp` and `getHumi`, DH lines 46-58 and 68-80: the new state; what is returned is
`last`. -/
def Hold.take {α : Type} (s : Hold α) : Option α → Hold α
  | none => if s.retry + 1 > 3 then ⟨0, none⟩ else ⟨s.retry + 1, s.last⟩
  | some v => ⟨0, some v⟩

/-- `readValuesFromDevice`, SH lines 51-69, and the end of `read`, SI lines 95-106. -/
def Hold.keep {α : Type} (s : Hold α) : Option α → Hold α
  | none => let s' : Hold α := ⟨s.retry + 1, s.last⟩; if s'.retry > 3 then ⟨0, none⟩ else s'
  | some v => ⟨0, some v⟩

/-- `Bh1750::getValue`, BH lines 57-75. -/
def Hold.light {α : Type} (s : Hold α) : Option α → Hold α
  | none => if s.retry + 1 < 4 then ⟨s.retry + 1, s.last⟩ else ⟨0, none⟩
  | some v => ⟨0, some v⟩

/-- `Max44009::getValue`, ML lines 50-63. -/
def Hold.lux {α : Type} (s : Hold α) : Option α → Hold α
  | none => if s.retry < 3 then ⟨s.retry + 1, s.last⟩ else ⟨s.retry, none⟩
  | some v => ⟨0, some v⟩

/-- A history of attempts, newest first. -/
def runs {α : Type} (f : Hold α → Option α → Hold α) : List (Option α) → Hold α
  | [] => ⟨0, none⟩
  | r :: rs => f (runs f rs) r

/-- DS lines 165-167: -127 and 85 degrees are taken as no reading; sixteenths of a degree. -/
def dallas (t : Int) : Option Int := if t = -127 * 16 ∨ t = 85 * 16 then none else some t

/-- BH lines 58-59 and ML lines 51-52: nothing, or a light level that is not above 0, is not taken. -/
def bright : Option Int → Option Int
  | none => none
  | some v => if v ≤ 0 then none else some v

/-- `Si7021Sonoff::read`, SI lines 78-107: of the octets, and of how many bits arrived. `readTemp` and `readHumi` are SI
lines 53-64. -/
def siDecode (count : Nat) (d : List Nat) : Option (Int × Nat) :=
  let a := d.getD 0 0
  let b := d.getD 1 0
  let c := d.getD 2 0
  let e := d.getD 3 0
  if count < 40 ∨ d.getD 4 0 ≠ (a + b + c + e) % 256 then none
  else some ((if c / 128 % 2 = 1 then -1 else 1) * ((c % 128 * 256 + e : Nat) : Int), a * 256 + b)

/-- What a BME280 driver returns. -/
inductive Out | value (v : Rat) | nan | missing
deriving DecidableEq

/-- A reading of the library, `none` for NaN. -/
def Out.of : Option Rat → Out
  | none => .nan
  | some v => .value v

/-- `getTemp`, `getHumi` and the loop of `getPressure`, BM lines 35-49, 51-65, 68-79. `up` is `sensorStatus`, `begin`
what `bme.begin` returns, `r1` and `r2` what the readings return. -/
def bme (up begin : Bool) (r1 r2 : Option Rat) : Out :=
  if !up then (if begin then Out.of r1 else .missing)
  else match r1 with
    | some v => .value v
    | none => if begin then Out.of r2 else .missing

/-- `getPressure`, BM lines 67-84, with an altitude: `seaLevelForAltitude` multiplies by a factor; a missing pressure is
-1. -/
def pressure (factor : Option Rat) (o : Out) : Out :=
  match factor with
  | none => o
  | some k => match o with
    | .value v => .value (k * v)
    | .nan => .nan
    | .missing => .value (k * -1)

/-- `AHT::getTemp`, AH lines 33-52: `getEvent` of the library leaves the event as it is if it fails, and what it returns is
not looked at. The event and the held value. -/
def aht (s : Option Int × Hold Int) (r : Option Int) : Option Int × Hold Int :=
  let ev := match r with
    | some v => some v
    | none => s.1
  (ev, s.2.take ev)

end Verif.Probe
