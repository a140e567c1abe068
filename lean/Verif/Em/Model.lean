import Verif.Common.Clock

/-!
# Electricity meter: what is reported

Model of `/repo/src/supla/sensor/electricity_meter.cpp` (cited as M), from the setters that a driver calls to the
value that the server and MQTT read.

Simplified: the three powers (active, reactive, apparent) are handled by three copies of the same code, one is
modelled; the quantities without scale (voltage, frequency, energies) are stored as they are set and are left out.
-/

namespace Verif.Em

/-- Conversion of a 64-bit to a 32-bit signed number (on every supported compiler the low 32 bits). -/
def toI32 (x : Int) : Int := (x + 2147483648) % 4294967296 - 2147483648

/-- The state: three raw currents in 0.001 A (`rawCurrent`), three raw powers in 0.00001 W (`rawActivePower`),
which of them were set, and the value prepared for the channel: currents, powers and the four bits of
`measured_values` that tell their scale. -/
structure S where
  current : List Nat := [0, 0, 0]
  power : List Int := [0, 0, 0]
  /-- `currentMeasurementAvailable` -/
  currentSet : Bool := false
  /-- `powerActiveMeasurementAvailable` -/
  powerSet : Bool := false
  outCurrent : List Nat := [0, 0, 0]
  outPower : List Int := [0, 0, 0]
  /-- `EM_VAR_CURRENT` -/
  bitA : Bool := false
  /-- `EM_VAR_CURRENT_OVER_65A` -/
  bitA65 : Bool := false
  /-- `EM_VAR_POWER_ACTIVE` -/
  bitW : Bool := false
  /-- `EM_VAR_POWER_ACTIVE_KW` -/
  bitKW : Bool := false
  /-- some bit of `measured_values` other than these -/
  others : Bool := false
deriving DecidableEq, Repr

/-- What the driver does. -/
inductive Op where
  | setCurrent (phase : Nat) (v : Nat)
  | setPower (phase : Nat) (v : Int)
  | setOther
  | reset
  | resetPhase (phase : Nat)
  | update
deriving DecidableEq, Repr

/-- The limit of a current (M 51-58). -/
def capCurrent (r : Nat) : Nat := if r > 65534 then if r / 10 > 65535 then 655350 else r else r

/-- The limit of a power (M 59-68). -/
def capPower (r : Int) : Int :=
  if r > 2147483647 ∨ r < -2147483648 then
    if r.tdiv 1000 > 2147483647 then (if r < 0 then -1 else 1) * 2147483647 * 1000 else r
  else r

/-- Does the current need the coarse scale (M 51-52)? -/
def over (l : List Nat) : Bool := l.any (· > 65534)

/-- Does the power need the coarse scale (M 59-61)? -/
def overKW (l : List Int) : Bool := l.any fun r => r > 2147483647 ∨ r < -2147483648

/-- `updateChannelValues` (M 45-131), without the part about the time. -/
def update (s : S) : S :=
  { s with
    current := s.current.map capCurrent
    power := s.power.map capPower
    outCurrent := (s.current.map capCurrent).map fun r => if over s.current then r / 10 % 65536 else r % 65536
    outPower := (s.power.map capPower).map fun r => if overKW s.power then toI32 (r.tdiv 1000) else toI32 r
    bitA := if s.currentSet then !over s.current else s.bitA
    bitA65 := if s.currentSet then over s.current else s.bitA65
    bitW := if s.powerSet then !overKW s.power else s.bitW
    bitKW := if s.powerSet then overKW s.power else s.bitKW }

/-- `setCurrent` (M 241-251). -/
def setCurrent (p v : Nat) (s : S) : S :=
  if p < 3 then { s with current := s.current.set p v, currentSet := true } else s

/-- `setPowerActive` (M 264-273). -/
def setPower (p : Nat) (v : Int) (s : S) : S :=
  if p < 3 then { s with power := s.power.set p v, powerSet := true } else s

/-- `resetReadParameters` (M 327-342). -/
def reset (s : S) : S :=
  if s.bitA ∨ s.bitA65 ∨ s.bitW ∨ s.bitKW ∨ s.others then
    { s with current := [0, 0, 0], power := [0, 0, 0], currentSet := false, powerSet := false, outCurrent := [0, 0, 0], outPower := [0, 0, 0] }
  else s

/-- `resetReadParametersForPhase` (M 344-360). -/
def resetPhase (p : Nat) (s : S) : S :=
  if p < 3 then
    { s with current := s.current.set p 0, power := s.power.set p 0, outCurrent := s.outCurrent.set p 0, outPower := s.outPower.set p 0 }
  else s

/-- One step. -/
def step (s : S) : Op → S
  | .setCurrent p v => setCurrent p v s
  | .setPower p v => setPower p v s
  | .setOther => { s with others := true }
  | .reset => reset s
  | .resetPhase p => resetPhase p s
  | .update => update s

/-- A history. -/
def run (ops : List Op) (s : S) : S := ops.foldl step s

/-! ## What a reader makes of it -/

/-- The current of a phase in 0.001 A as the server reads it (`proto.h` 1814-1815; M 910-920). -/
def readCurrent (s : S) (p : Nat) : Nat := s.outCurrent.getD p 0 * (if s.bitA65 then 10 else 1)

/-- The power of a phase in 0.00001 W as the server reads it (`proto.h` 1816-1817). -/
def readPower (s : S) (p : Nat) : Int := s.outPower.getD p 0 * (if s.bitKW then 1000 else 1)

/-- The function `getPowerActive` that MQTT uses (M 929-939); the product is of two `int`s, `none` is an overflow
(undefined). -/
def getPower (s : S) (p : Nat) : Option Int :=
  if s.bitKW then
    if s.outPower.getD p 0 * 1000 > 2147483647 ∨ s.outPower.getD p 0 * 1000 < -2147483648 then none
    else some (s.outPower.getD p 0 * 1000)
  else some (s.outPower.getD p 0)

/-- `isPowerActiveUsed`, which MQTT asks first (M 1031-1034, `mqtt.cpp` 748). -/
def powerUsed (s : S) : Bool := s.bitW

/-- `isCurrentUsed` (M 1020-1024). -/
def currentUsed (s : S) : Bool := s.bitA || s.bitA65

/-! ## Publication -/

/-- The part of `updateChannelValues` and `iterateAlways` about the time (M 40-43, 152-157, 668-674). `cur` is the
measured value, `pub` the one last given to the channel; `pubAt`, when that was, is not in the program. -/
structure P where
  now : Nat := 0
  lastRead : Nat := 0
  lastUpd : Nat := 0
  changed : Bool := false
  cur : Nat := 0
  pub : Option Nat := none
  pubAt : Nat := 0
deriving DecidableEq, Repr

/-- `updateChannelValues`. -/
def publish (rate : Nat) (s : P) : P :=
  if s.changed = false ∧ s.lastUpd ≠ 0 then s
  else if s.lastUpd = 0 ∨ since (clk s.now) s.lastUpd ≥ rate * 1000 then
    { s with changed := false, lastUpd := clk s.now, pub := some s.cur, pubAt := s.now }
  else { s with changed := false }

/-- A reading of the meter: it takes `d` ms and gives `v`. -/
def measure (d v : Nat) (s : P) : P :=
  { s with now := s.now + d, changed := s.changed || v ≠ s.cur, cur := v }

/-- What happens: time, a pass (a reading, if one is due, takes `d` ms and gives `v`), the start (`onInit` of a
driver, M 659-664), a registration (M 1113-1117). -/
inductive PEv where
  | wait (ms : Nat)
  | pass (d v : Nat)
  | init (d v : Nat)
  | registered
deriving DecidableEq, Repr

/-- Is a reading due (M 669)? -/
def due (rate : Nat) (s : P) : Bool := since (clk s.now) s.lastRead > rate * 1000

/-- One step. -/
def pstep (rate : Nat) (s : P) : PEv → P
  | .wait ms => { s with now := s.now + ms }
  | .pass d v => if due rate s then publish rate (measure d v { s with lastRead := clk s.now }) else s
  | .init d v => publish rate (measure d v s)
  | .registered => { s with lastUpd := 0 }

/-- A history. -/
def prun (rate : Nat) (es : List PEv) (s : P) : P := es.foldl (pstep rate) s

end Verif.Em
