import Verif.Common.Clock
/-!
# Thermostat: driving the heating and cooling outputs

Model of `HvacBase::setOutput` (src/supla/control/hvac_base.cpp, lines 3032-3144),
`clearLastOutputValue` (4002-4005), `updateChannelState` (4887-5048) and of the only output shipped
with the library, `InternalPinOutput` (src/supla/control/internal_pin_output.cpp, 136-150), plus
the `IsOn` accessors of the channel (src/supla/channels/channel.cpp, 704-741 and 1195-1217).

Time is a natural number of milliseconds since power on; `millis()` is that number modulo 2^32.
-/
namespace Verif.Hvac
open Verif

/-- What the configured function lets the thermostat do: `isHeatingSubfunction`, domestic hot water
and differential (`heat`), `isCoolingSubfunction` (`cool`), HEAT_COOL (`both`);
hvac_base.cpp 3086-3088, 3101, 3117 and 4631-4639.  Any other function (`other`) matches no branch
of `setOutput`. -/
inductive Kind | heat | cool | both | other
deriving DecidableEq, Repr

/-- The outputs wired to the thermostat: `primaryOutput`, `secondaryOutput` and their
`isOnOffOnly()`; hvac_base.h 458-463, output_interface.h 26-33. -/
structure Hw where
  hasPri : Bool
  hasSec : Bool
  priOnOff : Bool
  secOnOff : Bool
deriving DecidableEq, Repr

/-- `lastValue` (int8_t, -111 = never set), `lastOutputStateChangeTimestampMs`, and the values last
given to the two outputs (`OutputInterface::setOutputValue`, which `getOutputValue` returns);
hvac_base.h 495, 504; internal_pin_output.cpp 136-150. -/
structure Out where
  last : Int
  stamp : Nat
  pri : Int
  sec : Int
deriving DecidableEq, Repr

/-- State at construction: hvac_base.h 495, 504; internal_pin_output.h (`lastOutputValue = 0`). -/
def Out.init : Out := ⟨-111, 0, 0, 0⟩

/-- The two `setOutputValue` calls at the end of `setOutput`, lines 3084-3142. -/
def write (h : Hw) (k : Kind) (v : Int) (o : Out) : Out :=
  match k with
  | .heat =>
    let o := if h.hasSec then { o with sec := 0 } else o
    if v ≤ 0 then { o with pri := 0 }
    else { o with pri := if h.priOnOff then 1 else v }
  | .cool =>
    if h.hasSec then
      let o := { o with pri := 0 }
      if v ≥ 0 then { o with sec := 0 }
      else { o with sec := if h.priOnOff then -1 else -v }
    else
      if v ≥ 0 then { o with pri := 0 }
      else { o with pri := if h.priOnOff then -1 else -v }
  | .both =>
    if h.hasSec then
      if v = 0 then { o with pri := 0, sec := 0 }
      else if v ≥ 1 then { o with sec := 0, pri := if h.priOnOff then 1 else v }
      else { o with pri := 0, sec := if h.secOnOff then -1 else -v }
    else o
  | .other => o

/-- What `setOutput` decides before it touches the outputs (lines 3037-3082): the new `lastValue`
and whether the change is time stamped; `none` = nothing is done. -/
def choose (minOn minOff : Nat) (now : Nat) (o : Out) (v : Int) (force : Bool) :
    Option (Int × Bool) :=
  if o.last = v then none
  else
    let last := if o.last < -100 then 0 else o.last
    let el := since (clk now) o.stamp
    if last > 0 ∧ v ≤ 0 then
      if !force && decide (el < minOn * 1000) then none else some (0, true)
    else if last = 0 ∧ v ≠ 0 then
      if !force && decide (el < minOff * 1000) then none else some (v, true)
    else if last < 0 ∧ v ≥ 0 then
      if !force && decide (el < minOn * 1000) then none else some (0, true)
    else some (v, false)

/-- `HvacBase::setOutput`, lines 3032-3144, without the final `updateChannelState()` (see `report`).
One detail: when nothing is changed because of the minimum times, a `lastValue` of -111 has already
become 0 (lines 3041-3043), which `choose` does not record, so it is done here. -/
def setOutput (h : Hw) (k : Kind) (minOn minOff : Nat) (now : Nat) (v : Int) (force : Bool)
    (o : Out) : Out :=
  if !h.hasPri then o
  else if o.last = v then o
  else
    match choose minOn minOff now o v force with
    | none => { o with last := if o.last < -100 then 0 else o.last }
    | some (v', changed) =>
      write h k v' { o with last := v', stamp := if changed then clk now else o.stamp }

/-- `clearLastOutputValue(); setOutput(0, true);`, lines 585-586, 3918-3919, 4002-4005: done when the
function or the subfunction changes. -/
def reset (h : Hw) (k : Kind) (minOn minOff : Nat) (now : Nat) (o : Out) : Out :=
  setOutput h k minOn minOff now 0 true { o with last := -111, stamp := 0 }

/-! ### What is reported -/

/-- The reported value: `IsOn` (0/1, or 2..102 for 0..100 %), and the HEATING and COOLING flags of
`THVACValue`; proto.h 850-858. -/
structure Rep where
  isOn : Nat
  heating : Bool
  cooling : Bool
deriving DecidableEq, Repr

/-- `getHvacIsOnBool`, channel.cpp 1203-1209. -/
def Rep.onBool (r : Rep) : Bool := r.isOn == 1 || decide (r.isOn > 2)

/-- `getHvacIsOnPercent`, channel.cpp 1211-1217. -/
def Rep.percent (r : Rep) : Nat := if r.isOn > 2 ∧ r.isOn ≤ 102 then r.isOn - 2 else 0

/-- `setHvacIsOn`, channel.cpp 704-719. -/
def Rep.setOn (r : Rep) (on : Bool) : Rep :=
  if (r.isOn == 1) != on then { r with isOn := if on then 1 else 0 } else r

/-- `setHvacIsOnPercent`, channel.cpp 721-741; the argument is a `uint8_t`. -/
def Rep.setPercent (r : Rep) (p : Int) : Rep :=
  let p := (p % 256).toNat
  let p := if p > 100 then 100 else p
  { r with isOn := p + 2 }

/-- `isOnOffOnly() ? setHvacIsOn : setHvacIsOnPercent`. -/
def Rep.put (r : Rep) (onOff : Bool) (v : Int) : Rep :=
  if onOff then r.setOn (v ≠ 0) else r.setPercent v

/-- `updateChannelState`, lines 4887-5048, without the events it raises. -/
def report (h : Hw) (k : Kind) (o : Out) (r : Rep) : Rep :=
  if !h.hasPri then r
  else match k with
  | .heat =>
    let r := { r with cooling := false }
    if o.pri ≤ 0 then { r with heating := false }.put h.priOnOff 0
    else if h.priOnOff then
      if r.onBool then r else { r with heating := true }.setOn true
    else
      if (r.percent : Int) = o.pri then r else { r with heating := true }.setPercent o.pri
  | .cool =>
    let r := { r with heating := false }
    let raw := if h.hasSec then o.sec else o.pri
    let onOff := if h.hasSec then h.secOnOff else h.priOnOff
    if raw ≥ 0 then { r with cooling := false }.put onOff 0
    else if onOff then
      if r.onBool then r else { r with cooling := true }.setOn true
    else
      if (r.percent : Int) = -raw then r else { r with cooling := true }.setPercent (-raw)
  | .both =>
    if !h.hasSec then r
    else if o.pri = 0 ∧ o.sec = 0 then
      { r with cooling := false, heating := false }.put h.priOnOff 0
    else if o.pri ≥ 1 then
      { r with cooling := false, heating := true }.put h.priOnOff o.pri
    else if o.sec ≤ -1 then
      { r with cooling := true, heating := false }.put h.secOnOff (-o.sec)
    else r
  | .other => r

/-! ### Specification -/

/-- Is the heating relay on?  The primary output heats unless the function is cooling only. -/
def heatingOn (k : Kind) (o : Out) : Bool :=
  match k with
  | .heat | .both => decide (o.pri ≠ 0)
  | _ => false

/-- Is the cooling relay on?  The secondary output cools; without one, the primary output of a
cooling-only thermostat. -/
def coolingOn (h : Hw) (k : Kind) (o : Out) : Bool :=
  match k with
  | .cool => if h.hasSec then decide (o.sec ≠ 0) else decide (o.pri ≠ 0)
  | .both => decide (o.sec ≠ 0)
  | _ => false

/-- One call of `setOutput`: when, with what value, and whether the minimum times are to be
ignored (only the sensor failure path does, line 719). -/
structure Call where
  now : Nat
  v : Int
  force : Bool

/-- A history of calls with a fixed configuration. -/
def run (h : Hw) (k : Kind) (minOn minOff : Nat) (o : Out) : List Call → Out
  | [] => o
  | c :: cs => run h k minOn minOff (setOutput h k minOn minOff c.now c.v c.force o) cs

/-- A wiring the library accepts: a primary output; HEAT_COOL only with a secondary output
(`setHeatCoolSupported`, lines 3693-3717 and 849-856). -/
def Wired (h : Hw) (k : Kind) : Prop :=
  h.hasPri = true ∧ k ≠ .other ∧ (k = .both → h.hasSec = true)

/-- Values the thermostat asks for: percentages, negative for cooling. -/
def InRange (v : Int) : Prop := -100 ≤ v ∧ v ≤ 100

end Verif.Hvac
