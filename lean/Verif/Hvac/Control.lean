import Verif.Hvac.Output
/-!
# Thermostat: the control decision

Model of the decision part of `HvacBase::iterateAlways`
(src/supla/control/hvac_base.cpp, lines 711-839): thermometer check, frost and overheat protection,
forced-off sensor, auxiliary thermometer protection and the two-point controller
(`evaluateHeatOutputValue` 3749-3813, `evaluateCoolOutputValue` 3815-3880).

Temperatures are `int16_t` hundredths of a degree; `INT16_MIN` means "not available" or "not set".
Not modelled: the error and forced-off flags of the channel, and the log.
-/
namespace Verif.Hvac
open Verif

/-- `INT16_MIN`, `SUPLA_TEMPERATURE_INVALID_INT16`. -/
def noTemp : Int := -32768

/-- `isSensorTempValid`, lines 3719-3721. -/
def validT (t : Int) : Bool := decide (t > noTemp)

/-- `UsedAlgorithm` after `initDefaultAlgorithm` (4620-4629): still not set when the default is not
available, ON_OFF_SETPOINT_MIDDLE, ON_OFF_SETPOINT_AT_MOST, or anything else. -/
inductive Algo | notSet | middle | atMost | full
deriving DecidableEq, Repr

/-- Operating mode, `SUPLA_HVAC_MODE_*`, proto.h 830-836; `other` is fan or dry. -/
inductive Mode | notSet | off | heat | cool | heatCool | other
deriving DecidableEq, Repr

/-- The parts of `TChannelConfig_HVAC` and of the wiring that the decision reads.  `differential` is
the function HVAC_THERMOSTAT_DIFFERENTIAL; `auxOn` is the switch and type part of
`isAuxProtectionEnabled` (3248-3256); temperatures are as returned by the getters. -/
structure Cfg where
  kind : Kind
  differential : Bool
  hw : Hw
  internal : Bool
  minOn : Nat
  minOff : Nat
  onError : Int
  algo : Algo
  hyst : Int
  hystMin : Int
  protect : Bool
  tFreeze : Int
  tOverheat : Int
  auxOn : Bool
  auxMin : Int
  auxMax : Int

/-- `isModeSupported(SUPLA_HVAC_MODE_HEAT)`, lines 2765-2829. -/
def Cfg.heats (c : Cfg) : Bool := match c.kind with | .heat | .both => true | _ => false

/-- `isModeSupported(SUPLA_HVAC_MODE_COOL)`, lines 2765-2829. -/
def Cfg.cools (c : Cfg) : Bool := match c.kind with | .cool | .both => true | _ => false

/-- The hysteresis in use, lines 3774-3782 and 3840-3848. -/
def Cfg.histeresis (c : Cfg) : Int := if validT c.hyst then c.hyst else c.hystMin

/-- The distances below and above the set point (for cooling: above and below) at which the output is
switched, lines 3784-3798 and 3850-3864: first the distance for "on", then for "off".
`histeresis >>= 1` is division by two, rounded down. -/
def Cfg.band (c : Cfg) : Int × Int :=
  match c.algo with
  | .middle => (c.histeresis / 2, c.histeresis / 2)
  | .atMost => (c.histeresis, 0)
  | _ => (c.histeresis, c.histeresis)

/-- `evaluateHeatOutputValue`, lines 3749-3813. -/
def evalHeat (c : Cfg) (last tM tT : Int) : Int :=
  if !validT tM then c.onError
  else if !validT tT then c.onError
  else if !c.internal then 0
  else if c.algo = .notSet then c.onError
  else if !validT c.histeresis then c.onError
  else if last ≤ 0 then
    if tM < tT - c.band.1 then 100 else last
  else
    if tM > tT + c.band.2 then 0 else last

/-- `evaluateCoolOutputValue`, lines 3815-3880. -/
def evalCool (c : Cfg) (last tM tT : Int) : Int :=
  if !validT tM then c.onError
  else if !validT tT then c.onError
  else if !c.internal then 0
  else if c.algo = .notSet then c.onError
  else if !validT c.histeresis then c.onError
  else
    let out := if (last ≥ 0 ∨ last = -111) ∧ tM > tT + c.band.1 then -100 else last
    if last < 0 ∧ tM < tT - c.band.2 then 0 else out

/-- What is read in one pass: the time, the mode and set points in force, the two temperatures, the
forced-off sensor (`getForcedOffSensorState`, 4647-4666) and whether the start-up delay is over. -/
structure Tick where
  now : Nat
  mode : Mode
  spHeat : Int
  spCool : Int
  t1 : Int
  t2 : Int
  forcedOff : Bool
  startup : Bool

/-- `isAuxProtectionEnabled`, lines 3247-3263. -/
def Cfg.auxActive (c : Cfg) : Bool := c.auxOn && (validT c.auxMin || validT c.auxMax)

/-- `checkThermometersStatusForCurrentMode`, lines 3723-3747. -/
def sensorsOk (c : Cfg) (x : Tick) : Bool :=
  !((x.mode = .heat || x.mode = .cool || x.mode = .heatCool) && !validT x.t1) &&
  !(c.differential && (!validT x.t1 || !validT x.t2)) &&
  !(c.auxActive && !validT x.t2)

/-- Conversion to `int16_t` of a difference (`t1 -= t2`, line 736). -/
def wrap16 (x : Int) : Int := (x + 32768) % 65536 - 32768

/-- `setOutput` with this configuration. -/
def Cfg.set (c : Cfg) (now : Nat) (v : Int) (force : Bool) (o : Out) : Out :=
  setOutput c.hw c.kind c.minOn c.minOff now v force o

/-- The mode change that a pass may ask for, when the output is not controlled by the library
(lines 761-778). -/
inductive Cmd | none | off | on
deriving DecidableEq, Repr

/-- Lines 780-838: auxiliary protection (`checkAuxProtection`, 3265-3294) and the mode. -/
def regulate (c : Cfg) (x : Tick) (t1 t2 : Int) (o : Out) : Out :=
  let aux := c.auxActive && decide (x.mode ≠ .off) && decide (x.mode ≠ .notSet)
  let lo := evalHeat c o.last t2 c.auxMin
  let hi := evalCool c o.last t2 c.auxMax
  if aux && validT c.auxMin && decide (lo > 0) then c.set x.now lo false o
  else if aux && validT c.auxMax && decide (hi < 0) then c.set x.now hi false o
  else match x.mode with
  | .heatCool =>
    let h := evalHeat c o.last t1 x.spHeat
    let k := evalCool c o.last t1 x.spCool
    if h > 0 then c.set x.now h false o
    else if k < 0 then c.set x.now k false o
    else c.set x.now 0 false o
  | .heat =>
    let h := evalHeat c o.last t1 x.spHeat
    c.set x.now (if h < 0 then 0 else h) false o
  | .cool =>
    let k := evalCool c o.last t1 x.spCool
    c.set x.now (if k > 0 then 0 else k) false o
  | .off => c.set x.now 0 false o
  | _ => o

/-- Lines 741-778: `checkOverheatProtection` (3228-3245), `checkAntifreezeProtection` (3209-3226), the
forced-off sensor, then `regulate`.  `flag` is the forced-off flag of the channel, used only when
the output is controlled from outside. -/
def decideOut (c : Cfg) (x : Tick) (t1 t2 : Int) (flag : Bool) (o : Out) : Out × Cmd :=
  let over := evalCool c o.last t1 c.tOverheat
  let freeze := evalHeat c o.last t1 c.tFreeze
  if c.protect && c.cools && validT c.tOverheat && decide (over < 0) then
    (c.set x.now over false o, .none)
  else if c.protect && c.heats && validT c.tFreeze && decide (freeze > 0) then
    (c.set x.now freeze false o, .none)
  else if c.internal then
    if x.forcedOff then (c.set x.now 0 false o, .none)
    else (regulate c x t1 t2 o, .none)
  else
    if x.forcedOff then
      if x.mode ≠ .off then (o, .off) else (regulate c x t1 t2 o, .none)
    else
      if flag then (o, .on) else (regulate c x t1 t2 o, .none)

/-- One pass, lines 715-839, entered once a second outside the waiting times. -/
def pass (c : Cfg) (flag : Bool) (o : Out) (x : Tick) : Out × Cmd :=
  if !sensorsOk c x then
    if x.startup then (o, .none) else (c.set x.now c.onError true o, .none)
  else
    let t1 := if c.differential then wrap16 (x.t1 - x.t2) else x.t1
    let t2 := if c.differential then noTemp else x.t2
    decideOut c x t1 t2 flag o

/-- The outputs after one pass of a thermostat that controls its own outputs. -/
def tick (c : Cfg) (o : Out) (x : Tick) : Out := (pass c false o x).1

end Verif.Hvac
