import Verif.Hvac.Schedule
/-!
# Thermostat: mode, set points, countdown timer, manual override of the schedule

Model of `setTargetMode` (src/supla/control/hvac_base.cpp, 3146-3207), `applyNewRuntimeSettings`
(3318-3426), `handleNewValueFromServer` (3428-3479), the set point setters (3481-3519),
`getDefaultManualMode` (3545-3563), `turnOn` (3565-3589), `turnOnWeeklySchedlue` (3591-3598),
`processWeeklySchedule` (3600-3674), `setSetpointTemperaturesForCurrentMode` (3676-3689),
`fixTemperatureSetpoints` (3939-4000), `storeLastWorkingMode` (4007-4015),
`changeTemperatureSetpointsBy` (4699-4747) and lines 692-710 of `iterateAlways`.

Modes are the numbers of proto.h 830-848: 0 not set, 1 off, 2 heat, 3 cool, 4 heat/cool, 8 turn on,
9 weekly schedule, 10 switch to manual.  Temperatures are `int16_t` hundredths of a degree.

Simplifications: fan and dry modes are not supported; there is no master thermostat; the last
working mode restored from storage is never 8 (the code would recurse for ever); the waiting times
(5 s after a change, 1 s between passes) are left to the caller, who decides when a pass happens.
-/
namespace Verif.Hvac.Mode
open Verif.Hvac.Schedule (Program)

/-- Function and subfunction of the thermostat. -/
inductive Fn | heat | cool | dhw | both | diff
deriving DecidableEq, Repr

/-- `INT16_MIN`. -/
def unset : Int := -32768

/-- What does not change here: function, is a weekly schedule configured, the limits, does a set
point change leave the schedule (`isTemperatureSetpointChangeSwitchesToManualMode`, 2399-2401), and
is a mode change refused because of the forced-off sensor (lines 3158-3162). -/
structure Env where
  fn : Fn
  sched : Bool
  tMin : Int
  tMax : Int
  offMin : Int
  offMax : Int
  swManual : Bool
  blocked : Bool

/-- What is read from the clock and the schedule. -/
structure Now where
  ready : Bool
  now : Int
  startup : Bool
  progId : Nat
  prog : Program

/-- A stored `THVACValue`: mode, set points and their "set" flags. -/
structure Val where
  mode : Nat
  heat : Int
  cool : Int
  heatSet : Bool
  coolSet : Bool
deriving DecidableEq, Repr

/-- The channel value `v` with its flags `weekly` and `countdown`; `lastWorkingMode`,
`lastManualMode`, `lastManualSetpointHeat/Cool`, `lastProgramManualOverride`, `countdownTimerEnds`;
hvac_base.h 495-520. -/
structure St where
  v : Val
  weekly : Bool
  countdown : Bool
  wm : Val
  manMode : Nat
  manHeat : Int
  manCool : Int
  over : Int
  ends : Int
deriving DecidableEq, Repr

/-- State of a new thermostat. -/
def St.init : St := ⟨⟨0, 0, 0, false, false⟩, false, false, ⟨0, 0, 0, false, false⟩, 0, unset, unset, -1, 1⟩

/-- The function heats: `heatSupported` of `isModeSupported`, lines 2765-2829. -/
def Env.heats (e : Env) : Bool := match e.fn with | .cool => false | _ => true
/-- The function cools: `coolSupported` of `isModeSupported`, lines 2765-2829. -/
def Env.cools (e : Env) : Bool := match e.fn with | .cool | .both => true | _ => false

/-- `isModeSupported`, lines 2765-2829. -/
def Env.sup (e : Env) (m : Nat) : Bool :=
  if m = 1 ∨ m = 8 then true
  else if m = 9 then e.sched
  else if m = 2 then e.heats
  else if m = 3 then e.cools
  else if m = 4 then e.fn = .both
  else false

/-- `getDefaultManualMode`, lines 3545-3563. -/
def Env.dflt (e : Env) : Nat :=
  match e.fn with
  | .heat | .dhw => 2
  | .cool => 3
  | .both => 4
  | .diff => 1

/-- The clamping of lines 3490-3495. -/
def Env.clamp (e : Env) (t : Int) : Int :=
  let t := if t < e.tMin then e.tMin else t
  if t > e.tMax then e.tMax else t

/-- `setTemperatureSetpointHeat`, lines 3481-3499. -/
def setHeat (e : Env) (t : Int) (s : St) : St :=
  if t = unset then s else { s with v := { s.v with heat := e.clamp t, heatSet := true } }

/-- `setTemperatureSetpointCool`, lines 3501-3519. -/
def setCool (e : Env) (t : Int) (s : St) : St :=
  if t = unset then s else { s with v := { s.v with cool := e.clamp t, coolSet := true } }

/-- `isTemperatureInRoomConstrain`, lines 1372-1383. -/
def Env.inRoom (e : Env) (t : Int) : Bool := decide (t ≠ unset ∧ e.tMin ≤ t ∧ t ≤ e.tMax)

/-- `isTemperatureInHeatCoolConstrain`, lines 1385-1392. -/
def Env.gapOk (e : Env) (h c : Int) : Bool :=
  decide (e.offMin ≤ c - h ∧ c - h ≤ e.offMax) && e.inRoom h && e.inRoom c

/-- `getTemperatureSetpointHeat/Cool`, lines 3531-3543. -/
def St.spHeat (s : St) : Int := if s.v.heatSet then s.v.heat else unset
/-- The same for cooling, lines 3531-3543. -/
def St.spCool (s : St) : Int := if s.v.coolSet then s.v.cool else unset

/-- Lines 3943-3950: default set points, not clamped. -/
def fixDefaults (e : Env) (s : St) : St :=
  let s := if e.heats && !s.v.heatSet then { s with v := { s.v with heat := 2100, heatSet := true } } else s
  if e.cools && !s.v.coolSet then { s with v := { s.v with cool := 2500, coolSet := true } } else s

/-- `fixTemperatureSetpoints`, lines 3939-4000.  The branches of lines 3987-3992 write a value that
is already there. -/
def fix (e : Env) (s0 : St) : St :=
  let h := s0.spHeat
  let c := s0.spCool
  let s := fixDefaults e s0
  if s.v.mode = 2 then (if h = unset then setHeat e 2100 s else s)
  else if s.v.mode = 3 then (if c = unset then setCool e 2500 s else s)
  else if s.v.mode = 4 then
    if h ≠ unset ∧ c ≠ unset then
      if !e.gapOk h c then
        let s := if c - h < e.offMin then (if e.inRoom (h + e.offMin) then setCool e (h + e.offMin) s else setHeat e (c - e.offMin) s) else s
        if c - h > e.offMax then (if e.inRoom (h + e.offMax) then setCool e (h + e.offMax) s else setHeat e (c - e.offMax) s) else s
      else s
    else s
  else s

/-- `storeLastWorkingMode`, lines 4007-4015. -/
def store (s : St) : St := { s with wm := if s.weekly then { s.v with mode := 9 } else s.v }

/-- `setTargetMode` for a mode other than 8 and 9, lines 3146-3207. -/
def setPlain (e : Env) (m : Nat) (keep : Bool) (s : St) : St :=
  let s := { s with countdown := false }
  if s.v.mode = m ∧ ¬ (keep = false ∧ s.weekly = true) then s
  else if e.blocked ∧ m ≠ 1 then s
  else
    let s := if keep then s else { s with over := -1 }
    if !e.sup m then s
    else
      let s :=
        if m = 1 then
          let s := store s
          let s := if keep = false ∧ s.weekly = true then { s with weekly := false, wm := { s.wm with mode := 9 } } else s
          { s with v := { s.v with mode := 1 } }
        else { s with v := { s.v with mode := m } }
      let s := if keep then s else { s with weekly := false }
      fix e s

/-- `processWeeklySchedule`, lines 3600-3674. -/
def process (e : Env) (n : Now) (s : St) : St × Bool :=
  if !s.weekly then (s, false)
  else if !n.ready && n.startup then (s, false)
  else if n.prog.mode = 0 then (setPlain e 1 false s, false)
  else if s.over ≠ -1 ∧ (n.progId : Int) = s.over then
    (if s.v.mode = 1 then setPlain e (if s.manMode = 0 then e.dflt else s.manMode) true s else s, true)
  else
    let s := { s with over := -1 }
    let s := setPlain e n.prog.mode true s
    let s := setHeat e (if n.prog.mode = 3 then unset else n.prog.heat) s
    (setCool e (if n.prog.mode = 2 then unset else n.prog.cool) s, true)

/-- `turnOnWeeklySchedlue`, lines 3591-3598. -/
def onWeekly (e : Env) (n : Now) (s : St) : St × Bool :=
  if !e.sched then (s, false) else process e n { s with weekly := true }

/-- `turnOn`, lines 3565-3589. -/
def turnOn (e : Env) (n : Now) (s : St) : St :=
  if s.weekly = true ∨ s.wm.mode = 9 then (onWeekly e n s).1
  else
    let s := if !e.sup s.wm.mode then { s with wm := { s.wm with mode := 0 } } else s
    let m := if s.wm.mode ≠ 0 then s.wm.mode else e.dflt
    let wm := s.wm
    let s := if wm.heatSet then setHeat e wm.heat s else s
    let s := if wm.coolSet then setCool e wm.cool s else s
    setPlain e m false s

/-- `setTargetMode`, lines 3146-3207. -/
def setTarget (e : Env) (n : Now) (m : Nat) (keep : Bool) (s : St) : St :=
  if m = 8 then
    let s := { s with countdown := false }
    if e.blocked then s
    else
      let s := if keep then s else { s with over := -1 }
      let s := if s.v.mode = 1 ∨ e.sup s.v.mode = false then turnOn e n s else s
      fix e s
  else if m = 9 then
    let s := { s with countdown := false }
    if e.blocked then s
    else if !e.sched then s
    else
      let r := onWeekly e n s
      if r.2 then fix e r.1 else r.1
  else setPlain e m keep s

/-- The mode meant by "not set" and "switch to manual", lines 3341-3361. -/
def resolve (e : Env) (n : Now) (mode : Nat) (tH tC : Int) (s : St) : St × Nat :=
  let (s, mode) :=
    if mode = 0 then
      if s.weekly && !e.swManual then ({ s with over := (n.progId : Int) }, 9) else (s, 10)
    else (s, mode)
  if mode = 10 then
    if s.manMode ≠ 0 then (s, s.manMode)
    else if e.dflt = 4 then
      if tH = unset ∧ tC > unset then (s, 3)
      else if tH > unset ∧ tC = unset then (s, 2)
      else (s, 4)
    else (s, e.dflt)
  else (s, mode)

/-- Lines 3401-3405: `setSetpointTemperaturesForCurrentMode` (3676-3689) after a mode change. -/
def setTemps (e : Env) (m : Nat) (tH tC : Int) (s : St) : St :=
  if (m ≠ 9 ∧ s.weekly = false) ∨ s.over ≠ -1 then
    let h := if s.weekly = false ∧ tH = unset then s.manHeat else tH
    let c := if s.weekly = false ∧ tC = unset then s.manCool else tC
    setCool e c (setHeat e h s)
  else s

/-- Lines 3411-3424: remember the manual mode and set points. -/
def remember (m : Nat) (tH tC : Int) (s : St) : St :=
  if s.weekly = false ∧ m ≠ 1 ∧ s.countdown = false then
    let s := if m = 4 ∨ m = 3 ∨ m = 2 then { s with manMode := m } else s
    let s := if tH > unset then { s with manHeat := tH } else s
    if tC > unset then { s with manCool := tC } else s
  else s

/-- Lines 3399-3424. -/
def applyBody (e : Env) (n : Now) (m : Nat) (tH tC : Int) (dur : Int) (s : St) : St :=
  let s := setTemps e m tH tC (setTarget e n m false s)
  remember m tH tC (if dur > 0 then { s with countdown := true } else s)

/-- `applyNewRuntimeSettings`, lines 3325-3426; `dur` is the `int32_t` duration. -/
def apply (e : Env) (n : Now) (mode : Nat) (tH tC : Int) (dur : Int) (s0 : St) : St × Bool :=
  let r := resolve e n mode tH tC (if mode = 9 then { s0 with over := -1 } else s0)
  if !e.sup r.2 then (r.1, false)
  else if dur > 0 then
    if n.ready then
      let s := { r.1 with ends := n.now + dur }
      (applyBody e n r.2 tH tC dur (if s.countdown then s else store s), true)
    else (r.1, false)
  else (applyBody e n r.2 tH tC dur { r.1 with countdown := false, ends := 1 }, true)

/-- `handleNewValueFromServer`, lines 3428-3479: a new value with its duration (the unsigned 32-bit
field read as `int32_t`). -/
def server (e : Env) (n : Now) (v : Val) (durU : Nat) (s : St) : St × Bool :=
  let dur : Int := if durU < 2 ^ 31 then durU else (durU : Int) - 2 ^ 32
  let c := if v.mode = 9 then unset else if v.coolSet && e.inRoom v.cool then v.cool else s.manCool
  let h := if v.mode = 9 then unset else if v.heatSet && e.inRoom v.heat then v.heat else s.manHeat
  apply e n v.mode h c dur s

/-- Conversion to `int16_t`. -/
def w16 (x : Int) : Int := (x + 32768) % 65536 - 32768

/-- `changeTemperatureSetpointsBy`, lines 4699-4747, without the optional
`wrapAroundTemperatureSetpoints`; the sums are `int16_t`. -/
def changeBy (e : Env) (n : Now) (dH dC : Int) (s : St) : St :=
  let h := w16 (s.spHeat + dH)
  let c := w16 (s.spCool + dC)
  match e.fn with
  | .heat | .dhw | .diff => (apply e n 0 h unset 0 s).1
  | .cool => (apply e n 0 unset c 0 s).1
  | .both => (apply e n 0 h c 0 s).1

/-- Lines 692-697 of `iterateAlways`: the timer. -/
def expire (e : Env) (n : Now) (s : St) : St :=
  if s.countdown = true ∧ s.ends ≤ (if n.ready then n.now else 0) then
    { turnOn e n { s with countdown := false } with ends := 1 }
  else s

/-- Lines 692-710 of `iterateAlways`: the timer, the unsupported mode, the schedule. -/
def passMode (e : Env) (n : Now) (s : St) : St :=
  let s := expire e n s
  let s := if e.sup s.v.mode then s else setTarget e n 1 false s
  if s.weekly then (process e n s).1 else s

end Verif.Hvac.Mode
