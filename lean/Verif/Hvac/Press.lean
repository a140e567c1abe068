import Verif.Hvac.Mode
/-!
# Thermostat: local actions (buttons on the device)

Model of `HvacBase::handleAction` (src/supla/control/hvac_base.cpp, 76-166); `getMode` (4025-4027),
`isWeeklyScheduleEnabled` (4029-4031), the default of `keepSchedule` from hvac_base.h 72.
-/
namespace Verif.Hvac.Mode

/-- The actions told apart. -/
inductive Act
  | turnOn | turnOff | toggle | up | down | upHeat | downHeat | upCool | downCool
  | manual | weekly | heat | cool | heatCool | manualWeekly | offManualWeekly
deriving DecidableEq, Repr

/-- `TOGGLE`, lines 87-94. -/
def toggle (e : Env) (n : Now) (s : St) : St :=
  if s.v.mode = 1 then setTarget e n 8 false s else setTarget e n 1 false s

/-- `TOGGLE_MANUAL_WEEKLY_SCHEDULE_MODES`, lines 141-152. -/
def manualWeekly (e : Env) (n : Now) (s : St) : St :=
  if s.weekly then (apply e n 10 unset unset 0 s).1
  else if s.v.mode = 1 then turnOn e n s
  else (apply e n 9 unset unset 0 s).1

/-- `TOGGLE_OFF_MANUAL_WEEKLY_SCHEDULE_MODES`, lines 153-164. -/
def offManualWeekly (e : Env) (n : Now) (s : St) : St :=
  if s.weekly then (apply e n 1 unset unset 0 s).1
  else if s.v.mode = 1 then (apply e n 10 unset unset 0 s).1
  else (apply e n 9 unset unset 0 s).1

/-- `handleAction`, lines 76-166; `step` is `buttonTemperatureStep`. -/
def act (e : Env) (step : Int) (n : Now) (s : St) : Act → St
  | .turnOn => setTarget e n 8 false s
  | .turnOff => setTarget e n 1 false s
  | .toggle => toggle e n s
  | .up => changeBy e n step step s
  | .down => changeBy e n (-step) (-step) s
  | .upHeat => changeBy e n step 0 s
  | .downHeat => changeBy e n (-step) 0 s
  | .upCool => changeBy e n 0 step s
  | .downCool => changeBy e n 0 (-step) s
  | .manual => (apply e n 10 unset unset 0 s).1
  | .weekly => (apply e n 9 unset unset 0 s).1
  | .heat => (apply e n 2 unset unset 0 s).1
  | .cool => (apply e n 3 unset unset 0 s).1
  | .heatCool => (apply e n 4 unset unset 0 s).1
  | .manualWeekly => manualWeekly e n s
  | .offManualWeekly => offManualWeekly e n s

end Verif.Hvac.Mode
