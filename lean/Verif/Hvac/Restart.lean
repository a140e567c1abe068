import Verif.Hvac.Mode
/-!
# Thermostat: power cut and restart

Model of `HvacBase::onSaveState` (src/supla/control/hvac_base.cpp, 424-450), `onLoadState` (340-422) and
lines 507-519 of `onInit`.  What is saved is the channel value (mode, set points, flags), the last working
mode, the end of the timer and the manual set points and mode; `lastProgramManualOverride` is not saved
(hvac_base.h: -1 after a start).  The state storage gives back what was saved.
-/
namespace Verif.Hvac.Mode

/-- What is saved, lines 424-450. -/
structure Saved where
  v : Val
  weekly : Bool
  countdown : Bool
  wm : Val
  ends : Int
  manHeat : Int
  manCool : Int
  manMode : Nat

/-- `onSaveState`, lines 424-450. -/
def save (s : St) : Saved := ⟨s.v, s.weekly, s.countdown, s.wm, s.ends, s.manHeat, s.manCool, s.manMode⟩

/-- `onLoadState`, lines 340-390. -/
def load (d : Saved) : St :=
  ⟨d.v, d.weekly, d.countdown, d.wm, d.manMode, d.manHeat, d.manCool, -1, if d.ends ≤ 0 then 1 else d.ends⟩

/-- Lines 507-519 of `onInit`. -/
def initMode (e : Env) (n : Now) (s : St) : St :=
  if s.weekly then
    let r := process e n s
    if !r.2 then r.1
    else if r.1.v.mode = 0 then turnOn e n r.1 else r.1
  else if s.v.mode = 0 then turnOn e n s
  else s

/-- Power cut and restart. -/
def restart (e : Env) (n : Now) (s : St) : St := initMode e n (load (save s))

end Verif.Hvac.Mode
