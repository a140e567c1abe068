import Verif.Hvac.Schedule
/-!
# Thermostat: the weekly schedules after a start

Model of `HvacBase::initDefaultWeeklySchedule` (src/supla/control/hvac_base.cpp, 4500-4618), of the part
of `onLoadConfig` that reads the weekly schedules (271-311) and of lines 471-473 of `onInit`; the default
limits are those of hvac_base.h 509-524 (`getDefaultTemperatureRoomMin` and `Max`, 4362-4386).

What is stored has the size of the structure.
-/
namespace Verif.Hvac.Schedule

/-- The channel functions told apart in `initDefaultWeeklySchedule`. -/
inductive Fn | thermostat | heatCool | differential | dhw | other
deriving DecidableEq, Repr

/-- The programs 1 to 4 that are set, lines 4515-4557. -/
def defPrograms : Fn → Bool → List Program
  | .thermostat, false => [⟨2, 1900, 0⟩, ⟨2, 2100, 0⟩, ⟨2, 3000, 0⟩, ⟨2, 1200, 0⟩]
  | .thermostat, true => [⟨3, 0, 2400⟩, ⟨3, 0, 2100⟩, ⟨3, 0, 1800⟩, ⟨3, 0, 2800⟩]
  | .heatCool, false => [⟨4, 1800, 2500⟩, ⟨4, 2100, 2400⟩, ⟨2, 2300, 0⟩, ⟨3, 0, 2400⟩]
  | .differential, false => [⟨2, -500, 0⟩, ⟨2, -200, 0⟩, ⟨2, -1000, 0⟩, ⟨2, -1500, 0⟩]
  | .dhw, false => [⟨2, 4000, 0⟩, ⟨2, 5000, 0⟩, ⟨2, 3000, 0⟩, ⟨2, 6000, 0⟩]
  | _, _ => []

/-- Set them one after the other, from program number `i`; a refused one is left out. -/
def setPrograms (e : Env) (alt : Bool) : Nat → List Program → Sched → Option Sched
  | _, [], s => some s
  | i, p :: ps, s =>
    match setProgram e alt s i p with
    | none => none
    | some (s', _) => setPrograms e alt (i + 1) ps s'

/-- The program number for an hour, lines 4562-4614. -/
def defPlan (alt : Bool) (hour : Nat) : Nat :=
  if alt then (if hour ≥ 6 ∧ hour < 21 then 1 else 0) else (if hour ≥ 6 ∧ hour < 21 then 2 else 1)

/-- Are there loops for this schedule, lines 4562-4564, 4581 and 4598. -/
def hasPlan : Fn → Bool → Bool
  | .other, _ => false
  | .thermostat, _ => true
  | _, alt => !alt

/-- Day, hour and quarter in the order of the three loops. -/
def weekTimes : List (Nat × Nat × Nat) :=
  (List.range 7).flatMap fun d => (List.range 24).flatMap fun h => (List.range 4).map fun q => (d, h, q)

/-- The loops; a refused slot is left as it is. -/
def fillWeek (plan : Nat → Nat) : List (Nat × Nat × Nat) → Sched → Option Sched
  | [], s => some s
  | (d, h, q) :: ts, s =>
    match setSlot s (calcIndex d h q) (plan h) with
    | none => none
    | some (s', _) => fillWeek plan ts s'

/-- `initDefaultWeeklySchedule`, one of the two schedules. -/
def defaultSched (e : Env) (fn : Fn) (alt : Bool) : Option Sched :=
  match setPrograms e alt 1 (defPrograms fn alt) Sched.zero with
  | none => none
  | some s => if hasPlan fn alt then fillWeek (defPlan alt) weekTimes s else some s

/-- One schedule read from storage, lines 272-289 or 293-310: what is in memory afterwards and whether it
counts as configured. -/
def loadOne (e : Env) (alt : Bool) (stored : Option Sched) : Option (Sched × Bool) :=
  match stored with
  | none => some (Sched.zero, false)
  | some s => (schedValid e alt s).map fun b => (s, b)

/-- The main and the alternative schedule after `onLoadConfig` and `onInit`. -/
def started (e : Env) (fn : Fn) (main alt : Option Sched) : Option (Sched × Sched) :=
  match loadOne e false main, (if fn = .thermostat then loadOne e true alt else some (Sched.zero, false)) with
  | some (m, cm), some (a, ca) =>
    if cm || ca then some (m, a)
    else
      match defaultSched e fn false, defaultSched e fn true with
      | some dm, some da => some (dm, da)
      | _, _ => none
  | _, _ => none

end Verif.Hvac.Schedule
