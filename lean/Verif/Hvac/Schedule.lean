/-!
# Thermostat: the weekly schedule

Model of the schedule accessors of `HvacBase` (src/supla/control/hvac_base.cpp, lines 2644-2992) and
of `TChannelConfig_WeeklySchedule` (src/supla-common/proto.h, 2940-2970).

A read or write outside an array is the outcome `none`.
Not modelled: the flags that say the schedule has to be sent and saved (C39 and others), and the log.
-/
namespace Verif.Hvac.Schedule

/-- `TWeeklyScheduleProgram`, proto.h 2940-2952: mode number (`SUPLA_HVAC_MODE_*`, 0 = not set,
1 = off, 2 = heat, 3 = cool, 4 = heat/cool, 7 = dry) and two set points. -/
structure Program where
  mode : Nat
  heat : Int
  cool : Int
deriving DecidableEq, Repr

/-- `TChannelConfig_WeeklySchedule`: four programs, 336 bytes with two quarters each. -/
structure Sched where
  prog : List Program
  quarters : List Nat
deriving DecidableEq, Repr

/-- `SUPLA_WEEKLY_SCHEDULE_PROGRAMS_MAX_SIZE`, proto.h 2954. -/
def maxPrograms : Nat := 4
/-- `SUPLA_WEEKLY_SCHEDULE_VALUES_SIZE`, proto.h 2955. -/
def slots : Nat := 672

/-- A cleared schedule, `memset` in `initDefaultWeeklySchedule`, lines 4506-4507. -/
def Sched.zero : Sched := ⟨List.replicate 4 ⟨0, 0, 0⟩, List.replicate 336 0⟩

/-- Sizes and value ranges of the C types. -/
structure Sched.WF (s : Sched) : Prop where
  progs : s.prog.length = 4
  quarts : s.quarters.length = 336
  bytes : ∀ b ∈ s.quarters, b < 256

/-- `getWeeklyScheduleProgramId`, lines 2679-2690. -/
def getId (s : Sched) (index : Int) : Option Nat :=
  if index < 0 ∨ index > slots then some 0
  else
    let i := index.toNat
    match s.quarters[i / 2]? with
    | none => none
    | some b => some ((b >>> (i % 2 * 4)) &&& 0xF)

/-- `calculateIndex`, lines 2692-2705; days 0..6 from Sunday. -/
def calcIndex (day hour quarter : Int) : Int :=
  if day < 0 ∨ day > 6 then -1
  else if hour < 0 ∨ hour > 23 then -1
  else if quarter < 0 ∨ quarter > 3 then -1
  else (day * 24 + hour) * 4 + quarter

/-- `setWeeklySchedule(index, programId)`, lines 2830-2874, on the main or the alternative schedule:
the new schedule and the returned value. -/
def setSlot (s : Sched) (index programId : Int) : Option (Sched × Bool) :=
  if index < 0 ∨ index ≥ slots then some (s, false)
  else if programId < 0 ∨ programId > maxPrograms then some (s, false)
  else
    let i := index.toNat
    let p := programId.toNat
    let mode := if p > 0 then (s.prog[p - 1]?).map Program.mode else some 1
    match mode with
    | none => none
    | some m =>
      if m = 0 ∨ m > 7 then some (s, false)
      else match s.quarters[i / 2]? with
        | none => none
        | some b =>
          let b' := if i % 2 = 1 then (b &&& 0x0F) ||| (p <<< 4) else (b &&& 0xF0) ||| p
          some ({ s with quarters := s.quarters.set (i / 2) b' }, true)

/-- What `isProgramValid` asks of the thermostat: is the function HVAC_THERMOSTAT
(`thermostat`), does it support heating and cooling (`heatCool`, `isHeatingAndCoolingSupported`),
`isModeSupported`, and the room and offset limits. -/
structure Env where
  thermostat : Bool
  heatCool : Bool
  modeOk : Nat → Bool
  tMin : Int
  tMax : Int
  offMin : Int
  offMax : Int

/-- `isTemperatureInRoomConstrain`, lines 1372-1383. -/
def Env.inRoom (e : Env) (t : Int) : Bool := decide (t ≠ -32768 ∧ e.tMin ≤ t ∧ t ≤ e.tMax)

/-- `isProgramValid`, lines 2708-2761 and 1385-1392. -/
def progValid (e : Env) (alt : Bool) (p : Program) : Bool :=
  if p.mode = 0 then true
  else if p.mode ≠ 3 ∧ p.mode ≠ 2 ∧ p.mode ≠ 4 then false
  else
    let ok :=
      if e.thermostat then
        if p.mode = 2 then !alt && e.heatCool
        else if p.mode = 3 then alt && e.heatCool
        else false
      else e.modeOk p.mode
    if !ok then false
    else if p.mode = 2 then e.inRoom p.heat
    else if p.mode = 3 then e.inRoom p.cool
    else decide (e.offMin ≤ p.cool - p.heat ∧ p.cool - p.heat ≤ e.offMax) && e.inRoom p.heat && e.inRoom p.cool

/-- The second loop of `isWeeklyScheduleValid`, lines 2663-2674, from slot `i`, `n` slots.
`used` is the array `programIsUsed[4]`. -/
def slotsOk (s : Sched) (used : List Bool) (i : Nat) : Nat → Option Bool
  | 0 => some true
  | n + 1 =>
    match getId s i with
    | none => none
    | some id =>
      if id = 0 then slotsOk s used (i + 1) n
      else match used[id - 1]? with
        | none => none
        | some u => if u then slotsOk s used (i + 1) n else some false

/-- `isWeeklyScheduleValid`, lines 2644-2677. -/
def schedValid (e : Env) (alt : Bool) (s : Sched) : Option Bool :=
  if s.prog.all (progValid e alt) then
    slotsOk s (s.prog.map fun p => decide (p.mode ≠ 0)) 0 slots
  else some false

/-- `setProgram`, lines 2948-2979. -/
def setProgram (e : Env) (alt : Bool) (s : Sched) (programId : Int) (p : Program) :
    Option (Sched × Bool) :=
  if !progValid e alt p then some (s, false)
  else if programId < 1 ∨ programId > maxPrograms then none
  else some ({ s with prog := s.prog.set (programId.toNat - 1) p }, true)

/-- `getProgramAt`, lines 2885-2913, on the schedule in use: the program in force in a slot;
`index < 0` (clock not ready) means program 1. -/
def programAt (s : Sched) (index : Int) : Option Program :=
  match (if index ≥ 0 then getId s index else some 1) with
  | none => none
  | some 0 => some ⟨1, -32768, -32768⟩
  | some (id + 1) =>
    if id + 1 > maxPrograms then some ⟨0, -32768, -32768⟩
    else s.prog[id]?

/-- `handleWeeklySchedule` for a complete message, lines 1656-1688: a valid schedule replaces the
stored one. -/
def receive (e : Env) (alt : Bool) (stored new : Sched) : Option (Sched × Bool) :=
  match schedValid e alt new with
  | none => none
  | some true => some (new, true)
  | some false => some (stored, false)

end Verif.Hvac.Schedule
