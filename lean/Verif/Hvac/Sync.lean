/-!
# Thermostat: the weekly schedules on the device and on the server

Model of how the main and the alternative weekly schedule are kept equal on both sides:
`HvacBase::iterateConnected` (src/supla/control/hvac_base.cpp, 187-231), `onLoadConfig` (322-332),
`onRegistered` (535-544), `handleChannelConfigFinished` (548-563), `handleWeeklySchedule` (1619-1692),
`saveWeeklySchedule` (2562-2567), `handleSetChannelConfigResult` (2572-2609),
`clearWeeklyScheduleChangedFlag` (2622-2633), `setWeeklySchedule` (2866-2873), `setProgram` (2973-2977).

The device is started (`isWeeklyScheduleConfigured` is true after `onInit`, lines 471-473 and 4501),
there is one protocol layer, and the function of the channel does not change.  The server is not part
of the repository; the one here keeps the order of messages and sends its schedules, then "finished",
after a registration.  What is written to storage is taken as stored at once (the write has a delay of
five seconds).  A schedule is an arbitrary value; `false` is the main one, `true` the alternative one,
which is used only with the function HVAC_THERMOSTAT.
-/
namespace Verif.Hvac.Sync

variable {α : Type} [DecidableEq α]

/-- The function HVAC_THERMOSTAT, and `isWeeklyScheduleValid` (2644-2677) of main and alternative. -/
structure Env (α : Type) where
  thermo : Bool
  valid : Bool → α → Bool

/-- `weeklySchedule` and `altWeeklySchedule`, `weeklyScheduleChangedOffline`, the value of
"weekly_chng" in storage, `configFinishedReceived`, `weeklyScheduleReceived` and
`altWeeklyScheduleReceived`. -/
structure Dev (α : Type) where
  sched : Bool → α
  flag : Nat := 0
  saved : Bool := false
  fin : Bool := false
  got : Bool → Bool := fun _ => false

/-- Messages of the server. -/
inductive Down (α : Type) where
  /-- a schedule, or an empty configuration -/
  | config (a : Bool) (c : Option α)
  | finished
  /-- the answer to a schedule sent -/
  | result (a : Bool) (ok : Bool)

/-- Replace one of the two. -/
def upd {β : Type} (f : Bool → β) (a : Bool) (v : β) : Bool → β := fun b => if b = a then v else f b

/-- `setWeeklySchedule` and `setProgram` after the start. -/
def change (d : Dev α) (a : Bool) (v : α) : Dev α := { d with sched := upd d.sched a v, flag := 1, saved := true }

/-- Lines 1678-1689, with `local` false: the flag is 0 here. -/
def store (d : Dev α) (a : Bool) (v : α) : Dev α :=
  if d.sched a = v then d else { d with sched := upd d.sched a v, saved := false }

/-- `handleWeeklySchedule`. -/
def receive (e : Env α) (d : Dev α) (a : Bool) (c : Option α) : Dev α :=
  if d.flag ≠ 0 then { d with got := upd d.got a true }
  else
    match c with
    | none => { d with flag := 1 }
    | some v => if e.valid a v then store { d with got := upd d.got a true } a v else d

/-- `handleChannelConfigFinished`. -/
def finish (e : Env α) (d : Dev α) : Dev α :=
  if d.got false = false ∨ (e.thermo = true ∧ d.got true = false) then { d with fin := true, flag := 1 }
  else { d with fin := true }

/-- `handleSetChannelConfigResult`: the answer for one schedule, good or bad, clears the flag. -/
def answer (d : Dev α) : Dev α := if d.flag ≠ 0 then { d with flag := 0, saved := false } else d

/-- A message of the server. -/
def handle (e : Env α) (d : Dev α) : Down α → Dev α
  | .config a c => receive e d a c
  | .finished => finish e d
  | .result _ _ => answer d

/-- `onRegistered`. -/
def registered (d : Dev α) : Dev α :=
  { d with fin := false, flag := if d.flag ≠ 0 then 1 else 0, got := fun _ => false }

/-- `iterateConnected`, lines 204-230; `okM` and `okA`: the protocol layer accepts the message. -/
def pass (e : Env α) (okM okA : Bool) (d : Dev α) : Dev α × List (Bool × α) :=
  if d.fin = true ∧ d.flag = 1 ∧ okM = true then
    ({ d with flag := 2 }, (false, d.sched false) :: if e.thermo && okA then [(true, d.sched true)] else [])
  else (d, [])

/-- A start with the stored values. -/
def restart (d : Dev α) : Dev α :=
  { sched := d.sched, flag := if d.saved then 1 else 0, saved := d.saved }

/-- The device, the schedules of the server, and the messages under way. -/
structure Sys (α : Type) where
  dev : Dev α
  srv : Bool → Option α
  up : List (Bool × α) := []
  down : List (Down α) := []
  conn : Bool := false

/-- What happens. -/
inductive Ev (α : Type) where
  /-- a schedule is changed on the device -/
  | change (a : Bool) (v : α)
  /-- a schedule is changed on the server -/
  | edit (a : Bool) (v : α)
  | connect
  | drop
  /-- the server takes the next message, and accepts it or not -/
  | take (ok : Bool)
  /-- the device takes the next message -/
  | deliver
  | pass (okM okA : Bool)
  | restart

/-- Is the schedule in use. -/
def used (e : Env α) (a : Bool) : Bool := !a || e.thermo

/-- What the server sends after a registration. -/
def greeting (e : Env α) (srv : Bool → Option α) : List (Down α) :=
  (.config false (srv false) :: if e.thermo then [.config true (srv true)] else []) ++ [.finished]

/-- One step of both. -/
def turn (e : Env α) (y : Sys α) : Ev α → Sys α
  | .change a v => { y with dev := change y.dev a v }
  | .edit a v =>
    if used e a then { y with srv := upd y.srv a (some v), down := if y.conn then y.down ++ [.config a (some v)] else y.down }
    else y
  | .connect => { y with dev := registered y.dev, up := [], down := greeting e y.srv, conn := true }
  | .drop => { y with up := [], down := [], conn := false }
  | .take ok =>
    match y.up with
    | [] => y
    | (a, v) :: up => { y with srv := if ok then upd y.srv a (some v) else y.srv, up := up, down := y.down ++ [.result a ok] }
  | .deliver =>
    match y.down with
    | [] => y
    | m :: down => { y with dev := handle e y.dev m, down := down }
  | .pass okM okA =>
    if y.conn then { y with dev := (pass e okM okA y.dev).1, up := y.up ++ (pass e okM okA y.dev).2 } else y
  | .restart => { y with dev := restart y.dev, up := [], down := [], conn := false }

/-- A history. -/
def play (e : Env α) (es : List (Ev α)) (y : Sys α) : Sys α := es.foldl (turn e) y

end Verif.Hvac.Sync
