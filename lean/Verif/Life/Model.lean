import Verif.Common.Clock

/-!
# Device modes, restarts, factory reset

Model of the part of `SuplaDeviceClass` (`/repo/src/SuplaDevice.cpp`, cited as D) that decides in which mode the device
is and when it restarts. Left out: the elements, the protocol layers and the network (their results are inputs of a
pass), the status messages, the handling of the web server object other than whether it runs.
-/

namespace Verif.Life

/-- `DeviceMode` (`device_mode.h`). -/
inductive Mode where
  | normal | config | test | update
deriving DecidableEq, Repr

/-- `RequestConfigModeType` (`SuplaDevice.h` 79-83). -/
inductive Req where
  | none | withTimeout | withoutTimeout
deriving DecidableEq, Repr

/-- What does not change while the device runs: `allowOfflineMode`, `configEmpty`, `atLeastOneProtoIsEnabled`,
`resetOnConnectionFailTimeoutSec`, and whether there is a configuration with the minimum to work
(`isMinimalConfigReady`). -/
structure Fixed where
  offline : Nat := 0
  empty : Bool := false
  proto : Bool := true
  limit : Nat := 0
  minimal : Bool := true
deriving Repr

/-- The fields of `SuplaDeviceClass` (`SuplaDevice.h` 217-263) used here. -/
structure St where
  mode : Mode := .normal
  /-- `deviceRestartTimeoutTimestamp` -/
  ts : Nat := 0
  /-- `forceRestartTimeMs` -/
  force : Nat := 0
  /-- `enterConfigModeTimestamp` -/
  cfgTs : Nat := 0
  /-- `goToOfflineModeTimeout` -/
  off : Nat := 0
  /-- `skipNetwork` -/
  skip : Bool := false
  /-- `goToConfigModeAsap` -/
  req : Req := .none
  /-- `triggerResetToFacotrySettings` -/
  factory : Bool := false
  /-- `triggerCheckSwUpdate` -/
  check : Bool := false
  /-- `networkIsNotReadyCounter` -/
  notReady : Nat := 0
  /-- `waitForIterate` -/
  wait : Nat := 0
  /-- `lastIterateTime` -/
  last : Nat := 0
  /-- `swUpdate` exists and was started -/
  started : Bool := false
  /-- the web server runs -/
  web : Bool := false
deriving DecidableEq, Repr

/-- `enterConfigMode` (D 731-762) at clock reading `now`. -/
def enterConfig (now : Nat) (s : St) : St :=
  { s with cfgTs := if s.cfgTs = 0 then now else s.cfgTs, skip := false, ts := if s.mode = .config then 0 else now, mode := .config, web := true }

/-- The test at the beginning of `setupDeviceMode` (D 325-329). -/
def goesOffline (f : Fixed) (s : St) : Bool :=
  decide (s.mode = .config) && ((decide (f.offline = 1) && f.empty) || (decide (f.offline = 2) && (!f.proto || decide (s.off = 1))))

/-- `setupDeviceMode` (D 324-348). -/
def setup (f : Fixed) (now : Nat) (s : St) : St :=
  if goesOffline f s then { s with mode := .normal, skip := true, off := 2 }
  else if s.mode = .config then enterConfig now s
  else { s with off := 2 }

/-- The end of `begin` (D 268-271, 318): configuration mode when the configuration is incomplete. -/
def start (f : Fixed) (now : Nat) (stored : Mode) (complete : Bool) : St :=
  setup f now { mode := if complete then stored else .config }

/-- `leaveConfigModeWithoutRestart` (D 764-780). -/
def leave (f : Fixed) (now : Nat) (s : St) : St :=
  if s.mode ≠ .config then s else setup f now { s with cfgTs := 0, web := false }

/-- `disableCfgModeTimeout` (D 995-1001), called when somebody opens the web page. -/
def noTimeout (s : St) : St := if s.force = 0 then { s with ts := 0, off := 2 } else s

/-- `scheduleSoftRestart` (D 1003-1012). -/
def schedule (now : Nat) (timeout : Int) (s : St) : St :=
  { s with force := if timeout ≤ 0 then 1 else timeout.toNat, ts := now }

/-- `requestCfgMode` (D 1262-1265). -/
def request (r : Req) (s : St) : St := { s with req := r }

/-- The actions of `handleAction` (D 1030-1089) that matter here. -/
inductive Action where
  | restart | enterConfig | toggleConfig | factoryReset | enterOrReset | leaveAndReset | checkUpdate
deriving DecidableEq, Repr

/-- `handleAction` (D 1030-1089). -/
def action (f : Fixed) (now : Nat) (a : Action) (s : St) : St :=
  match a with
  | .restart => schedule now 0 s
  | .enterConfig => if s.mode ≠ .config then request .withoutTimeout s else s
  | .toggleConfig => if s.mode ≠ .config then request .withoutTimeout s else schedule now 0 s
  | .factoryReset => { s with factory := true }
  | .enterOrReset =>
    if s.mode ≠ .config then request .withoutTimeout s
    else if since now s.cfgTs > 2000 then { s with factory := true } else s
  | .leaveAndReset => if s.mode = .config ∧ (f.offline ≠ 0 ∨ f.minimal) then schedule now 0 s else s
  | .checkUpdate => if s.mode ≠ .update then { s with check := true } else s

/-- Why the device restarts. -/
inductive Why where
  | timeout | asked | connection | factory
deriving DecidableEq, Repr

/-- How a pass ends: the device goes on, or restarts. -/
inductive Out where
  | on (s : St)
  | restart (w : Why)
deriving DecidableEq, Repr

/-- State of the update (`isStarted`, `isAborted`, `isFinished`). -/
inductive Upd where
  | missing | running | aborted | finished
deriving DecidableEq, Repr

/-- What a pass gets from outside: the network is ready, the longest failure of a protocol in s, the update. -/
structure Env where
  ready : Bool := true
  fail : Nat := 0
  upd : Upd := .running
deriving DecidableEq, Repr

/-- The five minutes of the configuration mode, in ms. -/
def cfgTime : Nat := 300000

/-- The one hour of allowed offline mode, in ms. -/
def offTime : Nat := 3600000

/-- `checkIfRestartIsNeeded` (D 1150-1182), without the restart of the protocols. -/
def needed (f : Fixed) (now : Nat) (e : Env) (s : St) : Option Why :=
  if s.ts ≠ 0 ∧ since now s.ts > cfgTime then some .timeout
  else if s.force ≠ 0 ∧ since now s.ts > s.force then some .asked
  else if f.limit ≠ 0 ∧ (s.notReady / 10 ≥ f.limit ∨ e.fail ≥ f.limit) then some .connection
  else none

/-- The request for the configuration mode in `handleLocalActionTriggers` (D 1115-1121). -/
def doRequest (now : Nat) (s : St) : St :=
  match s.req with
  | .none => s
  | .withTimeout => { enterConfig now s with req := .none }
  | .withoutTimeout => { noTimeout (enterConfig now s) with req := .none }

/-- The update in `handleLocalActionTriggers` (D 1142-1147). -/
def doCheck (s : St) : St :=
  if s.check then { s with check := false, mode := if s.mode ≠ .config then .update else s.mode } else s

/-- `iterateNetworkSetup` (D 684-729): the network is usable, and the state after it. -/
def network (e : Env) (s : St) : Bool × St :=
  if s.mode = .config then (true, s)
  else if e.ready then (true, { s with notReady := 0 })
  else (false, { s with wait := 100, notReady := s.notReady + 1 })

/-- The update mode (D 464-516). -/
def update (now : Nat) (e : Env) (s : St) : St :=
  if s.mode ≠ .update then s
  else
    match e.upd with
    | .missing => { s with mode := .normal, started := false }
    | u =>
      if !s.started then { s with started := true }
      else
        match u with
        | .aborted => { s with mode := .normal, started := false }
        | .finished => { schedule now 0 s with mode := .normal, started := false }
        | _ => s

/-- The rest of `iterate` after the elements (D 396-517). -/
def work (now : Nat) (e : Env) (s : St) : St :=
  if s.force ≠ 0 then s
  else if s.wait ≠ 0 ∧ since now s.last < s.wait then s
  else if s.skip then { s with wait := 0, last := now }
  else if (network e { s with wait := 0, last := now }).1 then update now e (network e { s with wait := 0, last := now }).2
  else (network e { s with wait := 0, last := now }).2

/-- The end of the hour (D 376-382). -/
def hour (f : Fixed) (now : Nat) (s : St) : St :=
  if s.off = 0 ∧ now > offTime then leave f now { s with off := 1 } else s

/-- `iterate` (D 369-517) at clock reading `now`. -/
def pass (f : Fixed) (now : Nat) (e : Env) (s : St) : Out :=
  match needed f now e (hour f now s) with
  | some w => .restart w
  | none =>
    if (doRequest now (hour f now s)).factory then .restart .factory
    else .on (work now e (doCheck (doRequest now (hour f now s))))

/-! ## Histories -/

/-- What can happen. -/
inductive Op where
  | pass (e : Env)
  | action (a : Action)
  /-- the server asks for the configuration mode (D 843-846, `supla_srpc.cpp` 700-702) -/
  | server
  /-- somebody opens the web page -/
  | visit
  | schedule (timeout : Int)
  /-- counted power cycles (`enter_cfg_mode_after_power_cycle.cpp` 81) -/
  | powerCycles
deriving Repr

/-- One step at absolute time `t` (ms since the start). -/
def step (f : Fixed) (t : Nat) (op : Op) (s : St) : Out :=
  match op with
  | .pass e => pass f (clk t) e s
  | .action a => .on (action f (clk t) a s)
  | .server => .on (request .withTimeout s)
  | .visit => .on (noTimeout s)
  | .schedule n => .on (schedule (clk t) n s)
  | .powerCycles => .on (enterConfig (clk t) s)

/-- A history; it ends with a restart. -/
def run (f : Fixed) : St → List (Nat × Op) → Out
  | s, [] => .on s
  | s, (t, op) :: l =>
    match step f t op s with
    | .on s' => run f s' l
    | .restart w => .restart w

end Verif.Life
