import Verif.Common.Clock

/-!
# Configuration mode after power cycles

Model of `EnterCfgModeAfterPowerCycle` (`/repo/src/supla/device/enter_cfg_mode_after_power_cycle.cpp`, cited as E) with the
delayed saving of the configuration (`/repo/src/supla/storage/config.cpp` 383-406, cited as K). One session lasts from a
start of the device to the next loss of power. Left out: what the configuration mode does (C65), the other keys of the
configuration (another element that writes the configuration is the event `commit`), and errors of the flash memory.
-/

namespace Verif.Cycles

/-- What is set in the program: `timeoutMs`, `maxPowerCycles`, `incrementOnlyOnPowerResetReason`. -/
structure Par where
  timeout : Nat := 5000
  max : Nat := 3
  onlyPower : Bool := false
deriving Repr

/-- The element, the key `power_cycle` in flash (`disk`) and in the memory copy of the configuration (`mem`), and the delayed
save (`saveDelayMs`, `saveDelayTimestamp`). -/
structure St where
  disk : Nat := 0
  mem : Nat := 0
  /-- `currentPowerCycle` -/
  cur : Nat := 0
  /-- `timestampMs` -/
  ts : Nat := 0
  /-- `incremented` -/
  inc : Bool := false
  enabled : Bool := true
  delay : Nat := 0
  delayTs : Nat := 0
  /-- `enterConfigMode` was called in this session -/
  entered : Bool := false
deriving DecidableEq, Repr

/-- `onLoadConfig` (E 42-64) at clock reading `now` after a start that found `disk` in the flash; `enabled` is the result
of E 51-58. -/
def load (now : Nat) (enabled : Bool) (disk : Nat) : St :=
  { disk := disk, mem := disk, cur := disk, ts := if now = 0 then 1 else now, enabled := enabled }

/-- `commit` of the configuration. -/
def commit (s : St) : St := { s with disk := s.mem }

/-- `saveIfNeeded` (K 390-397). -/
def saveIf (now : Nat) (s : St) : St :=
  if s.delay ≠ 0 ∧ since now s.delayTs > s.delay then { s with disk := s.mem, delay := 0, delayTs := 0 } else s

/-- `saveWithDelay` (K 383-388). -/
def saveWith (now d : Nat) (s : St) : St := if s.delay = 0 then { s with delay := d, delayTs := now } else s

/-- The counting (E 71-90). `power`: the last reset was a loss of power. -/
def count (p : Par) (power : Bool) (s : St) : St :=
  if s.inc || (p.onlyPower && !power) then { s with inc := true }
  else if (s.cur + 1) % 2 ^ 32 > p.max then { s with cur := (s.cur + 1) % 2 ^ 32, entered := true, inc := true }
  else { s with cur := (s.cur + 1) % 2 ^ 32, mem := (s.cur + 1) % 2 ^ 32, disk := (s.cur + 1) % 2 ^ 32, inc := true }

/-- The timeout (E 92-101). -/
def expire (p : Par) (now : Nat) (s : St) : St :=
  if since now s.ts > p.timeout then saveWith now 1000 { s with cur := 0, ts := 0, mem := 0 } else s

/-- `iterateAlways` (E 66-102). -/
def iterate (p : Par) (power : Bool) (now : Nat) (s : St) : St :=
  if !s.enabled || decide (s.ts = 0) then s else expire p now (count p power s)

/-- What happens in a session. -/
inductive Ev where
  /-- a pass of the device at time `t` (`SuplaDevice.cpp` 384-391) -/
  | pass (t : Nat)
  /-- something else writes the configuration, or the device restarts itself -/
  | commit
deriving DecidableEq, Repr

/-- One event. -/
def step (p : Par) (power : Bool) (s : St) : Ev → St
  | .pass t => iterate p power (clk t) (saveIf (clk t) s)
  | .commit => commit s

/-- A session: start at time `t0`, then the events. -/
def session (p : Par) (power enabled : Bool) (t0 disk : Nat) (evs : List Ev) : St :=
  evs.foldl (step p power) (load (clk t0) enabled disk)

end Verif.Cycles
