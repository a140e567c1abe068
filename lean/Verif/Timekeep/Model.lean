import Verif.Common.Clock

/-!
# Counted time: operating time of a light, uptime of the device, the clock

Models /repo/src/supla/control/light_relay.cpp (L), /repo/src/supla/uptime.cpp (U) and the part of
/repo/src/supla/clock/clock.cpp (C) that counts seconds and asks the server for the time. The true time in
milliseconds is a natural number; the code sees `clk` of it.
-/

namespace Verif.Timekeep

/-! ## Operating time of a light -/

/-- The fields of `LightRelay` used for counting (light_relay.h lines 36-39) and whether the relay is on. The
counter is an `int32_t`; its overflow (after 68 years) is not modelled. -/
structure Light where
  now : Nat
  on : Bool
  ts : Nat
  cum : Nat
deriving DecidableEq, Repr

/-- What happens to the light: time passes, it is switched on or off, the main loop comes by
(`iterateAlways`), the counter is reset by the server. -/
inductive LightOp
  | wait (d : Nat)
  | turnOn
  | turnOff
  | pass
  | reset
deriving DecidableEq, Repr

/-- `LightRelay::iterateAlways`, L lines 106-118, without the part of `Relay` (see `Verif.Relay`; an automatic
switch-off is a `turnOff`). -/
def countSeconds (s : Light) : Light :=
  if since (clk s.now) s.ts / 1000 > 0 then
    { s with ts := (clk s.now + 2 ^ 32 - since (clk s.now) s.ts % 1000) % 2 ^ 32, cum := s.cum + since (clk s.now) s.ts / 1000 }
  else s

/-- One event: `turnOn` L lines 101-104, `ResetCounter` of `handleCalcfgFromServer` L lines 65-67. -/
def lightStep (s : Light) : LightOp → Light
  | .wait d => { s with now := s.now + d }
  | .turnOn => { s with on := true, ts := clk s.now }
  | .turnOff => { s with on := false }
  | .pass => if s.on then countSeconds s else s
  | .reset => { s with cum := 0 }

/-- A light that is off, with any stored timestamp (it has no initial value) and nothing counted. -/
def lightInit (now ts : Nat) : Light := ⟨now, false, ts, 0⟩

/-! ## Uptime -/

/-- The fields of `Uptime`, uptime.h lines 39-43. -/
structure Uptime where
  lastMillis : Nat
  device : Nat
  connection : Nat
  cause : Nat
  accept : Bool
deriving DecidableEq, Repr

/-- uptime.h lines 39-43; `SUPLA_LASTCONNECTIONRESETCAUSE_UNKNOWN` is 0. -/
def uptimeInit : Uptime := ⟨0, 0, 0, 0, false⟩

/-- The loop of `Uptime::iterate`, U lines 34-39: `n` whole seconds are left. -/
def addSeconds : Nat → Uptime → Uptime
  | 0, u => u
  | n + 1, u => addSeconds n
      { u with device := (u.device + 1) % 2 ^ 32, connection := (u.connection + 1) % 2 ^ 32, lastMillis := (u.lastMillis + 1000) % 2 ^ 32 }

/-- `Uptime::iterate`, U lines 25-40; the loop runs once for every whole second of the difference. -/
def iterate (millis : Nat) (u : Uptime) : Uptime :=
  if since millis u.lastMillis > 3600000 then { u with lastMillis := millis }
  else addSeconds (since millis u.lastMillis / 1000) u

/-- `Uptime::resetConnectionUptime`, U lines 42-45. -/
def resetConnection (u : Uptime) : Uptime := { u with connection := 0, accept := true }

/-- `Uptime::setConnectionLostCause`, U lines 47-52. -/
def lost (c : Nat) (u : Uptime) : Uptime := if u.accept then { u with cause := c, accept := false } else u

/-- Events: the main loop at a true time, a connection, a loss with its cause. -/
inductive UpOp
  | pass (t : Nat)
  | connected
  | lost (cause : Nat)
deriving DecidableEq, Repr

/-- One event. -/
def upStep (u : Uptime) : UpOp → Uptime
  | .pass t => iterate (clk t) u
  | .connected => resetConnection u
  | .lost c => Timekeep.lost c u

/-! ## The clock -/

/-- The fields of `Clock`, clock.h lines 73-78: `localtime`, `lastServerUpdate`, `lastMillis`, `isClockReady`,
`automaticTimeSync`. On AVR `system_tick` runs together with `localtime++` and `set_system_time` with its
assignment, so there `localTime` is the time of the device. -/
structure Clock where
  localTime : Int
  lastUpdate : Nat
  lastMillis : Nat
  ready : Bool
  auto : Bool
deriving DecidableEq, Repr

/-- clock.h lines 73-78. -/
def clockInit : Clock := ⟨0, 0, 0, false, true⟩

/-- `Clock::parseLocaltimeFromServer` and `setSystemTime`, C lines 196-211 and 277-300; `n` is the result of
`mktime`. -/
def setTime (n : Int) (c : Clock) : Clock := { c with localTime := if n = 0 then c.localTime else n, ready := true }

/-- `Clock::onTimer`, C lines 213-227. -/
def onTimer (millis : Nat) (c : Clock) : Clock :=
  if c.ready ∧ since millis c.lastMillis / 1000 > 0 then
    { c with lastMillis := (millis + 2 ^ 32 - since millis c.lastMillis % 1000) % 2 ^ 32, localTime := c.localTime + ((since millis c.lastMillis / 1000 : Nat) : Int) }
  else c

/-- `Clock::iterateConnected`, C lines 229-244: whether the server is asked. Both readings of `millis()` are
taken as the same. -/
def asks (millis : Nat) (c : Clock) : Bool := c.auto && (c.lastUpdate == 0 || decide (since millis c.lastUpdate > 300000))

/-- The same function: the state after it. -/
def iterateConnected (millis : Nat) (c : Clock) : Clock := if asks millis c then { c with lastUpdate := millis } else c

end Verif.Timekeep
