import Verif.Hvac.TimerProps
/-!
# Thermostat: the time left, as the app and the display show it

Model of `iterateConnected` (src/supla/control/hvac_base.cpp, 168-172), `onRegistered` (545), `updateTimerValue` (4803-4834) and
`getRemainingCountDownTimeSec` (5413-5425), on top of the modes and the countdown of `Mode.lean`.
-/
namespace Verif.Hvac.Told
open Verif.Hvac.Mode

/-- What the server was told last: by the device's clock and in real time, the seconds left, the mode to come back to. -/
structure Msg where
  at_ : Int
  real : Int
  left : Int
  back : Val
deriving DecidableEq, Repr

/-- The thermostat, `timerUpdateTimestamp` (a `uint32_t`, hvac_base.h 505), and the last message. -/
structure Dev where
  s : St
  mark : Nat
  srv : Option Msg

/-- A new thermostat. -/
def Dev.init : Dev := ⟨St.init, 0, none⟩

/-- What happens: commands, button presses and passes; a registration at the server; a turn of the loop while registered. -/
inductive Ev
  | op (o : Mode.Op)
  | registered
  | connected (n : Now) (real : Int)

/-- The seconds left, lines 4806-4815. -/
def leftAt (ends now : Int) : Int :=
  if ends > now then (if ends - now > 2 ^ 31 - 1 then 0 else ends - now) else 0

/-- The end afterwards, line 4811. -/
def endAfter (ends now : Int) : Int :=
  if ends > now ∧ ends - now > 2 ^ 31 - 1 then 1 else ends

/-- `iterateConnected`, lines 168-172, with `updateTimerValue`, lines 4803-4834. -/
def connected (n : Now) (real : Int) (d : Dev) : Dev :=
  if (d.mark : Int) ≠ d.s.ends ∧ n.ready = true then
    { s := { d.s with ends := endAfter d.s.ends n.now }, mark := (d.s.ends % 2 ^ 32).toNat, srv := some ⟨n.now, real, leftAt d.s.ends n.now, d.s.wm⟩ }
  else d

/-- One event. -/
def step (e : Env) (d : Dev) : Ev → Dev
  | .op o => { d with s := o.run e d.s }
  | .registered => { d with mark := 0 }
  | .connected n real => connected n real d

/-- A history. -/
def run (e : Env) (d : Dev) (l : List Ev) : Dev := l.foldl (step e) d

/-- Conversion to `int32_t`. -/
def w32 (x : Int) : Int := (x + 2 ^ 31) % 2 ^ 32 - 2 ^ 31

/-- `getRemainingCountDownTimeSec`, lines 5413-5425. -/
def remaining (n : Now) (s : St) : Int :=
  if s.ends ≤ 1 then 0
  else if n.ready = false then -1
  else if w32 (s.ends - n.now) < 0 then 0 else w32 (s.ends - n.now)

end Verif.Hvac.Told
