import Verif.Relay.Model

/-!
# The remaining time of a relay shown in the app

`/repo/src/supla/control/relay.cpp` (lines cited) and `SuplaSrpc::sendRemainingTimeValue`,
`/repo/src/supla/protocol/supla_srpc.cpp` lines 1309-1333.
-/

namespace Verif.Relay.Remain

open Verif Verif.Relay

/-- A message: when it was sent (real time), the remaining time in ms and the state the relay will have afterwards. -/
structure Note where
  sent : Nat
  remaining : Nat
  target : Bool
deriving DecidableEq, Repr

/-- The relay, `timerUpdateTimestamp` (`relay.h` line 124), whether the device is registered, and what the server was told last.
`start` is no variable of the program: the real time at which the timer was last set. -/
structure Sys where
  r : Relay
  upd : Nat
  registered : Bool
  told : Option Note
  start : Nat
deriving DecidableEq, Repr

/-- `updateTimerValue`, lines 525-547: remaining time and state. -/
def remaining (t : Nat) (r : Relay) : Nat × Bool :=
  if r.durationMs ≠ 0 ∧ since (clk t) r.ts ≤ r.durationMs then (r.durationMs - since (clk t) r.ts, !r.isOn) else (0, false)

/-- `iterateConnected`, lines 206-210; the message is only sent when the device is registered (supla_srpc.cpp line 1313). -/
def conn (t : Nat) (s : Sys) : Sys :=
  if s.upd ≠ s.r.ts then
    { s with upd := s.r.ts, told := if s.registered then some ⟨t, (remaining t s.r).1, (remaining t s.r).2⟩ else s.told }
  else s

/-- What can happen to the relay: calls of the API, actions, messages of the server, a new configuration, a pass. -/
inductive Cmd
  | on (d : Nat)
  | off (d : Nat)
  | act (a : Action)
  | server (v : Int) (d : Nat)
  | config (f : Nat) (time : Option Nat)
  | pass

/-- Its effect at time `t`. -/
def apply (t : Nat) (r : Relay) : Cmd → Relay
  | .on d => turnOn t d r
  | .off d => turnOff t d r
  | .act a => handleAction t a r
  | .server v d => server t v d r
  | .config f time => applyConfig f time r
  | .pass => pass t r

/-- Duration, time stamp and state. -/
def timer (r : Relay) : Nat × Nat × Bool := (r.durationMs, r.ts, r.isOn)

/-- What happens. -/
inductive Op
  | cmd (c : Cmd)
  | conn
  | registered
  | lost

/-- One step at time `t`; `onRegistered` is at lines 77-82. -/
def step (s : Sys) (t : Nat) : Op → Sys
  | .cmd c => { s with r := apply t s.r c, start := if timer (apply t s.r c) = timer s.r then s.start else t }
  | .conn => conn t s
  | .registered => { s with registered := true, upd := 1 }
  | .lost => { s with registered := false }

/-- A relay after start, without a timer. -/
def fresh (r : Relay) : Sys := ⟨{ r with durationMs := 0, ts := 0 }, 0, false, none, 0⟩

/-- A history: times and operations. -/
def run (s : Sys) : List (Nat × Op) → Sys
  | [] => s
  | (t, o) :: l => run (step s t o) l

end Verif.Relay.Remain
