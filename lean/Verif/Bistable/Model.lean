import Verif.Common.Clock

/-!
# Bistable relay

A latching relay changes over with every pulse on its coil. The device gives the pulses and can read the
position on another pin.

Cited as B: `/repo/src/supla/control/bistable_relay.cpp`; R: `/repo/src/supla/control/relay.cpp`. The coil and
the latch are part of the model: the latch changes over when the coil pin becomes active, and the status pin
shows it at once. Levels are abstracted to active or not. `Verif.Relay` has the rest of the relay.
-/

namespace Verif.Bistable

/-- The relay. -/
structure Rel where
  /-- `durationMs`, `durationTimestamp` -/
  dur : Nat
  ts : Nat
  /-- `storedTurnOnDurationMs`, `keepTurnOnDurationMs` -/
  stored : Nat
  keep : Bool
  /-- `busy`, `disarmTimeMs`, `lastReadTime` -/
  busy : Bool
  disarm : Nat
  lastRead : Nat
  /-- there is a status pin -/
  status : Bool
  /-- the channel value -/
  shown : Bool
  /-- `stateOnInit` -/
  init : Int
  /-- the coil is powered -/
  coil : Bool
  /-- the position of the latch -/
  latch : Bool
deriving DecidableEq, Repr

/-- A `uint32_t` taken as `int32_t` (the parameter of `turnOn`). -/
def s32 (d : Nat) : Int := if d % 2 ^ 32 < 2 ^ 31 then d % 2 ^ 32 else (d % 2 ^ 32 : Int) - 2 ^ 32

/-- `isOn`, B lines 141-147. -/
def Rel.isOn (s : Rel) : Bool := s.status && s.latch

/-- `internalToggle`, B lines 153-161; a coil that is powered already does nothing. -/
def pulse (t : Nat) (s : Rel) : Rel :=
  { s with busy := true, disarm := clk t, coil := true, latch := if s.coil then s.latch else !s.latch }

/-- The duration used, B lines 108-118. -/
def wanted (d : Nat) (s : Rel) : Nat :=
  if (if s.keep then s32 s.stored else s32 d) > 0 then
    if (if s.keep then s32 s.stored else s32 d) < 1000 then 1000 else (if s.keep then s32 s.stored else s32 d).toNat
  else 0

/-- `turnOn`, B lines 101-123. -/
def turnOn (t d : Nat) (s : Rel) : Rel :=
  if s.busy then s
  else if !s.status || !s.isOn then pulse t { s with dur := wanted d s, ts := if wanted d s > 0 then clk t else s.ts }
  else { s with dur := wanted d s, ts := if wanted d s > 0 then clk t else s.ts }

/-- `turnOff`, B lines 125-139. -/
def turnOff (t : Nat) (s : Rel) : Rel :=
  if s.busy then s
  else if !s.status || s.isOn then pulse t { s with dur := 0 }
  else { s with dur := 0 }

/-- `toggle`, B lines 163-169. -/
def toggle (t d : Nat) (s : Rel) : Rel := if s.isOn || !s.status then turnOff t s else turnOn t d s

/-- `Relay::iterateAlways`, R lines 200-204. -/
def timer (t : Nat) (s : Rel) : Rel := if s.dur ≠ 0 ∧ since (clk t) s.ts > s.dur then toggle t 0 s else s

/-- The reading of the status pin, B lines 79-82. -/
def readStatus (t : Nat) (s : Rel) : Rel :=
  if s.status && since (clk t) s.lastRead > 100 then { s with lastRead := clk t, shown := s.isOn } else s

/-- The end of the pulse, B lines 84-87. -/
def release (t : Nat) (s : Rel) : Rel := if s.busy && since (clk t) s.disarm > 200 then { s with busy := false, coil := false } else s

/-- `iterateAlways`, B lines 76-88. -/
def pass (t : Nat) (s : Rel) : Rel := release t (readStatus t (timer t s))

/-- `Relay::onSaveState` and `onLoadState`, R lines 363-441, for a relay that is neither a staircase timer nor
an impulse relay, with the countdown enabled: the state after reading back. Only `dur` and `init` matter. -/
def load (t : Nat) (s : Rel) : Rel :=
  { s with
    dur := if s.init < 0 then (if s.dur ≠ 0 ∧ since (clk t) s.ts < s.dur then s.dur - since (clk t) s.ts else 0) else 0,
    init := if s.init < 0 then (if s.isOn then -2 else -3) else s.init,
    stored := 0, ts := 0, busy := false, disarm := 0, lastRead := 0, shown := false, coil := false }

/-- `onInit`, B lines 55-74. -/
def onInit (t : Nat) (s : Rel) : Rel :=
  if s.init = 1 ∨ s.init = -2 then turnOn t 0 { s with shown := s.isOn, coil := false }
  else if s.init = 0 ∨ s.init = -3 then turnOff t { s with shown := s.isOn, coil := false }
  else { s with shown := s.isOn, coil := false }

/-- A restart: the state saved at `t`, loaded and started with the clock at `t'`. -/
def restart (t t' : Nat) (s : Rel) : Rel := onInit t' (load t s)

/-- What may happen. `hand` is somebody changing the relay over by hand. -/
inductive Op
  | on (d : Nat)
  | off
  | toggle (d : Nat)
  | pass
  | hand
deriving DecidableEq, Repr

/-- One event. -/
def step (t : Nat) (s : Rel) : Op → Rel
  | .on d => turnOn t d s
  | .off => turnOff t s
  | .toggle d => toggle t d s
  | .pass => pass t s
  | .hand => { s with latch := !s.latch }

/-- Many events, each with its time. -/
def run : Rel → List (Nat × Op) → Rel
  | s, [] => s
  | s, (t, o) :: os => run (step t s o) os

end Verif.Bistable
