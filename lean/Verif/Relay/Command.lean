import Verif.Relay.Props

/-!
# Relays operated by commands, and virtual relays

`/repo/src/supla/control/virtual_relay.cpp` (VR) and `/repo/extras/porting/linux/supla/control/cmd_relay.cpp` (CR; `custom_relay.cpp` is the
same with a message in place of the command).  What a source says is a number here, 1 on, 0 off, -1 unknown; how it is read is in
`Verif.Parsed`.  Actions on a change of the state (`setLastState`) are in `Verif.Parsed` too.
-/

namespace Verif.Relay.Command

open Verif Verif.Relay

/-- A relay of the Linux port.  `r` has `pin` for the variable `state` of the virtual relay (and `highIsOn` true).  `src`: what the source says
now, `none` without a source.  `onCmd`, `offCmd`: whether a command is configured.  `sent`: the commands run so far, the last one last.
`readAt`: the time of the last reading.  `canRun`: whether a process can be started; `ub`: `pclose` was called with no process. -/
structure Dev where
  r : Relay
  src : Option Int := none
  onCmd : Bool := true
  offCmd : Bool := true
  useOffline : Bool := false
  canRun : Bool := true
  sent : List Bool := []
  readAt : Nat := 0
  chan : Bool := false
  offline : Bool := false
  ub : Bool := false
deriving DecidableEq, Repr

/-- `VirtualRelay::turnOn`, VR lines 37-57. -/
def vOn (t d : Nat) (s : Relay) : Relay :=
  let dur := if s.keep then s.stored else d % 2 ^ 32
  { s with durationMs := dur, ts := if dur ≠ 0 then clk t else 0, pin := true }

/-- `VirtualRelay::turnOff`, VR lines 59-75. -/
def vOff (t d : Nat) (s : Relay) : Relay :=
  { s with durationMs := d % 2 ^ 32, ts := if d % 2 ^ 32 ≠ 0 then clk t else 0, pin := false }

/-- `CmdRelay::isOn`, CR lines 68-86. -/
def Dev.isOn (c : Dev) : Bool :=
  match c.src with
  | none => c.r.pin
  | some v => v == 1

/-- Lines 44-47 and 54-57 of CR: a command is run if there is one. -/
def exec (on : Bool) (c : Dev) : Dev :=
  if (if on then c.onCmd else c.offCmd) then
    if c.canRun then { c with sent := c.sent ++ [on] } else { c with ub := true }
  else c

/-- `CmdRelay::turnOn`, CR lines 40-48. -/
def turnOn (t d : Nat) (c : Dev) : Dev :=
  let c := { c with r := vOn t d c.r }
  exec true { c with chan := c.isOn }

/-- `CmdRelay::turnOff`, CR lines 50-58. -/
def turnOff (t d : Nat) (c : Dev) : Dev :=
  let c := { c with r := vOff t d c.r }
  exec false { c with chan := c.isOn }

/-- `Relay::toggle`, `relay.cpp` lines 324-334, with the functions above. -/
def toggle (t d : Nat) (c : Dev) : Dev := if c.isOn then turnOff t d c else turnOn t d c

/-- The timer, `Relay::iterateAlways`, `relay.cpp` lines 200-204. -/
def expire (t : Nat) (c : Dev) : Dev :=
  if c.r.durationMs ≠ 0 ∧ since (clk t) c.r.ts > c.r.durationMs then toggle t 0 c else c

/-- The reading, CR lines 91-99. -/
def read (t : Nat) (c : Dev) : Dev :=
  if c.src.isSome = true ∧ since (clk t) (clk c.readAt) > 100 then
    { c with readAt := t, chan := c.isOn, offline := c.useOffline && c.src == some (-1) }
  else c

/-- `CmdRelay::iterateAlways`, CR lines 88-100. -/
def pass (t : Nat) (c : Dev) : Dev := read t (expire t c)

/-- `Relay::handleAction`, `relay.cpp` lines 336-361. -/
def handleAction (t : Nat) (a : Action) (c : Dev) : Dev :=
  match a with
  | .turnOnWithoutTimer =>
    let x := turnOn t 0 { c with r := { c.r with stored := 0 } }
    { x with r := { x.r with stored := c.r.stored } }
  | .turnOn => turnOn t 0 c
  | .turnOff => turnOff t 0 c
  | .toggle => toggle t 0 c

/-- `Relay::handleNewValueFromServer`, `relay.cpp` lines 215-260. -/
def server (t : Nat) (v : Int) (d : Nat) (c : Dev) : Dev :=
  if c.r.defFn = fnPump ∨ c.r.defFn = fnHeatCold then c
  else if v = 1 then
    let d := if d % 2 ^ 32 < c.r.minDur then c.r.minDur else d % 2 ^ 32
    let s1 := if c.r.isImpulse then { c.r with stored := d } else c.r
    let s2 := if s1.isStair ∧ d = 0 then { s1 with stored := 0 } else s1
    let x := turnOn t d { c with r := s2 }
    { x with r := { x.r with stored := s1.stored } }
  else if v = 0 then
    if c.r.keep || c.r.isStair || c.r.isImpulse then turnOff t 0 c else turnOff t d c
  else c

/-- `VirtualRelay::onInit`, VR lines 27-35, called by `CmdRelay::onInit` (CR line 35). -/
def onInit (t : Nat) (c : Dev) : Dev :=
  if c.r.stateOnInit = 1 ∨ c.r.stateOnInit = -2 then turnOn t c.r.durationMs c else turnOff t c.r.durationMs c

/-- One operation at the time `t`. -/
def step (c : Dev) (e : Nat × Op) : Dev :=
  match e.2 with
  | .turnOn d => turnOn e.1 d c
  | .turnOff d => turnOff e.1 d c
  | .toggle d => toggle e.1 d c
  | .action a => handleAction e.1 a c
  | .server v d => server e.1 v d c
  | .config f time => { c with r := applyConfig f time c.r }
  | .defFunction f => { c with r := { c.r with defFn := f } }
  | .setMin d => { c with r := setMin d c.r }
  | .setCountdown b => { c with r := { c.r with countdown := b } }
  | .pass => pass e.1 c

/-- A history. -/
def run (c : Dev) (h : List (Nat × Op)) : Dev := h.foldl step c

end Verif.Relay.Command
