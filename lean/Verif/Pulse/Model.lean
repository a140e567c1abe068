import Verif.Shutter.Outputs
import Verif.Pulse.Spec
/-!
# Model of the roller shutters operated by presses

Source: `/repo/src/supla/control/bistable_roller_shutter.cpp` (B below) and
`/repo/src/supla/control/tripple_button_roller_shutter.cpp` (T below), on top of the model of
`/repo/src/supla/control/roller_shutter.cpp` (`Verif.Shutter`).

The classes replace what the common code does when it stops, opens or closes, and the rest of it does not read the
outputs. So a pass of the common code is taken from `Verif.Shutter`; the outputs and their log there only tell whether
the common code stopped, opened or closed.
-/

namespace Verif.Pulse

open Verif.Shutter (RS Fp Op stopPos)

/-- The members and the outputs (`/repo/src/supla/control/bistable_roller_shutter.h` 40-42). -/
structure Bi where
  /-- the members of the base classes -/
  rs : RS
  /-- `activeBiRelay` -/
  active : Bool := false
  /-- `toggleTime` -/
  toggle : Nat := 0
  /-- the levels of the outputs -/
  now : Level
  /-- every level so far -/
  log : List Level := []
deriving DecidableEq, Repr

/-- The level of one output changed. -/
def Level.set (l : Level) (t : Nat) (x : Btn) (on : Bool) : Level :=
  match x with
  | .up => { l with t := t, up := on }
  | .down => { l with t := t, down := on }
  | .stop => { l with t := t, stop := on }

/-- `Io::digitalWrite` of an output. -/
def write (t : Nat) (x : Btn) (on : Bool) (b : Bi) : Bi :=
  { b with now := b.now.set t x on, log := b.log ++ [b.now.set t x on] }

/-- `relayUpOn`, `relayDownOn` (B 53-65), `relayStopOn` (T 57-62). -/
def relayOn (t : Nat) (x : Btn) (b : Bi) : Bi := write t x true { b with active := true, toggle := clk t }

/-- `relayUpOff`, `relayDownOff` (B 67-77), `relayStopOff` (T 64-68). -/
def relayOff (t : Nat) (x : Btn) (b : Bi) : Bi := write t x false { b with active := false }

/-- `switchOffRelays` (`/repo/src/supla/control/roller_shutter.cpp` 130-133, T 70-74). -/
def switchOff (k : Kind) (t : Nat) (b : Bi) : Bi :=
  match k with
  | .two => relayOff t .down (relayOff t .up b)
  | .three => relayOff t .stop (relayOff t .down (relayOff t .up b))

/-- The outputs in `stopMovement` (B 41-51, T 49-55), the direction before being `d`. -/
def pressStop (k : Kind) (t : Nat) (d : Shutter.Dir) (b : Bi) : Bi :=
  match k, d with
  | .three, _ => relayOn t .stop b
  | .two, .up => relayOn t .up b
  | .two, .down => relayOn t .down b
  | .two, .stop => b

/-- What the common code did to the outputs in a pass from `s` to `r`, done by presses: `stopMovement`,
`startOpening` and `startClosing` (`/repo/src/supla/control/roller_shutter.cpp` 116-128). -/
def press (k : Kind) (t : Nat) (s r : RS) (b : Bi) : Bi :=
  if r.log.length = s.log.length then b
  else match r.dir with
    | .stop => pressStop k t s.dir b
    | .up => relayOn t .up (relayOff t .down b)
    | .down => relayOn t .down (relayOff t .up b)

/-- The stop asked for was not carried out yet: the condition in `inMove` (T 80). -/
def asked (s : RS) : Bool := s.newTarget && s.target == stopPos

/-- The pause after a stop, `/repo/src/supla/control/roller_shutter.cpp` 136-141. -/
def paused (t : Nat) (s : RS) : Bool := s.pause != 0 && since (clk t) s.pause < 500

/-- The members of the base classes replaced. -/
def Bi.withRs (b : Bi) (r : RS) : Bi := { b with rs := r }

/-- `RollerShutter::onTimer` (`/repo/src/supla/control/roller_shutter.cpp` 135-351) with the replaced functions.
`inMove` of the class with three buttons (T 78-85) is true if a stop was asked for, so `stopMovement` is called also
when the direction is "stop"; after it nothing more is done in the pass, so what it stores can be stored last. -/
def basePass (F : Fp) (k : Kind) (t : Nat) (b : Bi) : Option Bi :=
  (Shutter.pass F t b.rs).map fun r =>
    if k = .three ∧ b.rs.dir = .stop ∧ asked b.rs = true ∧ paused t b.rs = false then
      (pressStop k t .stop b).withRs { r with pause := clk t, calTime := 0 }
    else (press k t b.rs r b).withRs r

/-- The end of a press, B 80-83. -/
def endPress (k : Kind) (t : Nat) (b : Bi) : Bi :=
  if b.active = true ∧ since (clk t) b.toggle > 200 then
    (switchOff k t b).withRs { b.rs with pause := clk t }
  else b

/-- `onTimer`, B 79-89. `none` is undefined behaviour. -/
def onTimer (F : Fp) (k : Kind) (t : Nat) (b : Bi) : Option Bi :=
  if (endPress k t b).active then some (endPress k t b) else basePass F k t (endPress k t b)

/-- Whether an operation is a configuration message. -/
def isConfig : Op → Bool
  | .config _ => true
  | _ => false

/-- An operation other than a timer pass. `inMove` of the class with three buttons (T 78-85) is true if a stop was
asked for, and forgets it; the operations that ask `inMove` then ask for a stop again, except for a configuration
message (`/repo/src/supla/control/roller_shutter_interface.cpp` 571). -/
def other (F : Fp) (k : Kind) (s : RS) (e : Nat × Op) : Option RS :=
  if k = .three ∧ asked s = true then
    (Shutter.step F { s with dir := if s.dir = .stop then .up else s.dir } e).map fun r =>
      { r with dir := s.dir, newTarget := r.newTarget && !isConfig e.2 }
  else Shutter.step F s e

/-- One operation at the time `e.1`. -/
def step (F : Fp) (k : Kind) (b : Bi) (e : Nat × Op) : Option Bi :=
  if e.2 = .pass then onTimer F k e.1 b else (other F k b.rs e).map b.withRs

/-- A history of operations; `none` once the behaviour is undefined. -/
def run (F : Fp) (k : Kind) : Bi → List (Nat × Op) → Option Bi
  | b, [] => some b
  | b, e :: h => (step F k b e).bind fun b => run F k b h

/-- The roller shutter after `onInit`: the outputs are off
(`/repo/src/supla/control/roller_shutter.cpp` 57-70, T 41-47). -/
def boot (b : Shutter.Boot) : Bi := { rs := Shutter.boot b, now := Level.free b.t }

end Verif.Pulse
