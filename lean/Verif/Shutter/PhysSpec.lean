import Verif.Shutter.Spec
import Mathlib.Algebra.Order.Field.Rat
/-!
# A shutter with its motor

The program sees only time; here the shutter itself is described: it moves at constant speed while one of the two outputs is
on, and stands at its ends. Written without regard to how the program computes the position.
-/

namespace Verif.Shutter

/-- An installation: how long the shutter takes to open and to close, whether the motor is wired the other way round, and how
long it takes at most until a timer pass finds no command waiting. -/
structure Rig where
  opening : Nat
  closing : Nat
  swapped : Bool
  gap : Nat

/-- The motor gets no power. -/
def RS.off (s : RS) : Bool := !s.upOn && !s.downOn

/-- The shutter is driven open. -/
def Rig.opens (R : Rig) (s : RS) : Bool := if R.swapped then s.downOn && !s.upOn else s.upOn && !s.downOn

/-- The shutter is driven closed. -/
def Rig.closes (R : Rig) (s : RS) : Bool := if R.swapped then s.upOn && !s.downOn else s.downOn && !s.upOn

/-- Where the shutter is `dt` ms later; 0 is open, 100 closed. -/
def Rig.shift (R : Rig) (s : RS) (x : Rat) (dt : Nat) : Rat :=
  if R.opens s then max 0 (x - 100 * dt / R.opening)
  else if R.closes s then min 100 (x + 100 * dt / R.closing)
  else x

/-- The device, where the shutter is, the time, the last timer pass that found no command waiting (or the motor off), and how
often the motor was started since shutter and device last agreed on an end position. -/
structure World where
  s : RS
  x : Rat
  now : Nat
  fresh : Nat
  moves : Nat

/-- The shutter stands at an end, and the device knows. -/
def atEnd (s : RS) (x : Rat) : Bool := s.off && (decide (s.pos = 0 ∧ x = 0) || decide (s.pos = 100 ∧ x = 100))

/-- How often the motor was started. -/
def count (n : Nat) (s s' : RS) (x : Rat) : Nat :=
  if atEnd s' x then 0 else if s.off && !s'.off then n + 1 else n

/-- The last pass that found no command waiting. -/
def freshAt (fresh : Nat) (s : RS) (e : Nat × Op) : Nat :=
  if e.2 = .pass ∧ (s.newTarget = false ∨ s.off = true) then e.1 else fresh

/-- The world after an event. -/
def Rig.next (R : Rig) (w : World) (e : Nat × Op) (s' : RS) : World :=
  ⟨s', R.shift w.s w.x (e.1 - w.now), e.1, freshAt w.fresh w.s e, count w.moves w.s s' (R.shift w.s w.x (e.1 - w.now))⟩

/-- An event: the shutter moves until then, then the device acts. -/
def Rig.step (F : Fp) (R : Rig) (w : World) (e : Nat × Op) : Option World := (Shutter.step F w.s e).map (R.next w e)

/-- A history. -/
def Rig.run (F : Fp) (R : Rig) : World → List (Nat × Op) → Option World
  | w, [] => some w
  | w, e :: h => (R.step F w e).bind fun w' => R.run F w' h

/-- An event in time order, not too late for the timer, and (unless it is a timer pass) one that does not override the position,
the travel times, the calibration or the wiring: a command to move or stop. -/
def Rig.Fair (R : Rig) (w : World) (e : Nat × Op) (s' : RS) : Prop :=
  w.now ≤ e.1 ∧ e.1 ≤ w.fresh + R.gap ∧ (e.2 ≠ .pass → s'.pos = w.s.pos ∧ s'.opening = w.s.opening ∧
    s'.closing = w.s.closing ∧ s'.calibrate = w.s.calibrate ∧ s'.motor = w.s.motor)

/-- All events are fair. -/
def Rig.FairRun (F : Fp) (R : Rig) : World → List (Nat × Op) → Prop
  | _, [] => True
  | w, e :: h => ∀ s', Shutter.step F w.s e = some s' → R.Fair w e s' ∧ R.FairRun F (R.next w e s') h

/-- A device started in this installation, with the right settings and a position that is right. -/
def Rig.Fits (R : Rig) (b : Boot) : Prop :=
  b.opening = R.opening ∧ b.closing = R.closing ∧ (b.motor = 2 ↔ R.swapped = true) ∧ 0 ≤ b.pos ∧ b.pos ≤ 100

/-- The world when the device starts. -/
def Rig.begin (b : Boot) : World := ⟨boot b, b.pos, b.t, b.t, 0⟩

/-- Percent per millisecond, in the faster direction. -/
def Rig.speed (R : Rig) : Rat := 100 / (min R.opening R.closing : Nat)

/-- What a movement can add to the error: less than one percent for whole numbers, the movement between two passes, a
millisecond, and rounding. -/
def Rig.unsure (R : Rig) : Rat := 1 + R.speed * (R.gap + 1) + 1 / 500

/-- How far from the wanted position the shutter can stop. -/
def Rig.late (R : Rig) : Rat := R.speed * (R.gap + 1) + 1 / 250

end Verif.Shutter
