import Verif.Hvac.Mode
import Verif.Common.Clock
/-!
# Thermostat: following a master thermostat

Model of lines 618-663 and 685-710 of `HvacBase::iterateAlways` (src/supla/control/hvac_base.cpp):
the settings of the master are taken over, then there is a wait of 5 seconds after a change, then
timer and schedule are looked at, and only then does the regulation run (lines 711-839,
`Verif.Hvac.Control`).

The passes are those that come through the one second gate of line 597.  The master's mode is that of
its channel value (1 off, 2 heat, 3 cool, 4 heat/cool).
-/
namespace Verif.Hvac.Mode
open Verif

/-- What is compared, lines 629-647: set points not used by the master's mode are ignored. -/
def mask (m : Nat) (h c : Int) : Int × Int :=
  if m = 2 then (h, unset) else if m = 3 then (unset, c) else if m = 1 then (unset, unset) else (h, c)

/-- Lines 649-650.  The set points are compared without their flags. -/
def differs (mv : Val) (s : St) : Bool :=
  decide (s.v.mode ≠ mv.mode ∨ mask mv.mode s.v.heat s.v.cool ≠ mask mv.mode mv.heat mv.cool)

/-- Lines 657-660. -/
def takeOver (e : Env) (n : Now) (mv : Val) (s : St) : St :=
  let r := apply e n mv.mode (mask mv.mode mv.heat mv.cool).1 (mask mv.mode mv.heat mv.cool).2 0 s
  if r.2 then r.1 else setTarget e n 1 false r.1

/-- Lines 618-663. -/
def follow (e : Env) (n : Now) (mv : Val) (s : St) : St := if differs mv s then takeOver e n mv s else s

/-- Does `setTargetMode` (not keeping the schedule, mode 1 to 4) set `lastConfigChangeTimestampMs`:
lines 3151-3162, 3172 and 3202. -/
def modeStamps (e : Env) (m : Nat) (s : St) : Bool :=
  decide (¬ (s.v.mode = m ∧ s.weekly = false)) && !(e.blocked && decide (m ≠ 1)) && e.sup m

/-- Do lines 3400-3404 set it: lines 3498 and 3518. -/
def tempsStamp (m : Nat) (tH tC : Int) (s : St) : Bool :=
  (decide (m ≠ 9 ∧ s.weekly = false) || decide (s.over ≠ -1)) &&
    (decide ((if s.weekly = false ∧ tH = unset then s.manHeat else tH) ≠ unset) ||
     decide ((if s.weekly = false ∧ tC = unset then s.manCool else tC) ≠ unset))

/-- Do lines 657-660 set it (master's mode 1 to 4). -/
def takeOverStamps (e : Env) (n : Now) (mv : Val) (s : St) : Bool :=
  if e.sup mv.mode then
    let s := { s with countdown := false, ends := 1 }
    modeStamps e mv.mode s ||
      tempsStamp mv.mode (mask mv.mode mv.heat mv.cool).1 (mask mv.mode mv.heat mv.cool).2 (setTarget e n mv.mode false s)
  else modeStamps e 1 s

/-- The thermostat and `lastConfigChangeTimestampMs`. -/
structure Timed where
  s : St
  stamp : Nat

/-- A pass: true time in milliseconds, clock and schedule, master's value. -/
structure Pass where
  ms : Nat
  n : Now
  mv : Val

/-- `lastConfigChangeTimestampMs` when line 686 is reached. -/
def stampAt (e : Env) (t : Timed) (p : Pass) : Nat :=
  if differs p.mv t.s && takeOverStamps e p.n p.mv t.s then clk p.ms else t.stamp

/-- Lines 686-689: wait. -/
def waits (stamp ms : Nat) : Bool := decide (stamp ≠ 0 ∧ since (clk ms) stamp < 5000)

/-- One pass: the new state, and if the regulation is reached the state it works with.  Simplified:
after line 690 `lastConfigChangeTimestampMs` is taken as set again if the weekly schedule is on or
lines 692-710 change anything. -/
def masterPass (e : Env) (t : Timed) (p : Pass) : Timed × Option St :=
  let s := follow e p.n p.mv t.s
  let stamp := stampAt e t p
  if waits stamp p.ms then (⟨s, stamp⟩, none)
  else
    let s2 := passMode e p.n s
    (⟨s2, if s.weekly = true ∨ s2 ≠ s then clk p.ms else 0⟩, some s2)

/-- The passes that reach the regulation, with the master's value at that time. -/
def regulated (e : Env) (t : Timed) : List Pass → List (Val × St)
  | [] => []
  | p :: ps =>
    match (masterPass e t p).2 with
    | some s => (p.mv, s) :: regulated e (masterPass e t p).1 ps
    | none => regulated e (masterPass e t p).1 ps

/-- The state after a list of passes. -/
def after (e : Env) (t : Timed) (ps : List Pass) : Timed := ps.foldl (fun t p => (masterPass e t p).1) t

end Verif.Hvac.Mode
