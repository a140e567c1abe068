import Verif.Relay.Model
/-!
# Specification for C23 and C24
-/

namespace Verif.Relay

/-- The relay works as a staircase or impulse (gate, door, ...) switch: turn-on time is fixed. -/
def Relay.timed (s : Relay) : Bool := s.isStair || s.isImpulse

/-- The relay object exists in a running device: started (with or without saved state) and then
used in any way. -/
def Reachable (c : Config) (s : Relay) : Prop :=
  ∃ pin saved t motion soft h, s = run (boot c pin saved t motion soft) h

/-- Commands that turn the relay on, and for how long, in milliseconds; 0 means without end. For
a staircase or impulse relay it is the fixed time if one is set, otherwise the requested time is
adopted when a minimum duration is configured. -/
def onCommand (s : Relay) : Op → Option Nat
  | .turnOn d => some (fixedOr s (d % 2 ^ 32))
  | .toggle d => if s.isOn then none else some (fixedOr s (d % 2 ^ 32))
  | .action .turnOn => some (fixedOr s 0)
  | .action .toggle => if s.isOn then none else some (fixedOr s 0)
  | .action .turnOnWithoutTimer => some 0
  | .server 1 d =>
    if s.defFn = fnPump ∨ s.defFn = fnHeatCold then none
    else
      let d := max (d % 2 ^ 32) s.minDur
      some (if s.isImpulse then d else if s.isStair ∧ d ≠ 0 then fixedOr s d else d)
  | _ => none
where
  /-- the fixed time, or the requested one -/
  fixedOr (s : Relay) (d : Nat) : Nat :=
    if s.timed then (if s.stored = 0 ∧ s.minDur > 0 then d else s.stored) else d

/-- Operations that are not commands to switch the relay. -/
def Op.quiet : Op → Bool
  | .config .. | .defFunction _ | .setMin _ | .setCountdown _ | .pass => true
  | _ => false

/-- Times of the periodic passes in a history. -/
def passes (h : List (Nat × Op)) : List Nat :=
  h.filterMap fun e => match e.2 with | .pass => some e.1 | _ => none

/-- Periodic passes come in time order from `t` on, each at most `g` ms after the previous one. -/
def Steady (g : Nat) : Nat → List Nat → Prop
  | _, [] => True
  | t, x :: xs => t ≤ x ∧ x ≤ t + g ∧ Steady g x xs

/-- Nondecreasing pass times from `t` on. -/
def Ordered : Nat → List Nat → Prop
  | _, [] => True
  | t, x :: xs => t ≤ x ∧ Ordered x xs

/-- C23 in full: a relay turned on for `d` ms is on exactly until the first pass later than `d` ms
after the command, and off ever after, for any spacing of the passes. -/
def TimedOnEnds : Prop :=
  ∀ (c : Config) (s : Relay), Reachable c s → ∀ (t : Nat) (o : Op) (d : Nat),
    onCommand s o = some d → d ≠ 0 → ∀ h : List (Nat × Op), (∀ e ∈ h, e.2.quiet) →
    Ordered t (passes h) →
    ((run (step s (t, o)) h).isOn = true ↔ ∀ x ∈ passes h, x ≤ t + d)

/-- Milliseconds until the running timer ends, `none` if no timer runs. A timer that is due but not
yet handled by a pass has 0 left. -/
def timer (t : Nat) (s : Relay) : Option Nat :=
  if s.durationMs = 0 then none else some (s.durationMs - since (clk t) s.ts)

/-- On/off state required right after a restart. -/
def expectedOn (c : Config) (motion : List Bool) (s : Relay) : Bool :=
  match motion.getLast? with
  | some m => m
  | none => if c.default = 1 then true else if c.default = 0 then false else s.isOn

/-- Timer required right after a restart of an unchanged relay: a fixed-time relay that comes up on
starts its fixed time anew; another relay that restores its state resumes the remaining time. -/
def expectedTimer (c : Config) (motion : List Bool) (t : Nat) (s : Relay) : Option Nat :=
  if s.timed then
    if expectedOn c motion s ∧ s.stored ≠ 0 then some s.stored else none
  else if c.default = -1 then timer t s
  else none

/-- What must survive a restart: state, kind of function, fixed time and timer. `r` is the relay
after the restart at time `t'`, `s` the relay when its state was saved at time `t`. -/
structure Survives (c : Config) (motion : List Bool) (t t' : Nat) (s r : Relay) : Prop where
  on : r.isOn = expectedOn c motion s
  stair : r.isStair = s.isStair
  impulse : r.isImpulse = s.isImpulse
  fixed : s.timed → r.stored = s.stored
  timer : timer t' r = expectedTimer c motion t s

/-- C24 in full. -/
def RestartSurvives : Prop :=
  ∀ (c : Config), c.default = -1 ∨ c.default = 0 ∨ c.default = 1 → ∀ s, Reachable c s →
  ∀ t t' pin motion soft,
    Survives c motion t t' s (boot c pin (some (save t s)) t' motion soft)

end Verif.Relay
