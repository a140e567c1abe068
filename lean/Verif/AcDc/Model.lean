import Verif.Common.Clock

/-!
# Input that detects mains voltage (AC) or a DC level by interrupts (ESP-IDF)

Model of one input of `/repo/extras/esp-idf/supla-interrupt-ac-to-dc-io/interrupt_ac_to_dc_io.cpp` (cited as A) that was
added with `addGpio` and initialised.

Simplified: the interrupt handler and the timer do not overlap; `now` is the time without overflow, the program sees
`clk now`. The two fields `edgeAt` and `tickAt` are not in the program.
-/

namespace Verif.AcDc

/-- The state: level of the pin, `gpioInterrupts`, `gpioState` (0 off, 1 on, 2 one interrupt seen),
`gpioLastTimestampMs`; `edgeAt` is the time of the last call of the timer that saw an interrupt, `tickAt` of the last
call. -/
structure S where
  now : Nat
  level : Bool
  flag : Bool := false
  st : Nat := 0
  ts : Nat := 0
  edgeAt : Nat := 0
  tickAt : Nat
deriving DecidableEq, Repr

/-- What happens: the level changes (interrupt on any edge, A 33-38, 75), time passes, the timer is called. -/
inductive Ev where
  | edge
  | wait (ms : Nat)
  | tick
deriving DecidableEq, Repr

/-- State after an interrupt was seen (A 134-140). -/
def seenEdge (st : Nat) : Nat := if st = 0 then 2 else if st = 2 then 1 else st

/-- `onFastTimer` (A 126-157); `T` is the timeout, not negative. -/
def tick (T : Nat) (s : S) : S :=
  if s.flag then { s with flag := false, st := seenEdge s.st, ts := clk s.now, edgeAt := s.now, tickAt := s.now }
  else if s.ts ≠ 0 ∧ since (clk s.now) s.ts > T then
    { s with ts := 0, st := if s.level then 1 else 0, tickAt := s.now }
  else { s with tickAt := s.now }

/-- One step. -/
def step (T : Nat) (s : S) : Ev → S
  | .edge => { s with level := !s.level, flag := true }
  | .wait ms => { s with now := s.now + ms }
  | .tick => tick T s

/-- A history. -/
def run (T : Nat) (es : List Ev) (s : S) : S := es.foldl (step T) s

/-- After `initialize` at time `t` with the pin at `level` (A 42-46, 64): the level is not looked at. -/
def init (t : Nat) (level : Bool) : S := { now := t, level := level, tickAt := t }

/-- `customDigitalRead` (A 115-124). -/
def read (s : S) : Bool := s.st = 1

end Verif.AcDc
