/-!
# Periodic reading of sensors

Models `Thermometer::iterateAlways` (`src/supla/sensor/thermometer.cpp` 50-55),
`ThermHygroMeter::iterateAlways` (`therm_hygro_meter.cpp` 80-85),
`ThermHygroPressMeter::iterateAlways` (`therm_hygro_press_meter.cpp` 33-38) and
the like of `weight.cpp` 49-54 and `ntc10k.cpp` 45-50.

Each call of `millis()` is a reading of the clock of its own: what it returns is
given, so the clock may move on between two calls.
-/

namespace Verif.Refresh

/-- `millis() - lastReadTime` in 32 bits. -/
def since (now last : Nat) : Nat := (now + 4294967296 - last % 4294967296) % 4294967296

/-- State of a meter: `lastReadTime` and the times at which temperature and
pressure were read, newest first.  Simplification: times are whole numbers, and
reduced to 32 bits where the difference is taken. -/
structure Meter where
  last : Nat
  temps : List Nat
  press : List Nat
  deriving DecidableEq, Repr

/-- As constructed: `lastReadTime` is 0 (`therm_hygro_meter.h` 61). -/
def fresh : Meter := { last := 0, temps := [], press := [] }

/-- The readings of the clock in one round: at the check of the pressure
(`therm_hygro_press_meter.cpp` 34), at the check of the temperature
(`therm_hygro_meter.cpp` 81) and when the time is kept (82). -/
structure Round where
  a : Nat
  b : Nat
  c : Nat
  deriving DecidableEq, Repr

/-- `ThermHygroMeter::iterateAlways`, `therm_hygro_meter.cpp` 80-85 (the same
code in `thermometer.cpp` 50-55, `weight.cpp` 49-54, `ntc10k.cpp` 45-50 with an
interval of 2000). -/
def tempRound (interval : Nat) (b c : Nat) (m : Meter) : Meter :=
  if since b m.last > interval then { m with last := c, temps := c :: m.temps } else m

/-- `ThermHygroPressMeter::iterateAlways`, `therm_hygro_press_meter.cpp` 33-38:
the pressure first, with the time kept by the other part. -/
def round (interval : Nat) (m : Meter) (r : Round) : Meter :=
  tempRound interval r.b r.c
    (if since r.a m.last > interval then { m with press := r.a :: m.press } else m)

/-- Rounds one after another. -/
def run (interval : Nat) : Meter → List Round → Meter
  | m, [] => m
  | m, r :: rs => run interval (round interval m r) rs

end Verif.Refresh
