import Mathlib.Data.List.Basic
import Mathlib.Algebra.Order.Field.Rat

/-!
# Sensors: what they send, and what is meant by reporting it

The frames are those of the data sheets. Temperatures of thermocouples are in quarters of a degree.
-/

namespace Verif.Probe

/-- The `n` low bits of a word as they come over the line, highest first. -/
def bits : Nat → Nat → List Bool
  | 0, _ => []
  | n + 1, w => decide (w / 2 ^ n % 2 = 1) :: bits n w

/-- MAX31855: 14 bits of the thermocouple (quarters of a degree), a zero, a bit for any fault, 12 bits of the chip
itself (sixteenths of a degree), a zero, three bits for the faults. -/
def frame31855 (tc chip : Int) (fault : Nat) : Nat :=
  (tc % 16384).toNat * 2 ^ 18 + (if fault = 0 then 0 else 2 ^ 16) + (chip % 4096).toNat * 2 ^ 4 + fault

/-- MAX6675: a zero, 12 bits of the thermocouple (quarters of a degree), a bit for an open thermocouple, a zero, a
last bit that may be anything. -/
def frame6675 (tc : Nat) (op : Bool) (last : Nat) : Nat := tc * 2 ^ 3 + (if op then 4 else 0) + last

/-- What is to be reported after some attempts (newest first) to read a sensor: the newest reading, if there is one among
the last four attempts. -/
def held {α : Type} (rs : List (Option α)) : Option α := ((rs.take 4).filterMap id).head?

/-- Sonoff Si7021: humidity and temperature in tenths, the temperature as a sign and a number, and the sum. -/
def frameSi (humi : Nat) (temp : Int) : List Nat :=
  let a := humi / 256
  let b := humi % 256
  let c := temp.natAbs / 256 + (if temp < 0 then 128 else 0)
  let d := temp.natAbs % 256
  [a, b, c, d, (a + b + c + d) % 256]

end Verif.Probe
