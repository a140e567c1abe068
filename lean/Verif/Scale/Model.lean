import Mathlib.Algebra.Order.Field.Rat
import Mathlib.Data.Rat.Floor

/-! # HX711 scales

`/repo/src/supla/sensor/HX711.h` (A), `/repo/src/supla/sensor/weight.h` (B). `float` and `double` are taken as rational
numbers. The library HX711_ADC is not part of the repository; of it is taken: `getData` gives
(reading − tare offset) / calibration factor, `tare` takes the present reading as tare offset, `getNewCalibration(m)`
sets the factor so that the present reading gives `m` and returns it; its averaging is left out. -/

namespace Verif.Scale

/-- The saved state, `HX711ConfigData` (A 33-38). -/
structure Saved where
  tare : Nat
  cal : Rat
deriving DecidableEq, Repr

/-- The scales: `value` (`none`: not a number), `tareOffset`, `calValue`, `readyToCalibration` (A 153-158), the offset and
factor of the library, what storage holds, and the value of the channel. -/
structure S where
  value : Option Rat := some 0
  tare : Nat := 0
  cal : Rat := 0
  ready : Bool := false
  libTare : Nat := 0
  libCal : Rat := 1
  saved : Option Saved := none
  shown : Rat := -1
deriving DecidableEq, Repr

/-- Cast to `int`: towards zero (A 55). -/
def toInt (x : Rat) : Int := if 0 ≤ x then ⌊x⌋ else -⌊-x⌋

/-- The value before it is displayed (A 53). -/
def nearZero (v : Rat) : Rat := if v < 0 ∧ v > -1 then 0 else v

/-- One decimal (A 55-56); `none`: the number does not fit an `int`, undefined behaviour. -/
def decimal (v : Rat) : Option Rat :=
  if -2147483649 < v * 10 ∧ v * 10 < 2147483648 then some ((toInt (v * 10) : Rat) / 10) else none

/-- `getValue` (A 46-59) and `setNewValue`; `ok`: the measured sampling rate is between 7 and 100 Hz. -/
def display (ok : Bool) (s : S) : Option S :=
  if ok then
    match s.value with
    | none => none
    | some v => (decimal (nearZero v)).map fun w => { s with value := some w, shown := w }
  else some { s with value := some (-1), shown := -1 }

/-- `getData` of the library with reading `raw`. -/
def getData (s : S) (raw : Nat) : Option Rat :=
  if s.libCal = 0 then none else some (((raw : Rat) - s.libTare) / s.libCal)

/-- A sample has arrived (A 115-117). -/
def sample (s : S) (raw : Nat) : S := { s with value := getData s raw }

/-- `tareScales` (A 104-110) with reading `raw`. -/
def tare (s : S) (raw : Nat) : S := { s with libTare := raw, tare := raw % 2 ^ 32, ready := true }

/-- `getNewCalibration` of the library: the new factor (`getData() * calFactor / knownMass`). -/
def newCal (s : S) (raw : Nat) (mass : Rat) : Rat := ((raw : Rat) - s.libTare) / mass

/-- `calibrateScales` (A 87-102) with reading `raw`. -/
def calibrate (s : S) (raw : Nat) (mass : Rat) : S :=
  if s.ready then
    if mass > 0 then { s with cal := newCal s raw mass, libCal := newCal s raw mass, ready := false }
    else { s with ready := false }
  else { s with ready := false }

/-- `onSaveState` (A 135-141). -/
def save (s : S) : S := { s with saved := some ⟨s.tare, s.cal⟩ }

/-- `onLoadState` and `onInit` (A 124-133, 61-84) after a restart, up to the first display; `defCal` is the factor of the
constructor, `timeout`: the sensor did not answer in time (the factor of the library stays 1). -/
def restart (defCal : Rat) (timeout : Bool) (s : S) : S :=
  let t := (s.saved.getD ⟨0, 0⟩).tare
  let c := (s.saved.getD ⟨0, 0⟩).cal
  { tare := t, cal := c, libTare := t, libCal := if timeout then 1 else if c > 0 then c else defCal, saved := s.saved }

/-- What happens. -/
inductive Op where
  | sample (raw : Nat)
  | display (ok : Bool)
  | tare (raw : Nat)
  | calibrate (raw : Nat) (mass : Rat)
  | save
  | restart (timeout : Bool)
deriving DecidableEq, Repr

/-- One step. -/
def step (defCal : Rat) (s : S) : Op → Option S
  | .sample raw => some (sample s raw)
  | .display ok => display ok s
  | .tare raw => some (tare s raw)
  | .calibrate raw mass => some (calibrate s raw mass)
  | .save => some (save s)
  | .restart timeout => some (restart defCal timeout s)

/-- A history; `none`: undefined behaviour. -/
def run (defCal : Rat) (ops : List Op) (s : S) : Option S := ops.foldlM (step defCal) s

end Verif.Scale
