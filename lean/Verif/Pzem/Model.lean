import Mathlib.Algebra.Order.Field.Rat
import Mathlib.Data.Nat.Sqrt

/-!
# PZEM meters: from the reading of the module to the measured values

Model of `readValuesFromDevice` of `/repo/src/supla/sensor/PzemV3.h` (cited as V3), `three_phase_PzemV3.h` (T),
`three_phase_PzemV3_ADDR.h` (A) and `PzemV2.h` (V2), and of the setters of
`/repo/src/supla/sensor/electricity_meter.cpp` (M) that they call.

Numbers are rationals; a product or quotient of two `float`s is `F` of the exact one. Simplified: the square root is
not rounded by itself (its integer part is computed exactly), a NaN is `none` and infinities do not appear (the library
of the module divides integers).
-/

namespace Verif.Pzem

/-- What the library of the module returns: amperes, volts, watts, energy, hertz and power factor. `none` is NaN.
The energy is in kWh for version 3, in Wh for version 2. -/
structure Reading where
  current : Option Rat
  voltage : Option Rat
  power : Option Rat
  energy : Option Rat
  freq : Option Rat
  pf : Option Rat
deriving DecidableEq, Repr

/-- One driver: number of modules, the factors of reactive power and of energy, and whether it is version 2 of the
module, which has neither frequency nor power factor and marks an error with −1. -/
structure Driver where
  phases : Nat
  reactFactor : Nat
  energyFactor : Nat
  two : Bool
deriving DecidableEq, Repr

/-- V3 69-96. -/
def v3 : Driver := ⟨1, 100000, 100000, false⟩
/-- T 79-116. -/
def threePhase : Driver := ⟨3, 10000, 100000, false⟩
/-- A 82-119. -/
def threePhaseAddr : Driver := ⟨3, 100000, 100000, false⟩
/-- V2 49-83. -/
def v2 : Driver := ⟨1, 10000, 100, true⟩

/-- The measured values of one phase, in the units of the setters (M 162-313). -/
structure Phase where
  voltage : Nat := 0
  current : Nat := 0
  active : Int := 0
  reactive : Int := 0
  apparent : Int := 0
  pf : Int := 0
  energy : Nat := 0
deriving DecidableEq, Repr

/-- The state of the meter: its phases, the frequency, `m_count` and whether `measured_values` is not 0. -/
structure S where
  ph : Nat → Phase := fun _ => {}
  freq : Nat := 0
  count : Nat := 0
  measured : Bool := false

/-- Conversion of a number to an integer: towards zero. -/
def trunc (x : Rat) : Int := if 0 ≤ x then x.floor else -(-x).floor

/-- Conversion of a `float` to an unsigned type with `m` values; `none` is undefined. -/
def toU (m : Nat) : Option Rat → Option Nat
  | none => none
  | some x => if -1 < x ∧ x < m then some (trunc x).toNat else none

/-- Conversion of a `float` to a signed type with values from `-m` below `m`; `none` is undefined. -/
def toS (m : Nat) : Option Rat → Option Int
  | none => none
  | some x => if -(m : Rat) - 1 < x ∧ x < m then some (trunc x) else none

/-- A product of a reading with a factor. -/
def scaled (F : Rat → Rat) (k : Nat) (x : Option Rat) : Option Rat := x.map fun v => F (v * k)

/-- The integer part of `k` times the square root of `q`. -/
def truncSqrt (k : Nat) (q : Rat) : Int := (Nat.sqrt (q * ((k : Rat) * k)).floor.toNat : Nat)

/-- Reactive power from apparent and active power (V3 81-86, T 95-100, A 98-103, V2 59-67), already with its factor
and converted. Comparisons with NaN are false. -/
def reactive (F : Rat → Rat) (k : Nat) : Option Rat → Option Rat → Int
  | some a, some p => if a > p then truncSqrt k (F (F (a * a) - F (p * p))) else 0
  | _, _ => 0

/-- The power factor that version 2 computes (V2 68-74). -/
def powerFactor (F : Rat → Rat) : Option Rat → Option Rat → Option Rat
  | some a, some p => if p > a then some 1 else if a = 0 then some 0 else some (F (p / a))
  | _, _ => none

/-- Did the module answer? (V3 70-76, T 82-88, A 85-91: not NaN; V2 50-56: not −1) -/
def answered (d : Driver) (r : Reading) : Bool := if d.two then r.current ≠ some (-1) else r.current.isSome

/-- The apparent power (V3 80, T 94, A 97, V2 62). -/
def apparent (F : Rat → Rat) (r : Reading) : Option Rat :=
  match r.voltage, r.current with
  | some v, some i => some (F (v * i))
  | _, _ => none

/-- `int16` of an `int` (M 308 stores into `power_factor`). -/
def toI16 (x : Int) : Int := (x + 32768) % 65536 - 32768

/-- The setters for one module that answered (V3 88-95, T 102-108, A 105-111, V2 76-82). -/
def setPhase (F : Rat → Rat) (d : Driver) (r : Reading) : Option Phase := do
  let v ← toU 65536 (scaled F 100 r.voltage)
  let i ← toU 4294967296 (scaled F 1000 r.current)
  let p ← toS 9223372036854775808 (scaled F 100000 r.power)
  let e ← toU 18446744073709551616 (scaled F d.energyFactor r.energy)
  let f ← toS 2147483648 (scaled F 1000 (if d.two then powerFactor F (apparent F r) r.power else r.pf))
  let a ← toS 9223372036854775808 (scaled F 100000 (apparent F r))
  pure { voltage := v, current := i, active := p, reactive := reactive F d.reactFactor (apparent F r) r.power, apparent := a, pf := toI16 f, energy := e }

/-- The frequency (V3 92, T 110, A 113; version 2 has none). -/
def setFreq (F : Rat → Rat) (d : Driver) (r : Reading) (old : Nat) : Option Nat :=
  if d.two then some old else toU 65536 (scaled F 100 r.freq)

/-- `resetReadParametersForPhase` (M 344-360): the energy stays. -/
def resetPhase (p : Phase) : Phase := { energy := p.energy }

/-- `resetReadParameters` (M 327-342): the energies stay. -/
def reset (s : S) : S :=
  if s.measured then { ph := fun i => resetPhase (s.ph i), freq := 0, count := 0, measured := true }
  else { s with count := 0 }

/-- One module (T 81-111). -/
def readPhase (F : Rat → Rat) (d : Driver) (i : Nat) (r : Reading) (s : S) : Option S :=
  if answered d r then do
    let p ← setPhase F d r
    let f ← setFreq F d r s.freq
    pure { ph := fun j => if j = i then p else s.ph j, freq := f, count := 1, measured := true }
  else some { s with ph := fun j => if j = i then resetPhase (s.ph j) else s.ph j }

/-- The modules one after another, from number `i`. -/
def readFrom (F : Rat → Rat) (d : Driver) (rs : Nat → Reading) : Nat → Nat → S → Option S
  | 0, _, s => some s
  | n + 1, i, s => (readPhase F d i (rs i) s).bind (readFrom F d rs n (i + 1))

/-- `readValuesFromDevice`. In the drivers of one module the phase is not reset by itself when the module does not
answer, `resetReadParameters` is called at once; it gives the same (the phase is 0 as long as nothing was
measured, see `Inv`). -/
def read (F : Rat → Rat) (d : Driver) (rs : Nat → Reading) (s : S) : Option S :=
  (readFrom F d rs d.phases 0 s).map fun t =>
    if (List.range d.phases).any (fun i => answered d (rs i)) then t else reset t

/-- A history of readings. -/
def run (F : Rat → Rat) (d : Driver) (h : List (Nat → Reading)) (s : S) : Option S :=
  h.foldlM (fun s rs => read F d rs s) s

end Verif.Pzem
