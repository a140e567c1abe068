import Verif.Drop.Spec

/-!
# The temperature drop sensor

`/repo/src/supla/sensor/temperature_drop_sensor.cpp` (TD below) and `.h` (TH). `thermometer->getTempInt16()` is given
with each pass, `INT16_MIN` if there is no reading; the thermometer itself is there. The channel is the virtual
binary sensor's (C99).
-/

namespace Verif.Drop

/-- TH lines 38-56: `measurements`, `measurementIndex`, `lastTemperatureUpdate`, `averageAtDropDetection`,
`dropDetectionTimestamp`, and the state of the virtual binary sensor, true for closed. -/
structure St where
  meas : Nat → Int
  idx : Nat
  last : Nat
  avg : Int
  ts : Nat
  closed : Bool

/-- The constructor, TD lines 25-34. -/
def St.init : St := ⟨fun _ => unset, 0, 0, unset, 0, true⟩

/-- TD lines 78-82: the index of the first measurement of the average; two measurements per minute. -/
def from26 (idx : Nat) : Nat := if idx < 26 then idx + 34 else idx - 26

/-- The measurements that are there, of 21 in a row, TD lines 100-109. -/
def window (meas : Nat → Int) (start : Nat) : List Int :=
  ((List.range 21).map (fun i => meas ((start + i) % 60))).filter (fun t => decide (unset < t))

/-- `getAverage`, TD lines 93-116; the sum of 21 `int16_t` fits an `int`, the average an `int16_t`. -/
def average (meas : Nat → Int) (start : Nat) : Int :=
  if (window meas start).length = 0 then unset else Int.tdiv (window meas start).sum (window meas start).length

/-- `detectTemperatureDrop`, TD lines 74-91: the average and the verdict. -/
def detect (s : St) (t : Int) : Int × Bool :=
  let a := average s.meas (from26 s.idx)
  (a, decide (a > unset) && decide (t - a < -200))

/-- TD lines 44-50: the measurement is stored. -/
def store (s : St) (t : Int) : St :=
  if unset < t then { s with meas := fun i => if i = s.idx then t else s.meas i, idx := if s.idx + 1 ≥ 60 then 0 else s.idx + 1 } else s

/-- TD lines 53-58: the temperature is back. -/
def recover (s : St) (t : Int) : St :=
  if t - s.avg > -100 then
    if (detect s t).2 then { s with avg := (detect s t).1 } else { s with avg := (detect s t).1, closed := true, ts := 0 }
  else s

/-- TD lines 61-64: half an hour is over. -/
def expire (now : Nat) (s : St) : St :=
  if since (clk now) s.ts > 1800000 then { s with closed := true, ts := 0 } else s

/-- TD lines 65-70: no drop was noticed so far. -/
def notice (now : Nat) (s : St) (t : Int) : St :=
  if (detect s t).2 then { s with avg := (detect s t).1, closed := false, ts := clk now } else { s with avg := (detect s t).1 }

/-- `iterateAlways`, TD lines 39-72. -/
def step (s : St) (p : Pass) : St :=
  if since (clk p.now) s.last ≥ 30000 then
    let s := store { s with last := clk p.now } p.temp
    if s.ts ≠ 0 then expire p.now (recover s p.temp) else notice p.now s p.temp
  else s

/-- A history, newest first. -/
def run : List Pass → St
  | [] => St.init
  | p :: ps => step (run ps) p

end Verif.Drop
