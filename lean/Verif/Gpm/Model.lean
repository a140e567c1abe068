import Verif.Gpm.Spec
/-
Model of /repo/src/supla/sensor/general_purpose_channel_base.cpp, general_purpose_meter.cpp and
memory_variable_driver.cpp: value, counter, refresh.  A double is a rational number or NaN (`none`);
every operation rounds by the function `rnd`.  Infinities and signed zeros are not modelled.
-/
namespace Verif.Gpm

/-- getCalculatedValue (/repo/src/supla/sensor/general_purpose_channel_base.cpp:52-69). -/
def calculated (rnd : ℚ → ℚ) (raw : Option ℚ) (multiplier divider added : ℤ) : Option ℚ :=
  raw.map fun r =>
    let m := if multiplier ≠ 0 then rnd ((multiplier : ℚ) / 1000) else 1
    let d := if divider ≠ 0 then rnd ((divider : ℚ) / 1000) else 1
    let a := rnd (rnd (added : ℚ) / 1000)
    rnd (rnd (rnd (r * m) / d) + a)

/-- getFormattedValue (/repo/src/supla/sensor/general_purpose_channel_base.cpp:71-113): the text left
in an array of `maxSize` octets, without the terminator.  `print` is `%.*f`; the units are C strings
of up to 14 characters.  `none`: nothing is written. -/
def formatted (print : Nat → ℚ → List Char) (value : Option ℚ) (before after : List Char)
    (noSpaceBefore noSpaceAfter : Nat) (precision maxSize : Nat) : Option (List Char) :=
  let nb := if before = [] then true else decide (noSpaceBefore ≠ 0)
  let na := if after = [] then true else decide (noSpaceAfter ≠ 0)
  let number := match value with
    | none => "---".toList
    | some v => print precision v
  if maxSize = 0 then none
  else some ((before ++ (if nb then [] else [' ']) ++ number ++ (if na then [] else [' ']) ++ after).take
    (maxSize - 1))

/-- setChannelRefreshIntervalMs
(/repo/src/supla/sensor/general_purpose_channel_base.cpp:300-310). -/
def effective (ms : Nat) : Nat :=
  if ms = 0 then 5000 else if ms < 200 then 200 else ms

/-- The argument of setRefreshIntervalMs as stored
(/repo/src/supla/sensor/general_purpose_channel_base.cpp:312-328). -/
def stored (ms : ℤ) : Nat :=
  if ms < 0 then 0 else if ms > 65535 then 65535 else ms.toNat

/-- The part of a channel that reads the value: `lastRead` is an uint32_t, `value` the published
value. -/
structure Reader (V : Type) where
  refresh : Nat
  lastRead : Nat
  value : V

/-- iterateAlways (/repo/src/supla/sensor/general_purpose_channel_base.cpp:167-172) at clock reading
`t` (true time, the clock is its remainder). -/
def Reader.pass {V : Type} (r : Reader V) (t : Nat) (now : V) : Reader V :=
  if (t % 2 ^ 32 + 2 ^ 32 - r.lastRead) % 2 ^ 32 > r.refresh then
    { r with lastRead := t % 2 ^ 32, value := now }
  else r

/-- A meter with the value in memory (/repo/src/supla/sensor/general_purpose_meter.h:76-79,
memory_variable_driver.h:36); `saved` is what the storage has for it. -/
structure Meter where
  value : Option ℚ
  step : ℚ
  resetTo : ℚ
  keep : Bool
  saved : Option (Option ℚ)

/-- A new device: nothing stored; step, reset value and keeping are set by the program. -/
def Meter.fresh (step resetTo : ℚ) (keep : Bool) : Meter := ⟨none, step, resetTo, keep, none⟩

/-- One operation: setCounter, incCounter, decCounter
(/repo/src/supla/sensor/general_purpose_meter.cpp:261-271), RESET (lines 227-243), onSaveState
(lines 297-302) and a restart with onLoadState (lines 304-311), where the memory variable starts as
NaN. -/
def Meter.step1 (rnd : ℚ → ℚ) (m : Meter) : Op → Meter
  | .set v => { m with value := some (rnd (v : ℚ)) }
  | .inc d => { m with value := m.value.map fun x => rnd (x + if d = 0 then m.step else rnd (d : ℚ)) }
  | .dec d => { m with value := m.value.map fun x => rnd (x - if d = 0 then m.step else rnd (d : ℚ)) }
  | .reset => { m with value := some m.resetTo }
  | .save => if m.keep then { m with saved := some m.value } else m
  | .restart =>
    if m.keep then
      match m.saved with
      | some v => { m with value := v }
      | none => { m with value := none }
    else { m with value := none }

/-- A history of operations. -/
def Meter.run (rnd : ℚ → ℚ) (m : Meter) : List Op → Meter
  | [] => m
  | o :: os => (m.step1 rnd o).run rnd os

/-- handleCalcfgFromServer (/repo/src/supla/sensor/general_purpose_meter.cpp:245-259) for the reset
command: the result code, 2 done, 104 unauthorised.  The flag that announces the command to the server
(`supported`) is not looked at. -/
def Meter.calcfgReset (m : Meter) (_supported : Bool) (superUser : Nat) : Meter × Nat :=
  if superUser = 0 then (m, 104) else ({ m with value := some m.resetTo }, 2)

end Verif.Gpm
