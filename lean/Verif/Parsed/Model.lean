import Verif.Common.Clock
import Mathlib.Algebra.Order.Field.Rat

/-!
# Numbers read from files and commands (Linux port): the model

`/repo/extras/porting/linux/supla/parser/{parser,simple,json}.cpp` and the sensors in
`/repo/extras/porting/linux/supla/sensor/*_parsed.cpp`. Several sensors may share a parser, which reads its source at most
once in `refresh_time_ms`.

Simplified: a source's content, once parsed, is a function from keys to numbers (`none`: no such key, or no number there); text is
not modelled here. Numbers are rationals, without the rounding of `double`.
-/

namespace Verif.Parsed

/-- Parsed content. -/
abbrev Doc := String → Option ℚ

/-- `parser.h` lines 48-52 and the parsed content (`simple.h` line 46, `json.h`). -/
structure Parser where
  refreshMs : Nat
  last : Nat
  valid : Bool
  doc : Doc

/-- A new parser; `setRefreshTime`, parser.cpp lines 39-44. -/
def new (timeMs : Nat) : Parser := ⟨if timeMs < 10 then 10 else timeMs, 0, false, fun _ => none⟩

/-- `refreshSource`, simple.cpp lines 67-100, json.cpp lines 30-50: `none` is a source that gave nothing usable. -/
def refreshSource (c : Option Doc) (p : Parser) : Parser × Bool :=
  match c with
  | none => ({ p with valid := false }, false)
  | some d => ({ p with valid := true, doc := d }, true)

/-- `refreshParserSource`, parser.cpp lines 31-37. `src` is the content of the source at each time. -/
def refresh (src : Nat → Option Doc) (t : Nat) (p : Parser) : Parser × Bool :=
  if p.last = 0 ∨ since (clk t) p.last > p.refreshMs then refreshSource (src t) { p with last := clk t } else (p, true)

/-- `getValue`, simple.cpp lines 28-43, json.cpp lines 56-75: a missing key gives 0 and makes the parser invalid. -/
def getValue (key : String) (p : Parser) : Parser × ℚ :=
  match p.doc key with
  | none => ({ p with valid := false }, 0)
  | some v => (p, v)

/-- A sensor's `getValue`, thermometer_parsed.cpp lines 32-49 (humidity, pressure, rain, wind, weight, distance and the general
purpose channels are the same): `none` is "not available". `m`: `getParameterValue`, sensor_parsed.cpp lines 60-66. -/
def sensor (src : Nat → Option Doc) (t : Nat) (key : String) (m : ℚ) (p : Parser) : Parser × Option ℚ :=
  if (refresh src t p).2 then
    (let g := getValue key (refresh src t p).1
     (g.1, if g.1.valid then some (g.2 * m) else none))
  else ((refresh src t p).1, none)

/-- A reading: when, which key, which multiplier. -/
structure Ask where
  t : Nat
  key : String
  m : ℚ

/-- A history of readings of sensors that share a parser, newest first. -/
def run (src : Nat → Option Doc) (timeMs : Nat) : List Ask → Parser
  | [] => new timeMs
  | a :: as => (sensor src a.t a.key a.m (run src timeMs as)).1

/-- What a reading after a history gives. -/
def answer (src : Nat → Option Doc) (timeMs : Nat) (as : List Ask) (a : Ask) : Option ℚ := (sensor src a.t a.key a.m (run src timeMs as)).2

/-- `ImpulseCounterParsed::getValue`, impulse_counter_parsed.cpp lines 39-61, as a rational. -/
def counter (src : Nat → Option Doc) (timeMs : Nat) (as : List Ask) (a : Ask) : ℚ := (answer src timeMs as a).getD 0

/-- `ElectricityMeterParsed::readValuesFromDevice`, electricity_meter_parsed.cpp lines 29-42, 185-187 and 200-206, for one register: the
number it is set to, `none` if the source cannot be read. `f` is 100000 for energies and 100 for voltages. -/
def meter (src : Nat → Option Doc) (f : ℚ) (t : Nat) (key : String) (m : ℚ) (p : Parser) : Parser × Option ℚ :=
  if (refresh src t p).2 then
    (let g := getValue key (refresh src t p).1
     (g.1, some (g.2 * m * f)))
  else ((refresh src t p).1, none)

/-- A meter alone with its parser. -/
def runMeter (src : Nat → Option Doc) (f : ℚ) (timeMs : Nat) : List Ask → Parser
  | [] => new timeMs
  | a :: as => (meter src f a.t a.key a.m (runMeter src f timeMs as)).1

/-- What a voltage shows: it is cleared when the source cannot be read, electricity_meter.cpp lines 327-342. -/
def voltage (src : Nat → Option Doc) (timeMs : Nat) (as : List Ask) (a : Ask) : ℚ := ((meter src 100 a.t a.key a.m (runMeter src 100 timeMs as)).2).getD 0

/-- What an energy shows: it is kept. -/
def energy (src : Nat → Option Doc) (timeMs : Nat) : List Ask → ℚ
  | [] => 0
  | a :: as => ((meter src 100000 a.t a.key a.m (runMeter src 100000 timeMs as)).2).getD (energy src timeMs as)

end Verif.Parsed
