/-
An output pin that shows the state of another pin (`PinStatusLed`).

Code modelled (P: `src/supla/control/pin_status_led.cpp`, I: `src/supla/io.cpp`): `onInit` (P 37-40), `iterateAlways`
(P 42-46), `onTimer` (P 48-52), `setInvertedLogic` (P 54-57), `updatePin` (P 59-65), `setWorkOnTimer` (P 67-69),
`Io::digitalRead`, `Io::digitalWrite` (I 67-73, 98-119: the value written has eight bits).

Simplifications: the output is a pin of the controller (no `Io` object) with a latch: written in either mode, on the pin and
read back only when the pin is an output; as an input the pin has the level of the circuit around it. The source may be a pin
or an `Io` object, which returns any `int`. The timer does not run in the middle of another call.
-/
namespace Verif.Lamp

structure M where
  output : Bool   -- mode of the output pin
  latch : Bool    -- its latch
  ext : Bool      -- level of the circuit around it
  src : Int       -- what `digitalRead` gives for the source
  invert : Bool
  onTimer : Bool
  writes : Nat    -- calls of `digitalWrite`
deriving DecidableEq, Repr

/-- The level on the output pin, which is also what is read back. -/
def level (m : M) : Bool := if m.output then m.latch else m.ext

/-- Lines P 60-61: the value to be shown (`!value` is 0 or 1). -/
def value (m : M) : Int := if m.invert then (if m.src = 0 then 1 else 0) else m.src

/-- `updatePin` (P 59-65); `digitalWrite` takes a `uint8_t` (I 71, 105-118). -/
def update (m : M) : M :=
  if value m ≠ (if level m then 1 else 0) then { m with latch := decide (value m % 256 ≠ 0), writes := m.writes + 1 } else m

inductive Op
  | source (v : Int)
  | around (b : Bool)
  | init
  | iterate
  | timer
  | setInverted (b : Bool)
  | setOnTimer (b : Bool)
deriving DecidableEq, Repr

def step (m : M) : Op → M
  | .source v => { m with src := v }
  | .around b => { m with ext := b }
  | .init => { update m with output := true }
  | .iterate => if m.onTimer then m else update m
  | .timer => if m.onTimer then update m else m
  | .setInverted b => update { m with invert := b }
  | .setOnTimer b => { m with onTimer := b }

def run : M → List Op → M
  | m, [] => m
  | m, o :: os => run (step m o) os

end Verif.Lamp
