/-!
# Pads of an ESP32 behind `pinMode` and `digitalWrite`

Models `extras/porting/esp-idf/esp_idf_gpio.cpp` 41-84 and the order of the
calls made at start by the elements that own an output: `relay.cpp` 180-197,
`internal_pin_output.cpp` 108-123, `roller_shutter.cpp` 57-67,
`bistable_relay.cpp` 66-76, `tripple_button_roller_shutter.cpp` 43-46 and
`blinking_led.cpp` 39-46 (all in `src/supla/control`).

The chip is not part of the repository.  A pad is taken as the documentation
of ESP-IDF describes it: the registers keep the mode and the level asked for;
while the pad is held it shows the mode and level it had when the hold was
enabled, and changes of the registers show only after the hold is disabled.
-/

namespace Verif.Pads

/-- Mode of a pad, `gpio_mode_t` of ESP-IDF as used in `esp_idf_gpio.cpp`
48, 55-56, 60 and, for the zero left by line 44, disabled. -/
inductive Mode where
  | disabled | input | pullup | both
  deriving DecidableEq, Repr

/-- A pad: registers `mode` and `level`; `held` is what was latched by
`gpio_hold_en` (`esp_idf_gpio.cpp` 83), nothing after `gpio_hold_dis`
(50, 63, 81). -/
structure Pad where
  mode : Mode
  level : Bool
  held : Option (Mode × Bool)
  deriving DecidableEq, Repr

/-- A pad after power on.  Simplification: a chip that restarts by software
keeps its holds; that start is not modelled. -/
def fresh : Pad := { mode := .disabled, level := false, held := none }

/-- What the pad shows outside (documentation of ESP-IDF, see above). -/
def shows (p : Pad) : Mode × Bool :=
  match p.held with
  | some e => e
  | none => (p.mode, p.level)

/-- Level the pad puts on the wire, or nothing when its driver is off. -/
def drives (p : Pad) : Option Bool :=
  if (shows p).1 = .both then some (shows p).2 else none

/-- `gpio_hold_en`; empty on a chip without hold (`esp_idf_gpio.cpp` 29-39). -/
def holdOn (can : Bool) (p : Pad) : Pad :=
  if can then { p with held := some (shows p) } else p

/-- `gpio_hold_dis`; on a chip without hold nothing is ever held. -/
def holdOff (p : Pad) : Pad := { p with held := none }

/-- `digitalWrite` on one pad, `esp_idf_gpio.cpp` 79-84: release, set the
level, hold again. -/
def write (can : Bool) (v : Nat) (p : Pad) : Pad :=
  holdOn can { holdOff p with level := decide (v ≠ 0) }

/-- `pinMode` on one pad, `esp_idf_gpio.cpp` 44-72: INPUT = 0 (47-52),
OUTPUT = 1 (53-58), INPUT_PULLUP = 2 (59-65), any other number leaves the mode
of line 44 (66-69).  Only the inputs release the hold. -/
def setMode (m : Nat) (p : Pad) : Pad :=
  if m = 0 then { holdOff p with mode := .input }
  else if m = 1 then { p with mode := .both }
  else if m = 2 then { holdOff p with mode := .pullup }
  else { p with mode := .disabled }

/-- A call of the functions of `esp_idf_gpio.cpp`: `pinMode(pin, mode)` (41) or
`digitalWrite(pin, val)` (79). -/
inductive Call where
  | mode (pin m : Nat)
  | write (pin v : Nat)
  deriving DecidableEq, Repr

/-- All pads of the chip, by number of the pin. -/
abbrev Bank := Nat → Pad

/-- Change of one pad of the chip. -/
def change (b : Bank) (pin : Nat) (f : Pad → Pad) : Bank :=
  fun q => if q = pin then f (b q) else b q

/-- One call.  `1ULL << pin` (line 45) is undefined from 64 on: no result.
Simplification: a number below 64 the chip has no pad for is refused by the
driver; here it names a pad nobody can see. -/
def step (can : Bool) (b : Bank) : Call → Option Bank
  | .mode pin m => if pin < 64 then some (change b pin (setMode m)) else none
  | .write pin v => some (change b pin (write can v))

/-- Calls one after another. -/
def run (can : Bool) : Bank → List Call → Option Bank
  | b, [] => some b
  | b, c :: cs =>
    match step can b c with
    | some b' => run can b' cs
    | none => none

/-- The chip after power on. -/
def start : Bank := fun _ => fresh

/-- Calls made at start by a relay, `relay.cpp` 180-197: the level (181-187,
not after a software restart), the mode (191), the level again (193-197).
`v` is the level of the state wanted. -/
def relayInit (soft : Bool) (pin v : Nat) : List Call :=
  (if soft then [] else [.write pin v]) ++ [.mode pin 1, .write pin v]

/-- Calls made at start by `InternalPinOutput`, `internal_pin_output.cpp`
108-123. -/
def pinOutputInit (pin v : Nat) : List Call :=
  [.write pin v, .mode pin 1, .write pin v]

/-- Calls made at start by a roller shutter, `roller_shutter.cpp` 57-67, for
two pins that are set; `off` is the level that stops the motor (60, 65). -/
def shutterInit (up down off : Nat) : List Call :=
  [.write up off, .mode up 1, .write down off, .mode down 1]

/-- Calls made at start by a bistable relay, `bistable_relay.cpp` 66 and 76,
in the states that start neither on nor off (68-74 run nothing). -/
def bistableInit (pin off : Nat) : List Call := [.write pin off, .mode pin 1]

/-- Calls made at start by the button of a three-button shutter,
`tripple_button_roller_shutter.cpp` 43-46. -/
def stopInit (pin off : Nat) : List Call := [.write pin off, .mode pin 1]

/-- Calls made at start by a blinking LED, `blinking_led.cpp` 39-46, which
writes the level (62, 68) before the mode. -/
def ledInit (pin v : Nat) : List Call := [.write pin v, .mode pin 1]

end Verif.Pads
