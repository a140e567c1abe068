import Verif.Binary.Spec

/-!
# The binary sensor

`/repo/src/supla/sensor/binary_base.cpp` (BB below), `binary.cpp`, `virtual_binary.cpp`,
`/repo/src/supla/channels/binary_sensor_channel.cpp` (BC) and `channel.cpp` (CH). What `getValue()` returns is given
with each pass: for `Binary` the level of the pin, possibly inverted (binary.cpp lines 36-42), for `VirtualBinary` the
state left by SET, CLEAR and TOGGLE (virtual_binary.cpp lines 25-62). Function changes are not modelled (C32), nor is
the delay of two seconds with which the configuration is written to flash (BB line 118).
-/

namespace Verif.Binary

/-- binary_base.h lines 54-58 and binary_sensor_channel.h line 38: `raw` is octet 0 of the channel value as the server
gets it, `inv` is `serverInvertLogic`, `stored` the value in the configuration storage, `events` the turn-on (true) and
turn-off (false) events run so far, newest first. -/
structure St where
  raw : Bool
  inv : Bool
  last : Nat
  got : Bool
  stored : Option Nat
  events : List Bool

/-- `BinarySensorChannel::getValueBool`, BC lines 24-26. -/
def St.value (s : St) : Bool := if s.inv then !s.raw else s.raw

/-- `Channel::setNewValue(bool)`, CH lines 243-260; `ON_CHANGE` comes with every event and is left out. -/
def set (s : St) (v : Bool) : St :=
  if v = s.raw then s else { s with raw := v, events := (if s.inv then !v else v) :: s.events }

/-- `iterateAlways`, BB lines 125-130. -/
def iterate (interval : Nat) (s : St) (now : Nat) (v : Bool) : St :=
  if since (clk now) s.last > interval then set { s with last := clk now } v else s

/-- `handleChannelConfig`, BB lines 71-122. -/
def config (s : St) (ty sz inv : Nat) : St :=
  if ty ≠ 0 then s
  else if sz < 32 then s
  else { s with got := true, inv := decide (0 < inv), stored := some (if 0 < inv then 1 else 0) }

/-- `handleChannelConfigFinished`, BB lines 151-163. -/
def finished (s : St) : St := if s.got then s else config s 0 32 0

/-- One event of a history. `onRegistered` is BB lines 65-69. -/
def step (interval : Nat) (s : St) : Op → St
  | .pass t v => iterate interval s t v
  | .config ty sz inv => config s ty sz inv
  | .finished => finished s
  | .registered => { s with got := false }

/-- `onLoadConfig`, BB lines 37-52, and `onInit`, binary.cpp lines 44-48, virtual_binary.cpp lines 29-31: the device is
switched on. -/
def boot (stored : Option Nat) (b : Bool) : St := set ⟨false, decide (0 < stored.getD 0), 0, false, stored, []⟩ b

/-- `setReadIntervalMs`, BB lines 144-149. -/
def readInterval (ms : Nat) : Nat := if ms = 0 then 100 else ms

/-- A history, newest first. -/
def run (interval : Nat) (stored : Option Nat) (b : Bool) : List Op → St
  | [] => boot stored b
  | o :: os => step interval (run interval stored b os) o

end Verif.Binary
