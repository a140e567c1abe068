import Mathlib.Algebra.Order.Field.Rat

/-! # SHT30 and SHT40 temperature and humidity sensors (ESP-IDF)

`/repo/extras/esp-idf/supla-sht30/esp_sht30.cpp` (A), `/repo/extras/esp-idf/supla-sht40/esp_sht40.cpp` (B). Numbers of
type `double` are taken as rational numbers (rounding of the last bit is left out). -/

namespace Verif.Sht

/-- The six bytes the sensor sends: temperature, its CRC, humidity, its CRC (`buff[6]`, A 65, B 49). -/
structure Frame where
  t0 : Nat
  t1 : Nat
  tc : Nat
  h0 : Nat
  h1 : Nat
  hc : Nat
deriving DecidableEq, Repr

/-- What happens on the bus in one reading: was the request acknowledged (A 68, B 57), and what was received, if
anything (A 77, B 74). A failed reception leaves the buffer as it was, all zero (simplification: a partial reception is
not modelled). -/
structure Bus where
  sent : Bool
  recv : Option Frame
deriving DecidableEq, Repr

/-- Which of the two drivers. -/
inductive Dev where
  | sht30
  | sht40
deriving DecidableEq, Repr

/-- `lastValidTemp`, `lastValidHumi` (headers 40-41 in both), and the pair of values in the channel. -/
structure S where
  temp : Rat := -275
  hum : Rat := -1
  pub : Rat × Rat := (-275, -1)
deriving DecidableEq, Repr

/-- The buffer after the reception (A 65/77, B 49/74). -/
def buffer (b : Bus) : Frame := b.recv.getD ⟨0, 0, 0, 0, 0, 0⟩

/-- `tempRaw` (A 86, B 81); the cast to `uint16_t` changes nothing as both are bytes. -/
def tempRaw (f : Frame) : Nat := (f.t0 * 256 + f.t1) % 65536
/-- `humiRaw` (A 87, B 82). -/
def humiRaw (f : Frame) : Nat := (f.h0 * 256 + f.h1) % 65536

/-- The limits (A 90-95, B 85-90). -/
def clamp (h : Rat) : Rat := if h < 0 then 0 else if h > 100 then 100 else h

/-- Temperature from the raw value (A 88, B 83). -/
def tempOf (d : Dev) (raw : Nat) : Rat :=
  match d with
  | .sht30 => -45 + (175 / 100) * raw / (65535 / 100)
  | .sht40 => -45 + 175 * raw / 65535

/-- Humidity from the raw value (A 89, B 84). -/
def humOf (d : Dev) (raw : Nat) : Rat :=
  match d with
  | .sht30 => clamp (raw / (65535 / 100))
  | .sht40 => clamp (-6 + 125 * raw / 65535)

/-- The values are stored (A 97-98, B 92-93). -/
def store (d : Dev) (b : Bus) (s : S) : S :=
  { s with temp := tempOf d (tempRaw (buffer b)), hum := humOf d (humiRaw (buffer b)) }

/-- `readSensor` (A 57-99, B 46-94): the SHT30 driver returns when the request was not acknowledged (A 70-73), otherwise
errors are only logged. -/
def readSensor (d : Dev) (b : Bus) (s : S) : S :=
  match d with
  | .sht30 => if b.sent then store d b s else s
  | .sht40 => store d b s

/-- `channel.setNewValue(getTemp(), getHumi())` (A 54, B 108, `src/supla/sensor/therm_hygro_meter.cpp` 83): `getTemp`
reads the sensor (A 101-104, B 96-99), `getHumi` does not (A 106-108, B 101-103). C++ leaves open which of the two is
called first: `humFirst`. -/
def poll (d : Dev) (humFirst : Bool) (s : S) (b : Bus) : S :=
  let s' := readSensor d b s
  { s' with pub := (s'.temp, if humFirst then s.hum else s'.hum) }

/-- A history of readings. -/
def run (d : Dev) (humFirst : Bool) (bs : List Bus) : S := bs.foldl (poll d humFirst) {}

end Verif.Sht
