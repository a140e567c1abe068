import Verif.Sht.Model

/-! # SHT sensors: specification from the data sheets -/

namespace Verif.Sht

/-- One step of the checksum (polynomial x⁸ + x⁵ + x⁴ + 1). -/
def crcBit (c : Nat) : Nat := if c ≥ 128 then (c * 2 % 256) ^^^ 0x31 else c * 2

/-- Checksum of the data sheet: start value 0xFF. -/
def crc8 (bytes : List Nat) : Nat :=
  bytes.foldl (fun c b => crcBit (crcBit (crcBit (crcBit (crcBit (crcBit (crcBit (crcBit (c ^^^ b))))))))) 0xFF

/-- Example of the data sheet: CRC(0xBEEF) = 0x92. -/
example : crc8 [0xBE, 0xEF] = 0x92 := by decide

/-- Both checksums are right. -/
def CrcOk (f : Frame) : Prop := crc8 [f.t0, f.t1] = f.tc ∧ crc8 [f.h0, f.h1] = f.hc
instance (f : Frame) : Decidable (CrcOk f) := inferInstanceAs (Decidable (_ ∧ _))

/-- Bytes. -/
def IsFrame (f : Frame) : Prop := f.t0 < 256 ∧ f.t1 < 256 ∧ f.tc < 256 ∧ f.h0 < 256 ∧ f.h1 < 256 ∧ f.hc < 256

/-- Temperature of the data sheet: −45 + 175·S/(2¹⁶ − 1). -/
def sheetTemp (f : Frame) : Rat := -45 + 175 * ((256 * f.t0 + f.t1 : Nat) : Rat) / (2 ^ 16 - 1)

/-- Relative humidity of the data sheet, before limiting: 100·S/(2¹⁶ − 1); −6 + 125·S/(2¹⁶ − 1). -/
def sheetHum : Dev → Frame → Rat
  | .sht30, f => 100 * ((256 * f.h0 + f.h1 : Nat) : Rat) / (2 ^ 16 - 1)
  | .sht40, f => -6 + 125 * ((256 * f.h0 + f.h1 : Nat) : Rat) / (2 ^ 16 - 1)

/-- Limited to 0–100 %. -/
def limited (x y : Rat) : Prop := (x < 0 ∧ y = 0) ∨ (100 < x ∧ y = 100) ∨ (0 ≤ x ∧ x ≤ 100 ∧ y = x)

/-- The pair of values is what the sensor sent. -/
def Shows (d : Dev) (f : Frame) (p : Rat × Rat) : Prop := p.1 = sheetTemp f ∧ limited (sheetHum d f) p.2

/-- The values shown are those of the last reading, and "not available" if it failed (in the transmission or by its
checksum). -/
def Honest (d : Dev) (humFirst : Bool) : Prop := ∀ (bs : List Bus) (b : Bus), (∀ f, b.recv = some f → IsFrame f) →
  (∀ f, b.recv = some f → b.sent = true → CrcOk f → Shows d f (run d humFirst (bs ++ [b])).pub) ∧
  ((b.sent = false ∨ ∀ f, b.recv = some f → ¬ CrcOk f) → (run d humFirst (bs ++ [b])).pub = (-275, -1))

end Verif.Sht
