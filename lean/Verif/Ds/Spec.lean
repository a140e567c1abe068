import Mathlib.Data.List.Basic

/-!
# What one expects of thermometer probes

Independent of the model.
-/

namespace Verif.Ds

/-- One bit of the CRC of 1-Wire codes (polynomial x⁸ + x⁵ + x⁴ + 1, lowest bit first). -/
def crcBit (c : Nat) : Nat := if c % 2 = 1 then (c / 2) ^^^ 0x8C else c / 2

/-- The CRC of bytes. -/
def crc8 (l : List Nat) : Nat :=
  l.foldl (fun c b => crcBit (crcBit (crcBit (crcBit (crcBit (crcBit (crcBit (crcBit (c ^^^ b))))))))) 0

/-- A code that a DS18B20 may have: family 0x28, six bytes of serial number, CRC. -/
def ValidRom (r : List Nat) : Prop := r.length = 8 ∧ r.headD 0 = 0x28 ∧ (∀ b ∈ r, b < 256) ∧ r.getD 7 0 = crc8 (r.take 7)

instance (r : List Nat) : Decidable (ValidRom r) := inferInstanceAs (Decidable (_ ∧ _ ∧ _ ∧ _))

/-- A reading that tells a temperature (in 1/16 °C): not an error and not the 85 °C of a probe without power. -/
def Tells : Option Int → Bool
  | none => false
  | some v => v ≠ 85 * 16

/-- How many of the newest readings tell nothing. -/
def failing : List (Option Int) → Nat
  | [] => 0
  | v :: rest => if Tells v then 0 else failing rest + 1

/-- The newest temperature. -/
def newest : List (Option Int) → Option Int
  | [] => none
  | v :: rest => if Tells v then v else newest rest

/-- What a channel shows after these readings (newest first): the newest temperature, but nothing after four or more
failed readings. -/
def toShow (l : List (Option Int)) : Option Int := if failing l > 3 then none else newest l

end Verif.Ds
