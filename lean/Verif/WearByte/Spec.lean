import Verif.WearByte.Model

/-!
# Vocabulary of the byte wear-levelling claims
-/

namespace Verif.WearByte

open Verif.Storage (Byte Mem Write readRange apply)

/-- Two slots really fit behind the preamble and the address records, and all stored fields are wide
enough. -/
structure Fits (c : Cfg) (n : Nat) : Prop where
  pos : 0 < n
  two : c.off + 7 + 16 + 2 * (n + 4) ≤ c.off + c.reserved
  small : c.off + c.reserved < 2 ^ 16

/-- A device: what is on the medium and in RAM. -/
structure Dev where
  mem : Mem
  ram : Ram

/-- A freshly initialised storage (`loadPreambles` on a medium without the Supla tag, then the size
check): two address records for an empty state, write count zero, anything in the slots. -/
def Fresh (c : Cfg) (d : Dev) : Prop :=
  d.ram = { cur := c.first, wc := 0 }
    ∧ readRange d.mem (c.off + 7) 8 = entryBytes c.first 0
    ∧ readRange d.mem (c.off + 7 + 8) 8 = entryBytes c.first 0

/-- A complete save. -/
def Dev.save (c : Cfg) (d : Dev) (x : List Byte) : Dev :=
  { mem := apply d.mem (WearByte.save c d.mem d.ram x).1, ram := (WearByte.save c d.mem d.ram x).2 }

/-- A reboot of a device whose elements need `n` bytes (the RAM state is rebuilt from the medium). -/
def Dev.reboot (c : Cfg) (n : Nat) (d : Dev) : Dev :=
  match boot c d.mem n with
  | some b => { d with ram := b.ram }
  | none => d

/-- A history of saves. -/
def Dev.saves (c : Cfg) (d : Dev) (xs : List (List Byte)) : Dev := xs.foldl (Dev.save c) d

/-- What the elements get at the next boot. -/
def Dev.restored (c : Cfg) (n : Nat) (d : Dev) : Option (List Byte) := (boot c d.mem n).bind (·.state)

/-- The medium when power is lost after `k` byte writes of a save. -/
def Dev.crash (c : Cfg) (d : Dev) (x : List Byte) (k : Nat) : Mem :=
  apply d.mem ((WearByte.save c d.mem d.ram x).1.take k)

/-- The main address record. -/
def mainRecord (c : Cfg) (m : Mem) : List Byte := readRange m (c.off + 7) 8

end Verif.WearByte
