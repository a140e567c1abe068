/-
The storage for states in the EEPROM of the Arduino boards (ESP8266, ESP32).

Code modelled (E: `src/supla/storage/eeprom.cpp`): `init` (E 38-53), `readStorage` (E 55-75), `writeStorage` (E 77-89),
`commit` (E 91-99).

Outside the repository, as documented for these boards: the library `EEPROM` keeps a copy of the flash in memory, `begin(n)`
loads n bytes, `read` outside gives 0, `write` outside does nothing, `commit` writes the copy to the flash and says whether it
could; the result is not used by E 94. Simplifications: a commit is all or nothing; offsets and sizes do not wrap; messages
are left out; a write is of any number of bytes.
-/
namespace Verif.Eeprom

structure M where
  size : Nat
  flash : Nat → Nat
  copy : Nat → Nat
  changed : Bool

/-- Size chosen by `init` (E 39-50): the default is that of the board. -/
def sizeOf (board : Nat) (reserved : Int) : Nat := if reserved ≤ 0 then board else reserved.toNat

/-- `EEPROM.begin` and a new object (E 31-36, 38-53). -/
def boot (size : Nat) (flash : Nat → Nat) : M := ⟨size, flash, flash, false⟩

/-- `EEPROM.read` (library). -/
def readByte (m : M) (a : Nat) : Nat := if a < m.size then m.copy a else 0

/-- `EEPROM.write` (library). -/
def writeByte (m : M) (a v : Nat) : M := if a < m.size then { m with copy := fun x => if x = a then v else m.copy x } else m

/-- The loop of `readStorage` (E 64-70). -/
def read (m : M) (off : Nat) : Nat → List Nat
  | 0 => []
  | n + 1 => readByte m off :: read m (off + 1) n

/-- The loop of `writeStorage` (E 81-83). -/
def writeAll (m : M) (off : Nat) : List Nat → M
  | [] => m
  | b :: bs => writeAll (writeByte m off b) (off + 1) bs

/-- `writeStorage` (E 77-89). -/
def write (m : M) (off : Nat) (bs : List Nat) : M := writeAll { m with changed := true } off bs

/-- `commit` (E 91-99) with the result of the library. -/
def commit (m : M) (ok : Bool) : M :=
  if m.changed then { m with flash := if ok then m.copy else m.flash, changed := false } else { m with changed := false }

inductive Op
  | write (off : Nat) (bs : List Nat)
  | commit (ok : Bool)
  | restart

def step (m : M) : Op → M
  | .write off bs => write m off bs
  | .commit ok => commit m ok
  | .restart => boot m.size m.flash

def run : M → List Op → M
  | m, [] => m
  | m, o :: os => run (step m o) os

end Verif.Eeprom
