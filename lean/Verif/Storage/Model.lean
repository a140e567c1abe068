import Verif.Crc16.Model

/-!
# Special storage sections and save throttling

Models the special-section API and the save-period logic of `/repo/src/supla/storage/storage.cpp`.

The medium is a total map from addresses to bytes on which every `readStorage` / `writeStorage`
succeeds in full, byte after byte in increasing address order. The short-read and short-write exits
(lines 330-333 and 388-391) are therefore not modelled, and neither are `int` overflow of offsets
and negative offsets or sizes. `updateStorage`'s `notifyUpdate` call back is not modelled.
-/

namespace Verif.Storage

open Verif.Crc16 (crc16)

/-- A byte of the medium. -/
abbrev Byte := BitVec 8

/-- Contents of the storage medium (EEPROM, FRAM, file). -/
abbrev Mem := Nat → Byte

/-- One physical byte write. -/
abbrev Write := Nat × Byte

/-- `SpecialSectionInfo`, `/repo/src/supla/storage/storage.h:28-36`, without the list link. -/
structure Section where
  id : Int
  offset : Nat
  size : Nat
  crc : Bool
  backup : Bool
  deriving DecidableEq, Repr

/-- `readStorage(offset, buf, n)`: the bytes at `offset .. offset + n - 1`. -/
def readRange (m : Mem) (offset n : Nat) : List Byte :=
  (List.range n).map fun i => m (offset + i)

/-- The byte writes of `writeStorage(offset, data, data.length)`, lowest address first. -/
def bytesAt : Nat → List Byte → List Write
  | _, [] => []
  | offset, b :: bs => (offset, b) :: bytesAt (offset + 1) bs

/-- Effect of one byte write. -/
def put (m : Mem) (w : Write) : Mem := fun a => if a = w.1 then w.2 else m a

/-- Effect of a sequence of byte writes. -/
def apply (m : Mem) (ws : List Write) : Mem := ws.foldl put m

/-- The two bytes of a `uint16_t` in memory order (little endian targets). -/
def le16 (c : BitVec 16) : List Byte := [c.setWidth 8, (c >>> 8).setWidth 8]

/-- Size of one copy: data and, if enabled, the CRC, `/repo/src/supla/storage/storage.cpp:323`. -/
def Section.entrySize (s : Section) : Nat := s.size + if s.crc then 2 else 0

/-- The entries the loops visit, `/repo/src/supla/storage/storage.cpp:319,370,415`. -/
def Section.entries (s : Section) : List Nat := if s.backup then [0, 1] else [0]

/-- Start of copy `entry`, `/repo/src/supla/storage/storage.cpp:322-323,373-374,418-419`. -/
def Section.entryOffset (s : Section) (entry : Nat) : Nat := s.offset + entry * s.entrySize

/-- `Storage::registerSection`, `/repo/src/supla/storage/storage.cpp:263-306`; `none` when refused.
As in the code there is no check that the ranges do not overlap. -/
def register (secs : List Section) (s : Section) : Option (List Section) :=
  if s.backup && !s.crc then none
  else if secs.any (fun t => t.id == s.id) then none
  else some (secs ++ [s])

/-- The list walk at the head of `readSection`, `writeSection` and `deleteSection`,
`/repo/src/supla/storage/storage.cpp:309-313,360-364,410-414`. -/
def lookup (secs : List Section) (id : Int) : Option Section := secs.find? (fun s => s.id == id)

/-- Does copy `entry` pass its CRC check, `/repo/src/supla/storage/storage.cpp:334-349`. -/
def copyOk (m : Mem) (s : Section) (entry : Nat) : Bool :=
  !s.crc || readRange m (s.entryOffset entry + s.size) 2
    == le16 (crc16 (readRange m (s.entryOffset entry) s.size))

/-- The loop of `Storage::readSection` over the copies, `/repo/src/supla/storage/storage.cpp:319-352`. -/
def readCopies (m : Mem) (s : Section) : List Nat → Option (List Byte)
  | [] => none
  | e :: es => if copyOk m s e then some (readRange m (s.entryOffset e) s.size) else readCopies m s es

/-- `Storage::readSection`, `/repo/src/supla/storage/storage.cpp:308-357`; `none` for `false`. -/
def readSection (m : Mem) (secs : List Section) (id : Int) (size : Nat) : Option (List Byte) :=
  match lookup secs id with
  | none => none
  | some s => if s.size ≠ size then none else readCopies m s s.entries

/-- Byte writes for one copy in `Storage::writeSection`,
`/repo/src/supla/storage/storage.cpp:371-400`: nothing when the data on the medium is already equal,
otherwise the data and then the CRC. -/
def writeCopy (m : Mem) (s : Section) (data : List Byte) (entry : Nat) : List Write :=
  if readRange m (s.entryOffset entry) s.size ≠ data then
    bytesAt (s.entryOffset entry) data
      ++ (if s.crc then bytesAt (s.entryOffset entry + s.size) (le16 (crc16 data)) else [])
  else []

/-- The loop over the copies, `/repo/src/supla/storage/storage.cpp:370-401`; each copy is compared
with the medium as left by the previous one. -/
def writeCopies (m : Mem) (s : Section) (data : List Byte) : List Nat → List Write
  | [] => []
  | e :: es => writeCopy m s data e ++ writeCopies (apply m (writeCopy m s data e)) s data es

/-- All byte writes of `Storage::writeSection`, `/repo/src/supla/storage/storage.cpp:359-407`, in
order; `none` for `false`. -/
def writeSection (m : Mem) (secs : List Section) (id : Int) (data : List Byte) : Option (List Write) :=
  match lookup secs id with
  | none => none
  | some s => if s.size ≠ data.length then none else some (writeCopies m s data s.entries)

/-- Byte writes for one copy in `Storage::deleteSection`, `/repo/src/supla/storage/storage.cpp:416-433`. -/
def deleteCopy (s : Section) (entry : Nat) : List Write :=
  bytesAt (s.entryOffset entry) (List.replicate s.size 0)
    ++ (if s.crc then bytesAt (s.entryOffset entry + s.size) [0, 0] else [])

/-- All byte writes of `Storage::deleteSection`, `/repo/src/supla/storage/storage.cpp:409-440`. -/
def deleteSection (secs : List Section) (id : Int) : Option (List Write) :=
  match lookup secs id with
  | none => none
  | some s => some (s.entries.flatMap (deleteCopy s))

/-- Operations on the section API. -/
inductive Op where
  | write (id : Int) (data : List Byte)
  | delete (id : Int)
  | read (id : Int) (size : Nat)

/-- One operation carried out completely. -/
def step (secs : List Section) (m : Mem) : Op → Mem
  | .write id data => apply m ((writeSection m secs id data).getD [])
  | .delete id => apply m ((deleteSection secs id).getD [])
  | .read _ _ => m

/-- A history of operations carried out completely. -/
def run (secs : List Section) (m : Mem) (ops : List Op) : Mem := ops.foldl (step secs) m

/-! ## Save throttling -/

/-- `saveStatePeriod` and `lastWriteTimestamp`, `/repo/src/supla/storage/storage.h:121-122`
(both `uint32_t`). -/
structure Throttle where
  period : BitVec 32
  last : BitVec 32
  deriving DecidableEq, Repr

/-- `Storage::setStateSavePeriod`, `/repo/src/supla/storage/storage.cpp:239-245`. -/
def setPeriod (t : Throttle) (p : BitVec 32) : Throttle :=
  if p < 500#32 then { t with period := 500#32 } else { t with period := p }

/-- `Storage::saveStateAllowed`, `/repo/src/supla/storage/storage.cpp:247-253`. -/
def saveAllowed (t : Throttle) (ms : BitVec 32) : Throttle × Bool :=
  if ms - t.last > t.period then ({ t with last := ms }, true) else (t, false)

/-- `Storage::scheduleSave`, `/repo/src/supla/storage/storage.cpp:255-261`; `now` is `millis()`. -/
def scheduleSave (t : Throttle) (now delay : BitVec 32) : Throttle :=
  let ts := now - t.period - 1#32 + delay
  if now - t.last < now - ts then { t with last := ts } else t

end Verif.Storage
