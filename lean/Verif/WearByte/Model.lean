import Verif.Storage.Model

/-!
# Byte-addressed wear-levelled state storage

Models `/repo/src/supla/storage/state_wear_leveling_byte.cpp` on the byte medium of
`Verif.Storage.Model`. The section preamble (7 bytes) is written once at first initialisation and
never changes afterwards, so its writes are not modelled. Arithmetic on addresses and counters is
in natural numbers; stored fields are truncated to their width.

The state of all elements is one byte list of fixed length `n`; the code writes it in one
`updateStorage` per element, which leaves the same sequence of medium contents except that equal
pieces are skipped.
-/

namespace Verif.WearByte

open Verif.Storage (Byte Mem Write readRange bytesAt apply le16)
open Verif.Crc16 (crc16)

/-- Where the section lies: `sectionOffset` and `reservedSize`
(`/repo/src/supla/storage/state_wear_leveling_byte.h:106-107`), both fixed after construction. -/
structure Cfg where
  off : Nat
  reserved : Nat
  deriving DecidableEq, Repr

/-- `slotSize`, `state_wear_leveling_byte.cpp:51-53`: four bytes of header and the state. -/
def slotSize (n : Nat) : Nat := n + 4

/-- `getFirstSlotAddress`, `state_wear_leveling_byte.cpp:55-58`: after the 7-byte preamble and two
8-byte address records. -/
def Cfg.first (c : Cfg) : Nat := c.off + 7 + 2 * 8

/-- `getNextSlotAddress`, `state_wear_leveling_byte.cpp:60-67`. -/
def Cfg.next (c : Cfg) (n a : Nat) : Nat :=
  if a + slotSize n + slotSize n > c.off + c.reserved then c.first else a + slotSize n

/-- Number of slots as `checkIfIsEnoughSpaceForState` computes it,
`state_wear_leveling_byte.cpp:460-468` (the preamble size is not subtracted). -/
def Cfg.slots (c : Cfg) (n : Nat) : Nat :=
  if c.reserved > 2 * 8 + slotSize n then (c.reserved - 2 * 8) / slotSize n else 0

/-- `storageStateOk`, `state_wear_leveling_byte.cpp:470-481`. -/
def Cfg.ok (c : Cfg) (n : Nat) : Bool := c.slots n > 1

/-- `repeatBeforeSwitchToAnotherSlot`, `state_wear_leveling_byte.cpp:477-480`. -/
def Cfg.repeats (c : Cfg) (n : Nat) : Nat :=
  if c.slots n % 2 = 0 then c.slots n + 1 else c.slots n

/-- `currentSlotAddress` and `writeCount`. -/
structure Ram where
  cur : Nat
  wc : Nat
  deriving DecidableEq, Repr

/-- The four bytes of a `uint32_t` in memory order. -/
def le32 (a : Nat) : List Byte :=
  [BitVec.ofNat 8 a, BitVec.ofNat 8 (a / 256), BitVec.ofNat 8 (a / 65536), BitVec.ofNat 8 (a / 16777216)]

/-- Value of bytes in little-endian order. -/
def leVal : List Byte → Nat
  | [] => 0
  | b :: bs => b.toNat + 256 * leVal bs

/-- `StateEntryAddress`, `state_wear_leveling_byte.h:64-68`, as built in
`state_wear_leveling_byte.cpp:70-76`: address, state size, CRC of the first six bytes. -/
def entryBytes (a n : Nat) : List Byte :=
  let body := le32 a ++ le16 (BitVec.ofNat 16 n)
  body ++ le16 (crc16 body)

/-- `StateWlByteHeader`, `state_wear_leveling_byte.h:73-76`: write count and CRC of the state. -/
def headerBytes (wc : Nat) (data : List Byte) : List Byte :=
  le16 (BitVec.ofNat 16 wc) ++ le16 (crc16 data)

/-- `Storage::updateStorage`, `/repo/src/supla/storage/storage.cpp:218-237`: write only if different. -/
def upd (m : Mem) (a : Nat) (bs : List Byte) : List Write :=
  if readRange m a bs.length = bs then [] else bytesAt a bs

/-- `updateStateEntryAddress`, `state_wear_leveling_byte.cpp:69-94`: backup record first, then the
main one. -/
def updEntries (c : Cfg) (m : Mem) (cur n : Nat) : List Write :=
  let w1 := upd m (c.off + 7 + 8) (entryBytes cur n)
  w1 ++ upd (apply m w1) (c.off + 7) (entryBytes cur n)

/-- The slot a write with count `wc` goes to, `state_wear_leveling_byte.cpp:290-294,394-400`. -/
def Cfg.target (c : Cfg) (n : Nat) (r : Ram) : Nat := if r.wc % 2 = 1 then c.next n r.cur else r.cur

/-- The other slot of the pair, `state_wear_leveling_byte.cpp:395-399`. -/
def Cfg.other (c : Cfg) (n : Nat) (r : Ram) : Nat := if r.wc % 2 = 1 then r.cur else c.next n r.cur

/-- Advance of the counter, `state_wear_leveling_byte.cpp:428-436` and `271-276`. -/
def Cfg.bump (c : Cfg) (n : Nat) (r : Ram) : Ram :=
  if r.wc + 1 > c.repeats n then { cur := c.next n r.cur, wc := 1 } else { r with wc := r.wc + 1 }

/-- One save: `prepareSaveState`, `writeState`, `finalizeSaveState`,
`state_wear_leveling_byte.cpp:283-299,354-439`. The result is the sequence of byte writes and the
new RAM state. -/
def save (c : Cfg) (m : Mem) (r : Ram) (d : List Byte) : List Write × Ram :=
  let n := d.length
  let w1 := upd m (c.target n r + 4) d
  let m1 := apply m w1
  let w2 := updEntries c m1 r.cur n
  let m2 := apply m1 w2
  if w1 ++ w2 = [] ∧ readRange m2 (c.target n r + 4) n = readRange m2 (c.other n r + 4) n then ([], r)
  else
    let w3 := upd m2 (c.target n r) (headerBytes r.wc d)
    let w4 := if r.wc = 1 then updEntries c (apply m2 w3) r.cur n else []
    (w1 ++ w2 ++ w3 ++ w4, c.bump n r)

/-- CRC check of an address record, `state_wear_leveling_byte.cpp:159-166`. -/
def entryOk (rec : List Byte) : Bool := rec.drop 6 == le16 (crc16 (rec.take 6))

/-- Address field of a record. -/
def entryAddr (rec : List Byte) : Nat := leVal (rec.take 4)

/-- State size field of a record. -/
def entrySize (rec : List Byte) : Nat := leVal ((rec.drop 4).take 2)

/-- Choice of current slot and state size from the two records,
`state_wear_leveling_byte.cpp:168-199`; `none` when both checks fail. The state size before the
records are read is 0 (a member initialiser; the object was just constructed). -/
def chooseEntry (c : Cfg) (main backup : List Byte) : Option (Nat × Nat) :=
  if !entryOk main && !entryOk backup then none
  else if entryOk main && entryOk backup && entryAddr main == entryAddr backup then
    some (entryAddr main, entrySize main)
  else
    let p : Nat × Nat := if entryOk main then (entryAddr main, entrySize main) else (c.first, 0)
    if entryOk backup && (p.1 == 0 || c.next p.2 p.1 == entryAddr backup) then
      some (entryAddr backup, entrySize backup)
    else some p

/-- Write count stored in the header of the slot at `a`. -/
def slotCount (m : Mem) (a : Nat) : Nat := leVal (readRange m a 2)

/-- CRC check of the slot at `a`, `state_wear_leveling_byte.cpp:205-219,225-239`. -/
def slotOk (m : Mem) (a n : Nat) : Bool :=
  readRange m (a + 2) 2 == le16 (crc16 (readRange m (a + 4) n))

/-- Selection of the write count, `state_wear_leveling_byte.cpp:245-266`; `none` when neither slot
is valid. -/
def chooseCount (c : Cfg) (m : Mem) (cur n : Nat) : Option Nat :=
  let nx := c.next n cur
  if slotOk m cur n && slotOk m nx n then
    if slotCount m nx = 1 then some 1
    else if slotCount m cur > slotCount m nx then some (slotCount m cur)
    else some (slotCount m nx)
  else if slotOk m cur n then some (slotCount m cur)
  else if slotOk m nx n then some (slotCount m nx)
  else none

/-- What a reboot finds. -/
structure Boot where
  ram : Ram
  /-- the state handed to the elements, if any -/
  state : Option (List Byte)
  deriving DecidableEq, Repr

/-- `initFromStorage` followed by the size check and `prepareLoadState` / `readState`,
`state_wear_leveling_byte.cpp:136-278,301-352,441-458`, for a configuration whose elements need `n`
bytes. `none` stands for "invalid CRC for both state entries". When the size differs or the slots are
invalid nothing is loaded. -/
def boot (c : Cfg) (m : Mem) (n : Nat) : Option Boot :=
  match chooseEntry c (readRange m (c.off + 7) 8) (readRange m (c.off + 7 + 8) 8) with
  | none => none
  | some (cur, sz) =>
    let cnt := chooseCount c m cur sz
    let r := c.bump sz { cur := cur, wc := cnt.getD 0 }
    let rd := if (r.wc - 1) % 2 = 1 then c.next sz r.cur else r.cur
    some { ram := r,
           state := if cnt.isSome && c.ok sz && sz == n then some (readRange m (rd + 4) n) else none }

/-- Operations: save the given state, or reboot. -/
inductive Op where
  | save (d : List Byte)
  | reboot
  deriving DecidableEq, Repr

end Verif.WearByte
