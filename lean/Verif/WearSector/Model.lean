import Verif.Crc16.Model

/-!
# Sector-erased (flash) wear-levelled state storage

Models `/repo/src/supla/storage/state_wear_leveling_sector.cpp`. The medium is NOR flash as
`/repo/extras/porting/esp-idf/esp_idf_sector_wl_storage.cpp:73-100` drives it: programming a byte
can only clear bits, erasing sets a whole sector to `0xFF`.

Simplifications. The storage starts at address 0 (so `sectionOffset` is 8, the size of the
preamble) and `availableSize` is a whole number of sectors. Addresses are natural numbers. The
state of all elements with the two CRC bytes before it is one slot buffer `d : Nat → Nat` of `sz`
bytes. Programming one byte and erasing one sector are atomic; a power loss happens between two
of them. Memory allocation never fails.
-/

namespace Verif.WearSector

/-- The flash contents, address to byte. -/
abbrev Flash := Nat → Nat

/-- `getSectorSize` (`state_wear_leveling_sector.cpp:644-646`; virtual, 4096 unless overridden),
the number of data sectors (all but two, lines 35-40) and `slotSize` (lines 179-181). -/
structure Geo where
  ss : Nat
  S : Nat
  sz : Nat
  deriving DecidableEq, Repr

/-- One physical operation: program a byte (`writeStorage`, bits can only be cleared) or erase a
sector (`eraseSector`), `esp_idf_sector_wl_storage.cpp:73-100`. -/
inductive Op where
  | prog (a v : Nat)
  | erase (s : Nat)
  deriving DecidableEq, Repr

/-- Effect of one operation on the flash. -/
def apply1 (ss : Nat) (f : Flash) : Op → Flash
  | .prog a v => fun x => if x = a then f x &&& v else f x
  | .erase s => fun x => if x / ss = s then 255 else f x

/-- Effect of a list of operations. -/
def applyOps (ss : Nat) (f : Flash) (ops : List Op) : Flash := ops.foldl (apply1 ss) f

/-- `writeStorage` of `n` bytes, one byte after another. -/
def progs (a n : Nat) (v : Nat → Nat) : List Op := (List.range n).map fun i => .prog (a + i) (v i)

/-- Address of slot `k`: `getFirstSlotAddress() + slotSize() * k`,
`state_wear_leveling_sector.cpp:157-158,183-190`. -/
def Geo.slot (g : Geo) (k : Nat) : Nat := 2 * g.ss + k * g.sz

/-- `getNextSlotAddress`, `state_wear_leveling_sector.cpp:192-205`, as a slot number; the last
valid address is `first + S * ss - 1` (lines 38-39; `S ≥ 2` assumed). -/
def Geo.next (g : Geo) (k : Nat) : Nat :=
  if g.slot k + g.sz + g.sz > 2 * g.ss + g.S * g.ss - 1 then 0 else k + 1

/-- The sector in which slot `k` ends, `state_wear_leveling_sector.cpp:544-547`. -/
def Geo.endSec (g : Geo) (k : Nat) : Nat := (g.slot k + g.sz - 1) / g.ss

/-- `isDataDifferent`, `state_wear_leveling_sector.cpp:623-642`: a size of zero or above the slot
size counts as "not different". -/
def isDiff (g : Geo) (f : Flash) (a n : Nat) (v : Nat → Nat) : Bool :=
  if n = 0 ∨ g.sz < n then false else !((List.range n).all fun i => f (a + i) == v i)

/-- The attempt loop of `finalizeSaveState`, `state_wear_leveling_sector.cpp:539-571`: `er` is
"this attempt ends in another sector", `nse` is `nextSectorErased` before it. Gives the
operations and the slot written, or `none` on `State::ERROR` (or when `fuel` runs out). -/
def tryWrite (g : Geo) (d : Nat → Nat) : Nat → Flash → Nat → Bool → Option (List Op × Nat)
  | 0, _, _, _ => none
  | fuel + 1, f, cur, nse =>
    let nx := g.next cur
    let er := decide (g.endSec cur ≠ g.endSec nx)
    let ops := (if er then [.erase (g.endSec nx)] else []) ++ progs (g.slot nx) g.sz d
    let f' := applyOps g.ss f ops
    if isDiff g f' (g.slot nx) g.sz d = false then some (ops, nx)
    else if !er && nse then none
    else (tryWrite g d fuel f' nx (nse || er)).map fun r => (ops ++ r.1, r.2)

/-- `Preamble`, `/repo/src/supla/storage/storage.h:136-140`, as written at first initialisation,
`state_wear_leveling_sector.cpp:364-379`: the tag, version 1, one section. -/
def tagBytes (i : Nat) : Nat := [83, 85, 80, 76, 65, 1, 0, 1].getD i 255

/-- `SectionPreamble`, `state_wear_leveling_sector.cpp:246-248`: type 5, size, two zero CRCs. -/
def secBytes (g : Geo) (i : Nat) : Nat :=
  [5, (g.S + 2) * g.ss % 256, (g.S + 2) * g.ss / 256 % 256, 0, 0, 0, 0].getD i 255

/-- CRC of the two bytes of the slot size, `state_wear_leveling_sector.cpp:266-269`. -/
def sizeCrc (lo hi : Nat) : Nat :=
  (Crc16.crc16 [BitVec.ofNat 8 lo, BitVec.ofNat 8 hi]).toNat

/-- `StateWlSectorConfig`, `state_wear_leveling_sector.cpp:264-270`: slot size and its CRC. -/
def cfgBytes (g : Geo) (i : Nat) : Nat :=
  [g.sz % 256, g.sz / 256 % 256, sizeCrc (g.sz % 256) (g.sz / 256 % 256) % 256,
    sizeCrc (g.sz % 256) (g.sz / 256 % 256) / 256 % 256].getD i 255

/-- The last byte of the slot bitmap, `state_wear_leveling_sector.cpp:324-328`: `0xFF` shifted
left `k` times. -/
def pat (k : Nat) : Nat := 255 * 2 ^ k % 256

/-- Zeroing of all earlier bitmap bytes, the highest first,
`state_wear_leveling_sector.cpp:344-352`. -/
def zeros (a m : Nat) : List Op := (List.range m).map fun i => .prog (a + (m - 1 - i)) 0

/-- Bitmap update for slot `j`, `state_wear_leveling_sector.cpp:330-354`; `a` is the bitmap
address. -/
def bitmapOps (g : Geo) (f : Flash) (a j : Nat) : List Op :=
  let first := [.prog (a + j / 8) (pat (j % 8))]
  let f' := applyOps g.ss f first
  first ++ (if 7 < j ∧ f' (a + j / 8 - 1) ≠ 0 then zeros a (j / 8) else [])

/-- One round (main sector `s = 0`, backup `s = 1`) of `writeSectionPreamble` once initialised,
`state_wear_leveling_sector.cpp:242-385`: gives the operations and `isEraseNeeded` after it. -/
def indexOps (g : Geo) (f : Flash) (s j : Nat) (e : Bool) : List Op × Bool :=
  let b := s * g.ss
  let o1 := progs (b + 8) 7 (secBytes g)
  let f1 := applyOps g.ss f o1
  let e1 := e || isDiff g f1 (b + 8) 7 (secBytes g)
  let o2 := progs (b + 15) 4 (cfgBytes g)
  let f2 := applyOps g.ss f1 o2
  let e2 := e1 || isDiff g f2 (b + 15) 4 (cfgBytes g)
  if e2 then
    let o3 := [.erase s] ++ (o1 ++ o2)
    let f3 := applyOps g.ss f2 o3
    (o1 ++ (o2 ++ (o3 ++ (bitmapOps g f3 (b + 19) j ++ progs b 8 fun i => f2 (b + i)))), true)
  else (o1 ++ (o2 ++ bitmapOps g f2 (b + 19) j), false)

/-- `finalizeSaveState` with the index update it ends with,
`state_wear_leveling_sector.cpp:512-595` and `225-244`, from the current slot `c`: the operations
of the data phase, of the main index sector, of the backup index sector, and the new slot. `none`
on `State::ERROR`. -/
def save (g : Geo) (f : Flash) (c : Nat) (d : Nat → Nat) : Option (List Op × List Op × List Op × Nat) :=
  if isDiff g f (g.slot c) g.sz d = false then some ([], [], [], c)
  else match tryWrite g d (g.S * g.ss + 2) f c false with
    | none => none
    | some (o, j) =>
      let f1 := applyOps g.ss f o
      let m := indexOps g f1 0 j (decide (j < c))
      let f2 := applyOps g.ss f1 m.1
      let b := indexOps g f2 1 j m.2
      some (o, m.1, b.1, j)

/-- The loop over bitmap bytes at boot, `state_wear_leveling_sector.cpp:142-149`: number of bytes
read and the last of them. -/
def scan (f : Flash) (a : Nat) : Nat → Nat × Nat
  | 0 => (0, 0)
  | n + 1 => if f a ≠ 0 then (1, f a) else ((scan f (a + 1) n).1 + 1, (scan f (a + 1) n).2)

/-- Number of shifts until the byte is `0xFF`, `state_wear_leveling_sector.cpp:150-155`; eight
always suffice. -/
def shifts : Nat → Nat → Nat
  | 0, _ => 0
  | n + 1, b => if b = 255 then 0 else 1 + shifts n (b / 2 ||| 128)

/-- What one index sector says at boot. `foreign`: valid preamble but another section type (the
code then looks at further sections, which this storage never writes). -/
inductive Load where
  | invalid
  | foreign
  | slot (sz c : Nat)
  deriving DecidableEq, Repr

/-- `tryLoadPreamblesFrom`, `state_wear_leveling_sector.cpp:77-177`, for index sector `s`. -/
def tryLoad (g : Geo) (f : Flash) (s : Nat) : Load :=
  let b := s * g.ss
  if ¬ (f b = 83 ∧ f (b + 1) = 85 ∧ f (b + 2) = 80 ∧ f (b + 3) = 76 ∧ f (b + 4) = 65) then .invalid
  else if f (b + 7) = 0 then .invalid
  else if ¬ (f (b + 5) = 1 ∧ f (b + 6) = 0) then .invalid
  else if f (b + 8) ≠ 5 then .foreign
  else if f (b + 17) + 256 * f (b + 18) ≠ sizeCrc (f (b + 15)) (f (b + 16)) then .invalid
  else
    let r := scan f (b + 19) (g.S * g.ss)
    .slot (f (b + 15) + 256 * f (b + 16)) ((r.1 - 1) * 8 + shifts 8 r.2)

/-- `loadPreambles`, `state_wear_leveling_sector.cpp:58-76`: main sector, else the backup. When
both are invalid the storage is formatted anew (`format`). -/
def boot (g : Geo) (f : Flash) : Load :=
  match tryLoad g f 0 with
  | .invalid => tryLoad g f 1
  | r => r

/-- `writeSectionPreamble` when not initialised, `state_wear_leveling_sector.cpp:230-391`: both
index sectors are erased and get a section preamble and an empty (`0xFF`) configuration. In both
rounds the main `Preamble` goes to `sectionOffset - 8` (line 376), the start of the main sector.
The first data sector is erased. The writes before the erase, which it undoes, are left out. -/
def formatOps (g : Geo) : List Op :=
  [.erase 0] ++ (progs 8 7 (secBytes g) ++ (progs 0 8 tagBytes ++
    ([.erase 1] ++ (progs (g.ss + 8) 7 (secBytes g) ++ (progs 0 8 tagBytes ++ [.erase 2])))))

/-- `finalizeSizeCheck` with a new size, `state_wear_leveling_sector.cpp:597-617`: the first data
sector is erased and slot 0 becomes the current one. -/
def sizeCheckOps : List Op := [.erase 2]

end Verif.WearSector
