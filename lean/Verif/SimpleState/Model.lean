import Verif.Storage.Lemmas

/-!
# State of the elements without wear levelling

Model of `/repo/src/supla/storage/simple_state.cpp` (cited as S), the loading of the preambles
(`state_storage_interface.cpp`, cited as I) and the saving and loading of all elements (`storage.cpp`, cited as T).

The medium is the one of `Verif.Storage`: bytes are written one after the other in the order of the addresses, and
the power may fail between any two. Simplified: all offsets are below 2^32; the medium is large enough; an element
writes and reads its state in pieces of fixed sizes, reading goes on after a refusal.
-/

namespace Verif.SimpleState

open Verif.Storage (Byte Mem Write readRange bytesAt apply le16)
open Verif.Crc16 (crc16)

/-- The fields of `SimpleState` (`simple_state.h` 47-56). `storedCrc` is only used while starting and is left out. -/
structure S where
  /-- `elementStateOffset` -/
  eoff : Nat := 0
  /-- `elementStateSize` -/
  esize : Nat := 0
  /-- `stateSectionNewSize` -/
  newSize : Nat := 0
  /-- `currentStateOffset` -/
  cur : Nat := 0
  crc : BitVec 16 := 0
  /-- `elementStateCrcCValid` -/
  valid : Bool := false
  dry : Bool := false
deriving DecidableEq, Repr

/-- `Storage::updateStorage` (T 207-227): nothing is written when the medium has the bytes already. -/
def update (m : Mem) (off : Nat) (d : List Byte) : List Write :=
  if readRange m off d.length = d then [] else bytesAt off d

/-- The seven bytes of a `SectionPreamble` (`storage.h` 142-147, S 53-58); 3 is the type of this section. -/
def preamble (size : Nat) (crc : BitVec 16) : List Byte :=
  [3] ++ le16 (BitVec.ofNat 16 size) ++ le16 crc ++ le16 crc

/-- Where the data start, when not known yet (S 160-163). `base` is `sectionOffset`. -/
def locate (base : Nat) (s : S) : S :=
  if s.eoff = 0 then { s with eoff := base + 7, cur := base + 7 } else s

/-- `writeState` (S 138-190): the new state and the bytes written. -/
def writeState (base : Nat) (m : Mem) (s : S) (buf : List Byte) : S × List Write :=
  if buf = [] then (s, [])
  else if s.esize > 0 ∧ s.eoff + s.esize < s.cur + buf.length then
    ({ s with newSize := s.newSize + buf.length, esize := 0, eoff := 0 }, [])
  else if s.dry then ({ s with newSize := s.newSize + buf.length, cur := s.cur + buf.length }, [])
  else
    ({ locate base s with newSize := s.newSize + buf.length, crc := buf.foldl Crc16.update s.crc, cur := (locate base s).cur + buf.length },
     update m (locate base s).cur buf)

/-- All pieces one after the other (T 566-590). -/
def writeAll (base : Nat) : Mem → S → List (List Byte) → S × List Write
  | _, s, [] => (s, [])
  | m, s, c :: cs =>
    ((writeAll base (apply m (writeState base m s c).2) (writeState base m s c).1 cs).1,
     (writeState base m s c).2 ++ (writeAll base (apply m (writeState base m s c).2) (writeState base m s c).1 cs).2)

/-- `prepareSaveState` (S 98-104). -/
def prepare (s : S) : S := { s with dry := false, newSize := 0, cur := s.eoff, crc := 0xFFFF }

/-- `WriteStateStorage` (T 548-564) with `finalizeSaveState` (S 192-199) and `writeSectionPreamble` (S 46-66). -/
def save (base : Nat) (m : Mem) (s : S) (cs : List (List Byte)) : S × List Write :=
  let p := writeAll base m (prepare s) cs
  ({ p.1 with esize := p.1.newSize, crc := 0xFFFF, valid := true },
   p.2 ++ update (apply m p.2) base (preamble p.1.newSize p.1.crc))

/-! ## Starting -/

/-- A number of two bytes. -/
def de16 (a b : Byte) : BitVec 16 := b ++ a

/-- `initSectionPreamble` and `initFromStorage` for the section whose preamble is at `off` (I 84-86, S 33-44,
S 68-88). -/
def initSection (base : Nat) (m : Mem) (off : Nat) (s : S) : S :=
  if m off = 3 then
    { s with
      eoff := base + 7
      esize := (de16 (m (off + 1)) (m (off + 2))).toNat
      crc := 0
      valid := de16 (m (off + 3)) (m (off + 4)) = de16 (m (off + 5)) (m (off + 6)) &&
        (crc16 (readRange m (base + 7) (de16 (m (off + 1)) (m (off + 2))).toNat) = de16 (m (off + 3)) (m (off + 4)) ||
          de16 (m (off + 3)) (m (off + 4)) = 0) }
  else s

/-- The loop over the sections (I 72-94). -/
def sections (base : Nat) (m : Mem) : Nat → Nat → S → S
  | 0, _, s => s
  | n + 1, off, s => sections base m n (off + 7 + (de16 (m (off + 1)) (m (off + 2))).toNat) (initSection base m off s)

/-- The five letters. -/
def tag : List Byte := [0x53, 0x55, 0x50, 0x4C, 0x41]

/-- The eight bytes of a `Preamble`: letters, version, number of sections (`storage.h` 136-140). -/
def header : List Byte := tag ++ le16 1 ++ [1]

/-- `loadPreambles` (I 34-97) for a storage at `start`; the section is at `start + 8`. -/
def boot (start : Nat) (m : Mem) : S × List Write :=
  if readRange m start 5 ≠ tag ∨ m (start + 7) = 0 then
    ({ valid := true }, update m (start + 8) (preamble 0 0) ++ bytesAt start header)
  else if readRange m (start + 5) 2 ≠ le16 1 then ({}, [])
  else (sections (start + 8) m (m (start + 7)).toNat (start + 8) {}, [])

/-- `IsStateStorageValid` (T 442-459) with `prepareSizeCheck` (S 106-112) and `finalizeSizeCheck` (S 201-212). -/
def sizeCheck (base : Nat) (m : Mem) (s : S) (cs : List (List Byte)) : S × Bool :=
  let p := (writeAll base m { s with dry := true, newSize := 0, cur := s.eoff, crc := 0xFFFF } cs).1
  if p.esize ≠ p.newSize then ({ p with dry := false, eoff := 0, esize := 0 }, false)
  else ({ p with dry := false }, true)

/-- `readState` (S 120-136). -/
def readState (m : Mem) (s : S) (n : Nat) : S × Option (List Byte) :=
  if s.valid = false then (s, none)
  else if s.eoff + s.esize < s.cur + n then (s, none)
  else ({ s with cur := s.cur + n }, some (readRange m s.cur n))

/-- Reading pieces of the given sizes. -/
def readAll (m : Mem) : S → List Nat → S × List (Option (List Byte))
  | s, [] => (s, [])
  | s, n :: ns => ((readAll m (readState m s n).1 ns).1, (readState m s n).2 :: (readAll m (readState m s n).1 ns).2)

/-- What is left after a start. -/
structure Started where
  s : S
  ws : List Write
  loaded : List (Option (List Byte))

/-- The loading (T 461-466, 506-546), when the size check `c` was passed. -/
def loadState (m : Mem) (c : S × Bool) (cs : List (List Byte)) (ws : List Write) : Started :=
  if c.2 then
    ⟨(readAll m { c.1 with dry := false, cur := c.1.eoff } (cs.map List.length)).1, ws,
     (readAll m { c.1 with dry := false, cur := c.1.eoff } (cs.map List.length)).2⟩
  else ⟨c.1, ws, cs.map fun _ => none⟩

/-- The start of a device whose elements would now save `cs` (`SuplaDevice.cpp` 221-225): the state is loaded when
the sizes match. -/
def begin' (start : Nat) (m : Mem) (cs : List (List Byte)) : Started :=
  loadState (apply m (boot start m).2) (sizeCheck (start + 8) (apply m (boot start m).2) (boot start m).1 cs) cs (boot start m).2

/-! ## With channel numbers -/

/-- An element with a channel: its number and its pieces. -/
abbrev El := Nat × List (List Byte)

/-- What the elements write when the numbers are stored (T 567-581). -/
def numbered (es : List El) : List (List Byte) := es.flatMap fun e => [BitVec.ofNat 8 e.1] :: e.2

/-- The loading when the numbers are stored (T 467-505). `todo` are the channels not loaded yet, `shape` the sizes
that the element of a channel reads. -/
def loadNumbered (m : Mem) (shape : Nat → List Nat) : Nat → S → List Nat → List (Nat × List (Option (List Byte)))
  | 0, _, _ => []
  | k + 1, s, todo =>
    let r := readState m s 1
    let ch := ((r.2.getD [0]).getD 0 0).toNat
    if todo.contains ch then
      let q := readAll m r.1 (shape ch)
      (ch, q.2) :: loadNumbered m shape k q.1 (todo.filter (· ≠ ch))
    else []

end Verif.SimpleState
