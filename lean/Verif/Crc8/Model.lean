/-!
# CRC-8

Models `/repo/src/supla/crc8.cpp`.
-/

namespace Verif.Crc8

/-- One iteration of the inner loop, `/repo/src/supla/crc8.cpp` 28-31. -/
def bitStep (crc : BitVec 8) : BitVec 8 :=
  if crc.getLsbD 7 then (crc <<< 1) ^^^ 0x07#8 else crc <<< 1

/-- The inner loop, `/repo/src/supla/crc8.cpp` 27-32. -/
def bitSteps : Nat → BitVec 8 → BitVec 8
  | 0, c => c
  | n + 1, c => bitSteps n (bitStep c)

/-- One byte, `/repo/src/supla/crc8.cpp` 25-32. -/
def update (crc a : BitVec 8) : BitVec 8 := bitSteps 8 (crc ^^^ a)

/-- `crc8`, `/repo/src/supla/crc8.cpp` 21-35, of the first `size` bytes given as
a list; a `size` that is not positive gives the empty list. -/
def crc8 (data : List (BitVec 8)) : BitVec 8 := data.foldl update 0#8

end Verif.Crc8
