/-!
# CRC-16 of stored records

Models `/repo/src/supla/crc16.cpp`.
-/

namespace Verif.Crc16

/-- One iteration of the bit loop, `/repo/src/supla/crc16.cpp:26-31`
(`if (crc & 1) crc = (crc >> 1) ^ 0xA001; else crc = crc >> 1`). -/
def bitStep (crc : BitVec 16) : BitVec 16 :=
  if crc.getLsbD 0 then (crc >>> 1) ^^^ 0xA001#16 else crc >>> 1

/-- The loop `for (i = 0; i < n; ++i)` around `bitStep`, `/repo/src/supla/crc16.cpp:26`. -/
def bitSteps : Nat → BitVec 16 → BitVec 16
  | 0, c => c
  | n + 1, c => bitSteps n (bitStep c)

/-- `crc16_update`, `/repo/src/supla/crc16.cpp:22-34`: `crc ^= a` (the byte is zero-extended) and
eight bit steps. -/
def update (crc : BitVec 16) (a : BitVec 8) : BitVec 16 :=
  bitSteps 8 (crc ^^^ a.setWidth 16)

/-- `calculateCrc16`, `/repo/src/supla/crc16.cpp:36-47`, for a non-null `data` whose first `size`
bytes are the list. (The `data == nullptr` case, lines 37-39, returns 0 and is not used by the
storage code.) -/
def crc16 (data : List (BitVec 8)) : BitVec 16 :=
  data.foldl update 0xFFFF#16

end Verif.Crc16
