/-!
# Vocabulary of the CRC-16 claims

Independent of the model: bits of a byte record and the set of bits in which two records differ.
-/

namespace Verif.Crc16

/-- Bit `j` of a record: bit `j % 8` of byte `j / 8` (false past the end). -/
def bitAt (m : List (BitVec 8)) (j : Nat) : Bool :=
  (m.getD (j / 8) 0).getLsbD (j % 8)

/-- Positions of the bits in which two records of the same length differ. -/
def flipped (m m' : List (BitVec 8)) : List Nat :=
  (List.range (8 * m.length)).filter (fun j => bitAt m j != bitAt m' j)

end Verif.Crc16
