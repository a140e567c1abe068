/-!
# SHA-256 as the standard has it

FIPS 180-4, sections 2.2.2, 3.2, 4.1.2, 4.2.2, 5.1.1, 5.2.1, 5.3.3 and 6.2. Nothing here comes from the code.
-/

namespace Verif.Sha256

abbrev Byte := BitVec 8
abbrev Word := BitVec 32

namespace Fips

/-- Section 3.2: rotation to the right. -/
def rotr (n : Nat) (x : Word) : Word := (x >>> n) ||| (x <<< (32 - n))

/-- Section 4.1.2. -/
def ch (x y z : Word) : Word := (x &&& y) ^^^ (~~~x &&& z)
def maj (x y z : Word) : Word := (x &&& y) ^^^ (x &&& z) ^^^ (y &&& z)
def Sigma0 (x : Word) : Word := rotr 2 x ^^^ rotr 13 x ^^^ rotr 22 x
def Sigma1 (x : Word) : Word := rotr 6 x ^^^ rotr 11 x ^^^ rotr 25 x
def sigma0 (x : Word) : Word := rotr 7 x ^^^ rotr 18 x ^^^ (x >>> 3)
def sigma1 (x : Word) : Word := rotr 17 x ^^^ rotr 19 x ^^^ (x >>> 10)

/-- Section 4.2.2. -/
def K : List Word := [
  0x428a2f98, 0x71374491, 0xb5c0fbcf, 0xe9b5dba5, 0x3956c25b, 0x59f111f1, 0x923f82a4, 0xab1c5ed5,
  0xd807aa98, 0x12835b01, 0x243185be, 0x550c7dc3, 0x72be5d74, 0x80deb1fe, 0x9bdc06a7, 0xc19bf174,
  0xe49b69c1, 0xefbe4786, 0x0fc19dc6, 0x240ca1cc, 0x2de92c6f, 0x4a7484aa, 0x5cb0a9dc, 0x76f988da,
  0x983e5152, 0xa831c66d, 0xb00327c8, 0xbf597fc7, 0xc6e00bf3, 0xd5a79147, 0x06ca6351, 0x14292967,
  0x27b70a85, 0x2e1b2138, 0x4d2c6dfc, 0x53380d13, 0x650a7354, 0x766a0abb, 0x81c2c92e, 0x92722c85,
  0xa2bfe8a1, 0xa81a664b, 0xc24b8b70, 0xc76c51a3, 0xd192e819, 0xd6990624, 0xf40e3585, 0x106aa070,
  0x19a4c116, 0x1e376c08, 0x2748774c, 0x34b0bcb5, 0x391c0cb3, 0x4ed8aa4a, 0x5b9cca4f, 0x682e6ff3,
  0x748f82ee, 0x78a5636f, 0x84c87814, 0x8cc70208, 0x90befffa, 0xa4506ceb, 0xbef9a3f7, 0xc67178f2]

/-- The eight working variables, or the hash value. -/
structure Vars where
  a : Word
  b : Word
  c : Word
  d : Word
  e : Word
  f : Word
  g : Word
  h : Word
deriving DecidableEq, Repr

/-- Section 5.3.3. -/
def H0 : Vars :=
  { a := 0x6a09e667, b := 0xbb67ae85, c := 0x3c6ef372, d := 0xa54ff53a, e := 0x510e527f, f := 0x9b05688c, g := 0x1f83d9ab, h := 0x5be0cd19 }

/-- Section 6.2.2, step 1: the message schedule with `n` words after the sixteen of the block. -/
def W (M : List Word) : Nat → List Word
  | 0 => M
  | n + 1 =>
    W M n ++ [sigma1 ((W M n).getD (n + 16 - 2) 0) + (W M n).getD (n + 16 - 7) 0 + sigma0 ((W M n).getD (n + 16 - 15) 0) +
      (W M n).getD (n + 16 - 16) 0]

/-- Section 6.2.2, step 3: one round. -/
def round (v : Vars) (k w : Word) : Vars :=
  let T1 := v.h + Sigma1 v.e + ch v.e v.f v.g + k + w
  let T2 := Sigma0 v.a + maj v.a v.b v.c
  { a := T1 + T2, b := v.a, c := v.b, d := v.c, e := v.d + T1, f := v.e, g := v.f, h := v.g }

/-- The rounds from 0 to `n - 1`. -/
def rounds (w : List Word) (v : Vars) : Nat → Vars
  | 0 => v
  | n + 1 => round (rounds w v n) (K.getD n 0) (w.getD n 0)

/-- Section 6.2.2, step 4. -/
def add (x y : Vars) : Vars :=
  { a := x.a + y.a, b := x.b + y.b, c := x.c + y.c, d := x.d + y.d, e := x.e + y.e, f := x.f + y.f, g := x.g + y.g, h := x.h + y.h }

/-- A block of 64 bytes as 16 words, the first byte of a word the most significant (section 3.1). -/
def words : List Byte → List Word
  | b0 :: b1 :: b2 :: b3 :: bs => (b0 ++ b1 ++ b2 ++ b3) :: words bs
  | _ => []

/-- Section 6.2.2: the hash value after one more block. -/
def compress (H : Vars) (block : List Byte) : Vars := add (rounds (W (words block) 48) H 64) H

/-- The bytes of a word, or of a double word, the most significant first. -/
def bytes {n : Nat} (k : Nat) (x : BitVec n) : List Byte := (List.range k).map (fun i => x.extractLsb' (8 * (k - 1 - i)) 8)

/-- Section 5.1.1: a one, zeros up to 56 bytes modulo 64, the length in bits. -/
def pad (m : List Byte) : List Byte :=
  m ++ [0x80] ++ List.replicate ((119 - m.length % 64) % 64) 0 ++ bytes 8 (BitVec.ofNat 64 (8 * m.length))

/-- Section 6.2.2: the blocks one after another. -/
def blocks (H : Vars) : Nat → List Byte → Vars
  | 0, _ => H
  | n + 1, m => blocks (compress H (m.take 64)) n (m.drop 64)

/-- The 32 bytes of the digest. -/
def out (v : Vars) : List Byte := [v.a, v.b, v.c, v.d, v.e, v.f, v.g, v.h].flatMap (bytes 4)

/-- SHA-256 of a message. -/
def sha256 (m : List Byte) : List Byte := out (blocks H0 ((pad m).length / 64) (pad m))

/-- The padded message consists of whole blocks. -/
theorem pad_length (m : List Byte) : (pad m).length % 64 = 0 := by
  simp only [pad, bytes, List.length_append, List.length_cons, List.length_nil, List.length_replicate, List.length_map, List.length_range]
  omega

/-- The example of FIPS 180-2, appendix B.1: "abc". -/
example : sha256 [0x61, 0x62, 0x63] = [
    0xba, 0x78, 0x16, 0xbf, 0x8f, 0x01, 0xcf, 0xea, 0x41, 0x41, 0x40, 0xde, 0x5d, 0xae, 0x22, 0x23,
    0xb0, 0x03, 0x61, 0xa3, 0x96, 0x17, 0x7a, 0x9c, 0xb4, 0x10, 0xff, 0x61, 0xf2, 0x00, 0x15, 0xad] := by
  decide +kernel

end Fips
end Verif.Sha256
