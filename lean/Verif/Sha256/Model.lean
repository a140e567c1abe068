import Verif.Sha256.Spec

/-!
# The digest as the code computes it

Cited as S: `/repo/src/nettle/sha256.c`; C: `/repo/src/nettle/sha256-compress.c`; M: `/repo/src/nettle/macros.h`;
B: `/repo/src/nettle/write-be32.c`; U: `/repo/src/supla/sha256.cpp`. Words are `uint32_t`, the number of
blocks is a `uint64_t`. Arrays are lists; `getD` and `set` stand for reading and writing an element, and all
indices are within bounds.
-/

namespace Verif.Sha256

/-- `ROTL32`, M line 135. -/
def rotl (n : Nat) (x : Word) : Word := (x <<< n) ||| (x >>> ((32 - n) % 32))

/-- `Choice`, C line 61. -/
def choice (x y z : Word) : Word := z ^^^ (x &&& (y ^^^ z))

/-- `Majority`, C line 63. -/
def majority (x y z : Word) : Word := (x &&& y) ^^^ (z &&& (x ^^^ y))

/-- `S0`, `S1`, `s0`, `s1`, C lines 65-69. -/
def S0 (x : Word) : Word := rotl 30 x ^^^ rotl 19 x ^^^ rotl 10 x
/-- `S1`, C lines 65-69. -/
def S1 (x : Word) : Word := rotl 26 x ^^^ rotl 21 x ^^^ rotl 7 x
/-- `s0`, C lines 65-69. -/
def s0 (x : Word) : Word := rotl 25 x ^^^ rotl 14 x ^^^ (x >>> 3)
/-- `s1`, C lines 65-69. -/
def s1 (x : Word) : Word := rotl 15 x ^^^ rotl 13 x ^^^ (x >>> 10)

/-- `K`, S lines 43-62. -/
def K : List Word := [
  0x428a2f98, 0x71374491, 0xb5c0fbcf, 0xe9b5dba5,
  0x3956c25b, 0x59f111f1, 0x923f82a4, 0xab1c5ed5,
  0xd807aa98, 0x12835b01, 0x243185be, 0x550c7dc3,
  0x72be5d74, 0x80deb1fe, 0x9bdc06a7, 0xc19bf174,
  0xe49b69c1, 0xefbe4786, 0x0fc19dc6, 0x240ca1cc,
  0x2de92c6f, 0x4a7484aa, 0x5cb0a9dc, 0x76f988da,
  0x983e5152, 0xa831c66d, 0xb00327c8, 0xbf597fc7,
  0xc6e00bf3, 0xd5a79147, 0x06ca6351, 0x14292967,
  0x27b70a85, 0x2e1b2138, 0x4d2c6dfc, 0x53380d13,
  0x650a7354, 0x766a0abb, 0x81c2c92e, 0x92722c85,
  0xa2bfe8a1, 0xa81a664b, 0xc24b8b70, 0xc76c51a3,
  0xd192e819, 0xd6990624, 0xf40e3585, 0x106aa070,
  0x19a4c116, 0x1e376c08, 0x2748774c, 0x34b0bcb5,
  0x391c0cb3, 0x4ed8aa4a, 0x5b9cca4f, 0x682e6ff3,
  0x748f82ee, 0x78a5636f, 0x84c87814, 0x8cc70208,
  0x90befffa, 0xa4506ceb, 0xbef9a3f7, 0xc67178f2]

/-- `EXPAND`, C lines 82-83: the array after it; the value of the expression is the element `i & 15`. -/
def expand (d : List Word) (i : Nat) : List Word :=
  d.set (i % 16) (d.getD (i % 16) 0 +
    (s1 (d.getD ((i + 16 - 2) % 16) 0) + d.getD ((i + 16 - 7) % 16) 0 + s0 (d.getD ((i + 16 - 15) % 16) 0)))

/-- The local variables `A` to `H`, C line 114. -/
structure Loc where
  A : Word
  B : Word
  C : Word
  D : Word
  E : Word
  F : Word
  G : Word
  H : Word
deriving DecidableEq, Repr

/-- `ROUND`, C lines 105-109: the new `d` and `h`. -/
def ROUND (a b c d e f g h k data : Word) : Word × Word :=
  (d + (h + (S1 e + choice e f g + k + data)), (h + (S1 e + choice e f g + k + data)) + (S0 a + majority a b c))

/-- The eight lines C 139-146, and again C 151-158 and 159-166: line `i`. -/
def line (i : Nat) (v : Loc) (k data : Word) : Loc :=
  match i with
  | 0 => { v with D := (ROUND v.A v.B v.C v.D v.E v.F v.G v.H k data).1, H := (ROUND v.A v.B v.C v.D v.E v.F v.G v.H k data).2 }
  | 1 => { v with C := (ROUND v.H v.A v.B v.C v.D v.E v.F v.G k data).1, G := (ROUND v.H v.A v.B v.C v.D v.E v.F v.G k data).2 }
  | 2 => { v with B := (ROUND v.G v.H v.A v.B v.C v.D v.E v.F k data).1, F := (ROUND v.G v.H v.A v.B v.C v.D v.E v.F k data).2 }
  | 3 => { v with A := (ROUND v.F v.G v.H v.A v.B v.C v.D v.E k data).1, E := (ROUND v.F v.G v.H v.A v.B v.C v.D v.E k data).2 }
  | 4 => { v with H := (ROUND v.E v.F v.G v.H v.A v.B v.C v.D k data).1, D := (ROUND v.E v.F v.G v.H v.A v.B v.C v.D k data).2 }
  | 5 => { v with G := (ROUND v.D v.E v.F v.G v.H v.A v.B v.C k data).1, C := (ROUND v.D v.E v.F v.G v.H v.A v.B v.C k data).2 }
  | 6 => { v with F := (ROUND v.C v.D v.E v.F v.G v.H v.A v.B k data).1, B := (ROUND v.C v.D v.E v.F v.G v.H v.A v.B k data).2 }
  | _ => { v with E := (ROUND v.B v.C v.D v.E v.F v.G v.H v.A k data).1, A := (ROUND v.B v.C v.D v.E v.F v.G v.H v.A k data).2 }

/-- The loop C lines 137-147, rolled up: `n` lines of it. -/
def first (d : List Word) (v : Loc) : Nat → Loc
  | 0 => v
  | n + 1 => line (n % 8) (first d v n) (K.getD n 0) (d.getD n 0)

/-- The loop C lines 149-167, rolled up: `n` lines of it, with the array. -/
def second (d : List Word) (v : Loc) : Nat → Loc × List Word
  | 0 => (v, d)
  | n + 1 => (line (n % 8) (second d v n).1 (K.getD (n + 16) 0) ((expand (second d v n).2 (n % 16)).getD (n % 16) 0), expand (second d v n).2 (n % 16))

/-- `READ_UINT32`, M lines 55-57. -/
def read32 (p : List Byte) (i : Nat) : Word :=
  (((p.getD (4 * i) 0).setWidth 32) <<< 24) ||| (((p.getD (4 * i + 1) 0).setWidth 32) <<< 16) |||
    (((p.getD (4 * i + 2) 0).setWidth 32) <<< 8) ||| ((p.getD (4 * i + 3) 0).setWidth 32)

/-- The state, an array of eight words, as `A` to `H`. -/
def toLoc (s : List Word) : Loc :=
  { A := s.getD 0 0, B := s.getD 1 0, C := s.getD 2 0, D := s.getD 3 0, E := s.getD 4 0, F := s.getD 5 0, G := s.getD 6 0, H := s.getD 7 0 }

/-- `_nettle_sha256_compress`, C lines 111-183. -/
def compress (s : List Word) (input : List Byte) : List Word :=
  let data := (List.range 16).map (read32 input)
  let v := (second data (first data (toLoc s) 16) 48).1
  [s.getD 0 0 + v.A, s.getD 1 0 + v.B, s.getD 2 0 + v.C, s.getD 3 0 + v.D, s.getD 4 0 + v.E, s.getD 5 0 + v.F, s.getD 6 0 + v.G, s.getD 7 0 + v.H]

/-- `struct sha256_ctx`, `/repo/src/nettle/sha2.h`. -/
structure Ctx where
  state : List Word
  count : BitVec 64
  block : List Byte
  index : Nat
deriving Repr

/-- `sha256_init`, S lines 68-88; the block keeps its bytes. -/
def init (block : List Byte) : Ctx :=
  { state := [0x6a09e667, 0xbb67ae85, 0x3c6ef372, 0xa54ff53a, 0x510e527f, 0x9b05688c, 0x1f83d9ab, 0x5be0cd19], count := 0, block := block,
    index := 0 }

/-- `memcpy(block + at, data, n)` with all of `data`. -/
def copyTo (block : List Byte) (i : Nat) (data : List Byte) : List Byte := block.take i ++ data ++ block.drop (i + data.length)

/-- The loop and the rest of `MD_UPDATE`, M lines 179-187. -/
def whole (c : Ctx) : Nat → List Byte → Ctx
  | 0, data => { c with block := copyTo c.block 0 data, index := data.length }
  | fuel + 1, data =>
    if data.length ≥ 64 then whole { c with state := compress c.state (data.take 64), count := c.count + 1 } fuel (data.drop 64)
    else { c with block := copyTo c.block 0 data, index := data.length }

/-- `sha256_update`, S lines 90-92, and `Supla::Sha256::update`, U lines 26-28, with `MD_UPDATE`, M lines 160-189. -/
def update (c : Ctx) (data : List Byte) : Ctx :=
  if c.index ≠ 0 then
    if data.length < 64 - c.index then { c with block := copyTo c.block c.index data, index := c.index + data.length }
    else
      whole { c with state := compress c.state (copyTo c.block c.index (data.take (64 - c.index))), count := c.count + 1,
                     block := copyTo c.block c.index (data.take (64 - c.index)) } (data.length / 64 + 1) (data.drop (64 - c.index))
  else whole c (data.length / 64 + 1) data

/-- `WRITE_UINT64`, M lines 42-52. -/
def write64 (x : BitVec 64) : List Byte :=
  [((x >>> 56) &&& 0xff).setWidth 8, ((x >>> 48) &&& 0xff).setWidth 8, ((x >>> 40) &&& 0xff).setWidth 8, ((x >>> 32) &&& 0xff).setWidth 8,
   ((x >>> 24) &&& 0xff).setWidth 8, ((x >>> 16) &&& 0xff).setWidth 8, ((x >>> 8) &&& 0xff).setWidth 8, (x &&& 0xff).setWidth 8]

/-- `WRITE_UINT32`, M lines 59-65. -/
def write32 (x : Word) : List Byte :=
  [((x >>> 24) &&& 0xff).setWidth 8, ((x >>> 16) &&& 0xff).setWidth 8, ((x >>> 8) &&& 0xff).setWidth 8, (x &&& 0xff).setWidth 8]

/-- `MD_PAD`, M lines 194-215, with room for 8 bytes. -/
def mdPad (c : Ctx) : Ctx :=
  let b1 := copyTo c.block c.index [0x80]
  if c.index + 1 > 64 - 8 then
    let b2 := copyTo b1 (c.index + 1) (List.replicate (64 - (c.index + 1)) 0)
    { c with state := compress c.state b2, block := copyTo b2 0 (List.replicate (64 - 8) 0) }
  else { c with block := copyTo b1 (c.index + 1) (List.replicate (64 - 8 - (c.index + 1)) 0) }

/-- `_nettle_write_be32`, B lines 37-66: whole words, then what is left of the next. -/
def writeBe (length : Nat) (s : List Word) : List Byte :=
  ((List.range (length / 4)).flatMap (fun i => write32 (s.getD i 0))) ++ (write32 (s.getD (length / 4) 0)).take (length % 4)

/-- `sha256_write_digest`, S lines 94-113: the context before the output. -/
def finish (c : Ctx) : Ctx :=
  let c1 := mdPad c
  let c2 := { c1 with block := copyTo c1.block 56 (write64 ((c1.count <<< 9) ||| ((BitVec.ofNat 64 c1.index) <<< 3))) }
  { c2 with state := compress c2.state c2.block }

/-- `sha256_digest`, S lines 115-118, and `Supla::Sha256::digest`, U lines 34-36 (a length above 32 stops the program, S line 99): the output and the context after it. -/
def digest (c : Ctx) (length : Nat) : List Byte × Ctx := (writeBe length (finish c).state, init (finish c).block)

end Verif.Sha256
