import Verif.Sha256.Model

/-!
# The signature check as the code performs it

Cited as V: `/repo/src/supla/rsa_verificator.cpp`; R: `/repo/src/nettle/rsa.c`; E: `/repo/src/nettle/rsa-verify.c`;
Q: `/repo/src/nettle/rsa-sha256-verify.c`; P: `/repo/src/nettle/pkcs1.c`; X: `/repo/src/nettle/pkcs1-rsa-sha256.c`;
B: `/repo/src/nettle/bignum.c`; G: `/repo/src/nettle/mini-gmp.c`.

Here a big number (`mpz_t`) is the natural number it stands for; `limbs w x` is the number of limbs of `w` bits it
occupies, on which the code branches. `w` is 32 on the ESP targets and 64 on a PC. That allocation succeeds is
assumed (if it does not, the program stops: G, `gmp_die`).
-/

namespace Verif.Rsa

open Verif.Sha256 (Byte Ctx copyTo digest)

/-- `_mp_size` of a normalised number. -/
def limbs (w x : Nat) : Nat := if x = 0 then 0 else x.log2 / w + 1

/-- `mpz_import(x, length, 1, 1, 0, 0, s)`, G lines 3547-3609, as B line 118 calls it: the bytes from the last to the
first, each above the ones before. -/
def importBytes (s : List Byte) : Nat := s.reverse.foldr (fun b x => b.toNat + 256 * x) 0

/-- `mpz_sizeinbase(x, 2)`, G lines 3358-3377. -/
def bits (x : Nat) : Nat := if x = 0 then 1 else x.log2 + 1

/-- `_rsa_check_size`, R lines 53-65. -/
def checkSize (n : Nat) : Nat :=
  if n % 2 = 0 then 0
  else if (bits n + 7) / 8 < 12 then 0
  else (bits n + 7) / 8

/-- `struct rsa_public_key`, and the verificator around it. -/
structure Key where
  n : Nat
  e : Nat
  size : Nat
deriving Repr

/-- The constructor, V lines 19-24. -/
def mkKey (bytes : List Byte) : Key := { n := importBytes bytes, e := 65537, size := checkSize (importBytes bytes) }

/-- `sha256_prefix`, X lines 49-60. -/
def sha256Prefix : List Byte :=
  [0x30, 49, 0x30, 13, 0x06, 9, 0x60, 0x86, 0x48, 0x01, 0x65, 0x03, 0x04, 0x02, 0x01, 0x05, 0, 0x04, 32]

/-- `_pkcs1_signature_prefix`, P lines 43-63: the buffer after it and the place for the digest. -/
def signaturePrefix (keySize : Nat) (buffer : List Byte) (id : List Byte) (digestSize : Nat) : Option (List Byte × Nat) :=
  if keySize < 11 + id.length + digestSize then none
  else
    let j := keySize - digestSize - id.length
    let b1 := copyTo buffer j id
    let b2 := copyTo b1 0 [0]
    let b3 := copyTo b2 1 [1]
    let b4 := copyTo b3 (j - 1) [0]
    some (copyTo b4 2 (List.replicate (j - 3) 0xff), j + id.length)

/-- `pkcs1_rsa_sha256_encode`, X lines 62-79: the number, if there is one, and the hash object afterwards. `mem` is what
the freshly allocated buffer happens to hold. -/
def encode (mem : List Byte) (keySize : Nat) (hash : Ctx) : Option Nat × Ctx :=
  match signaturePrefix keySize mem sha256Prefix 32 with
  | some (em, p) => (some (importBytes (copyTo em p (digest hash 32).1)), (digest hash 32).2)
  | none => (none, hash)

/-- One bit of the exponent in `mpz_powm`, G lines 2645-2652: `mm` is the modulus shifted so that its top bit is set. -/
def powBit (w mn mm base : Nat) (bit : Bool) (tr : Nat) : Nat :=
  let t := tr * tr
  let t := if bit then t * base else t
  if limbs w t > mn then t % mm else t

/-- The loop over the bits of one limb of the exponent, G lines 2644-2655: `k` bits left. -/
def powLoop (w mn mm base e : Nat) : Nat → Nat → Nat
  | 0, tr => tr
  | k + 1, tr => powLoop w mn mm base e k (powBit w mn mm base (e.testBit k) tr)

/-- The shift that sets the top bit of the highest limb: `gmp_clz`, G lines 71-81 and 739. -/
def shiftOf (w m : Nat) : Nat := w * limbs w m - (m.log2 + 1)

/-- `mpz_powm`, G lines 2582-2668, for `b ≥ 0` and an exponent of one limb; a zero modulus stops the program. -/
def powm (w b e m : Nat) : Option Nat :=
  if m = 0 then none
  else if e = 0 then some 1
  else
    let mn := limbs w m
    let mm := m * 2 ^ shiftOf w m
    let base := if limbs w b ≥ mn then b % mm else b
    let tr := powLoop w mn mm base e w 1
    some (if limbs w tr ≥ mn then tr % m else tr)

/-- `_rsa_verify`, E lines 37-55; `none`: the program stops. -/
def rsaVerify (w : Nat) (key : Key) (m s : Nat) : Option Bool :=
  if s = 0 ∨ s ≥ key.n then some false
  else (powm w s key.e key.n).map (fun m1 => m == m1)

/-- `rsa_sha256_verify`, Q lines 38-51, in `Supla::RsaVerificator::verify`, V lines 30-37: the answer (`none`: the
program stops) and the hash object afterwards. -/
def verify (w : Nat) (mem : List Byte) (key : Key) (hash : Ctx) (sig : List Byte) : Option Bool × Ctx :=
  match encode mem key.size hash with
  | (some m, h) => (rsaVerify w key m (importBytes sig), h)
  | (none, h) => (some false, h)

end Verif.Rsa
