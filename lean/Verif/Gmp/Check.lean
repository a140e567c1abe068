/-
The signature check of Verif.Rsa.Model once more, with numbers as lists of limbs.
-/
import Verif.Rsa.Props
import Verif.Gmp.Model

namespace Verif.Gmp

open Verif.Sha256 (Byte Ctx copyTo digest)

/-- nettle_mpz_set_str_256_u (/repo/src/nettle/bignum.c:120-127). -/
def importOctets (h : Nat) (s : List Byte) : Option (List Nat) := importZ h (s.map BitVec.toNat)

/-- _rsa_check_size (/repo/src/nettle/rsa.c:53-65). -/
def checkSize (h : Nat) (n : List Nat) : Option Nat :=
  if oddZ n then
    (sizeBits h n).map fun bits => if (bits + 7) / 8 < 12 then 0 else (bits + 7) / 8
  else some 0

/-- struct rsa_public_key (/repo/src/nettle/rsa.h). -/
structure Key where
  n : List Nat
  e : List Nat
  size : Nat
deriving Repr

/-- The constructor (/repo/src/supla/rsa_verificator.cpp:19-24); mpz_set_ui stores the exponent as one
limb (/repo/src/nettle/mini-gmp.c:1261-1267). -/
def mkKey (h : Nat) (bytes : List Byte) : Option Key :=
  (importOctets h bytes).bind fun n => (checkSize h n).map fun size => ⟨n, [65537], size⟩

/-- _rsa_verify (/repo/src/nettle/rsa-verify.c:37-55). -/
def rsaVerify (h u : Nat) (key : Key) (m s : List Nat) : Option Bool :=
  if s.length = 0 ∨ 0 ≤ cmpZ s key.n then some false
  else (powm h u s key.e key.n).map fun m1 => decide (cmpZ m m1 = 0)

/-- pkcs1_rsa_sha256_encode and rsa_sha256_verify (/repo/src/nettle/pkcs1-rsa-sha256.c:62-79,
/repo/src/nettle/rsa-sha256-verify.c:38-51) in Supla::RsaVerificator::verify
(/repo/src/supla/rsa_verificator.cpp:30-37); the octets before the numbers are those of Verif.Rsa. -/
def verify (h u : Nat) (mem : List Byte) (key : Key) (hash : Ctx) (sig : List Byte) :
    Option Bool × Ctx :=
  match Rsa.signaturePrefix key.size mem Rsa.sha256Prefix 32 with
  | some (em, p) =>
    ((importOctets h sig).bind fun s =>
      (importOctets h (copyTo em p (digest hash 32).1)).bind fun m => rsaVerify h u key m s,
      (digest hash 32).2)
  | none => ((importOctets h sig).map fun _ => false, hash)

/-- The answer for the bytes of a key and a signature when the pieces `ds` were hashed; `alloc` is the
memory for a buffer of the size asked. -/
def answer (h u : Nat) (alloc : Nat → List Byte) (block key sig : List Byte)
    (ds : List (List Byte)) : Option Bool :=
  (mkKey h key).bind fun k =>
    (verify h u (alloc k.size) k (Sha256.updates (Sha256.init block) ds) sig).1

end Verif.Gmp
