import Verif.Sha256.Spec

/-!
# RSASSA-PKCS1-v1_5 verification with SHA-256, from RFC 8017

Written from the RFC (sections 4.1, 4.2, 5.2.2, 8.2.2, 9.2); nothing here refers to the code.
-/

namespace Verif.Rsa

open Verif.Sha256 (Byte)

namespace Rfc

/-- OS2IP, section 4.2: the octets are a number written in base 256, the most significant first. -/
def os2ip : List Byte → Nat
  | [] => 0
  | b :: bs => b.toNat * 256 ^ bs.length + os2ip bs

/-- I2OSP, section 4.1: `k` octets of a number below `256 ^ k`. -/
def i2osp : Nat → Nat → List Byte
  | 0, _ => []
  | k + 1, x => BitVec.ofNat 8 (x / 256 ^ k) :: i2osp k (x % 256 ^ k)

/-- `k` is the number of octets of the modulus. -/
def OctetLength (n k : Nat) : Prop := n < 256 ^ k ∧ ∀ j, n < 256 ^ j → k ≤ j

/-- The DER encoding of the DigestInfo prefix for SHA-256, section 9.2 note 1. -/
def digestInfo : List Byte :=
  [0x30, 0x31, 0x30, 0x0d, 0x06, 0x09, 0x60, 0x86, 0x48, 0x01, 0x65, 0x03, 0x04, 0x02, 0x01, 0x05, 0x00, 0x04, 0x20]

/-- EMSA-PKCS1-v1_5, section 9.2: `0x00 || 0x01 || PS || 0x00 || T`, at least eight octets of PS. -/
def emsa (k : Nat) (m : List Byte) : Option (List Byte) :=
  if k < digestInfo.length + 32 + 11 then none
  else some ([0x00, 0x01] ++ List.replicate (k - (digestInfo.length + 32) - 3) 0xff ++ [0x00] ++ (digestInfo ++ Sha256.Fips.sha256 m))

/-- RSASSA-PKCS1-V1_5-VERIFY, section 8.2.2, for a modulus of `k` octets and the representative `s` of the
signature: RSAVP1 (`s` below the modulus, `m = s ^ e mod n`) and the comparison of the encoded messages. -/
def valid (n e k : Nat) (msg : List Byte) (s : Nat) : Prop := s < n ∧ emsa k msg = some (i2osp k (s ^ e % n))

end Rfc

theorem os2ip_lt : ∀ l, Rfc.os2ip l < 256 ^ l.length := by
  intro l
  induction l with
  | nil => decide
  | cons b bs ih =>
    rw [Rfc.os2ip, List.length_cons, Nat.pow_succ]
    have := b.isLt
    have h : (b.toNat + 1) * 256 ^ bs.length ≤ 256 * 256 ^ bs.length := Nat.mul_le_mul_right _ (by omega)
    rw [Nat.add_mul] at h
    omega

theorem i2osp_os2ip : ∀ l, Rfc.i2osp l.length (Rfc.os2ip l) = l := by
  intro l
  induction l with
  | nil => rfl
  | cons b bs ih =>
    have := os2ip_lt bs
    rw [List.length_cons, Rfc.i2osp, Rfc.os2ip, Nat.mul_comm, Nat.mul_add_div (by omega), Nat.mul_add_mod, Nat.mod_eq_of_lt this, ih,
      Nat.div_eq_of_lt this, Nat.add_zero, BitVec.ofNat_toNat, BitVec.setWidth_eq]

theorem os2ip_i2osp : ∀ k x, x < 256 ^ k → Rfc.os2ip (Rfc.i2osp k x) = x := by
  intro k
  induction k with
  | zero => intro x h; simp at h; subst h; rfl
  | succ k ih =>
    intro x h
    have hp : 0 < 256 ^ k := Nat.pow_pos (by decide)
    have hl : ∀ k x, (Rfc.i2osp k x).length = k := by
      intro k; induction k with
      | zero => intro x; rfl
      | succ k ih => intro x; rw [Rfc.i2osp, List.length_cons, ih]
    have hq : x / 256 ^ k < 256 := by rw [Nat.div_lt_iff_lt_mul hp, Nat.mul_comm]; rw [Nat.pow_succ] at h; exact h
    rw [Rfc.i2osp, Rfc.os2ip, hl, ih _ (Nat.mod_lt _ hp), BitVec.toNat_ofNat, Nat.mod_eq_of_lt (by omega)]
    exact Nat.div_add_mod' _ _

end Verif.Rsa
