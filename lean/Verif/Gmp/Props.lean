/-
C89: the limb arithmetic is exact, and the signature check built on it accepts what RFC 8017 says.
-/
import Verif.Gmp.Check
import Verif.Gmp.Import

namespace Verif.Gmp

open Verif.Sha256 (Byte Ctx copyTo digest)

theorem octets_reverse (l : List Byte) :
    octets (l.map BitVec.toNat) = l.foldr (fun b x => b.toNat + 256 * x) 0 := by
  induction l with
  | nil => rfl
  | cons a l ih => rw [List.map_cons, octets, ih, List.foldr_cons]

theorem importOctets_spec {h k : Nat} (hk : 2 * h = k * 8) (hk0 : 0 < k) (s : List Byte) :
    ∃ r, importOctets h s = some r ∧ Number h r ∧ value h r = Rsa.importBytes s := by
  obtain ⟨r, r1, r2, r3⟩ := importZ_spec (h := h) hk hk0 (xs := s.map BitVec.toNat) (by
    intro x hx
    obtain ⟨b, _, rfl⟩ := List.mem_map.1 hx
    exact b.isLt)
  refine ⟨r, r1, r2, ?_⟩
  rw [r3, ← List.map_reverse, octets_reverse]
  rfl

theorem checkSize_spec {h : Nat} (hh : 4 ≤ h) {n : List Nat} (hn : Number h n) :
    checkSize h n = some (Rsa.checkSize (value h n)) := by
  unfold checkSize Rsa.checkSize Rsa.bits
  have ho := oddZ_spec (h := h) hh n
  by_cases he : value h n % 2 = 0
  · rw [if_pos he, if_neg (by rw [ho]; omega)]
  · rw [if_neg he, if_pos (by rw [ho]; omega), sizeBits_spec hh hn, Option.map_some]

theorem empty_iff {h : Nat} {s : List Nat} (hs : Number h s) : s.length = 0 ↔ value h s = 0 := by
  constructor
  · intro h0; rw [List.length_eq_zero_iff.1 h0, value_nil]
  · intro h0
    by_contra hc
    have := normal_lower (h := h) hs.2 (by intro h1; rw [h1] at hc; simp at hc)
    have : 0 < base h ^ (s.length - 1) := Nat.pow_pos (base_pos h)
    omega

/-- The limb arithmetic follows the numbers through the check. -/
theorem answer_eq {h u k : Nat} (hh : 9 ≤ h) (hmax : h ≤ 64) (hu : h < u) (hk : 2 * h = k * 8)
    (alloc : Nat → List Byte) (block key sig : List Byte) (ds : List (List Byte)) :
    answer h u alloc block key sig ds = (Rsa.answer (2 * h) alloc block key sig ds).1 := by
  obtain ⟨n, n1, n2, n3⟩ := importOctets_spec hk (by omega) key
  obtain ⟨s, s1, s2, s3⟩ := importOctets_spec hk (by omega) sig
  unfold answer mkKey Rsa.answer
  rw [n1, Option.bind_some, checkSize_spec (by omega) n2, Option.map_some, Option.bind_some]
  unfold verify Rsa.verify Rsa.encode Rsa.mkKey
  dsimp only
  rw [← n3, s1]
  generalize Sha256.updates (Sha256.init block) ds = ctx
  generalize hsp : Rsa.signaturePrefix (Rsa.checkSize (value h n)) (alloc (Rsa.checkSize (value h n)))
    Rsa.sha256Prefix 32 = sp
  cases sp with
  | none => rfl
  | some q =>
    obtain ⟨em, p⟩ := q
    obtain ⟨m, m1, m2, m3⟩ := importOctets_spec hk (by omega) (copyTo em p (digest ctx 32).1)
    dsimp only
    rw [Option.bind_some, m1, Option.bind_some, ← m3, ← s3]
    -- the modulus is long
    have hsize : 62 ≤ Rsa.checkSize (value h n) := by
      unfold Rsa.signaturePrefix at hsp
      by_contra hc
      rw [if_pos (by have : Rsa.sha256Prefix.length = 19 := rfl; omega)] at hsp
      cases hsp
    have hbits : 489 ≤ Rsa.bits (value h n) := by
      unfold Rsa.checkSize at hsize
      split at hsize
      · omega
      · split at hsize <;> omega
    have hn0 : value h n ≠ 0 := by
      intro hc; rw [hc] at hbits; revert hbits; decide
    have hlen : 3 ≤ n.length := by
      unfold Rsa.bits at hbits
      rw [if_neg hn0] at hbits
      have h1 : 2 ^ 488 ≤ value h n :=
        (Nat.pow_le_pow_right (by decide) (by omega)).trans (Nat.log2_self_le hn0)
      by_contra hc
      have h2 := value_lt n2.1
      have h3 : base h ^ n.length ≤ 2 ^ 488 := by
        rw [base_eq, ← Nat.pow_mul]
        apply Nat.pow_le_pow_right (by decide)
        have : 2 * h * n.length ≤ 2 * h * 2 := Nat.mul_le_mul_left _ (by omega)
        omega
      omega
    have he : Number h [65537] := by
      refine ⟨limbs_one ?_, by simp [Normal]⟩
      rw [base_eq]
      exact Nat.lt_of_lt_of_le (show 65537 < 2 ^ 18 by decide) (Nat.pow_le_pow_right (by decide) (by omega))
    have hev : value h [65537] = 65537 := by rw [value_cons, value_nil, Nat.mul_zero, Nat.add_zero]
    have he2 : 65537 < 2 ^ (2 * h) := by
      have := he.1 65537 (by simp)
      exact this
    unfold rsaVerify Rsa.rsaVerify
    dsimp only
    obtain ⟨c1, _⟩ := cmpZ_spec s2 n2
    by_cases hc : value h s = 0 ∨ value h s ≥ value h n
    · rw [if_pos hc, if_pos]
      rcases hc with hc | hc
      · exact Or.inl ((empty_iff s2).2 hc)
      · right
        by_contra hx
        have := c1.1 (by omega)
        omega
    · rw [if_neg hc, if_neg]
      · obtain ⟨r, r1, r2, r3⟩ := powm_spec (u := u) (by omega) hu s2 he n2 hlen
        rw [r1, Rsa.powm_eq _ _ _ _ he2 (by decide) hn0, Option.map_some, Option.map_some]
        congr 1
        rw [hev] at r3
        obtain ⟨_, d2⟩ := cmpZ_spec m2 r2
        rw [r3] at d2
        rw [Bool.eq_iff_iff, beq_iff_eq, decide_eq_true_iff]
        exact d2
      · rintro (hx | hx)
        · exact hc (Or.inl ((empty_iff s2).1 hx))
        · apply hc
          right
          by_contra hy
          have := c1.2 (by omega)
          omega

/-- The full claim for a machine with limbs of `2 * h` bits and an `unsigned` of `u` bits: the check
always answers, and it accepts exactly the valid signatures for an odd modulus. -/
def CheckIsExact (h u : Nat) : Prop :=
  ∀ (alloc : Nat → List Byte), (∀ k, (alloc k).length = k) → ∀ (block : List Byte), block.length = 64 →
  ∀ (key sig : List Byte) (ds : List (List Byte)) (k : Nat),
  Rsa.Rfc.OctetLength (Rsa.Rfc.os2ip key) k →
  ∃ ok, answer h u alloc block key sig ds = some ok ∧
    (ok = true ↔ Rsa.Rfc.os2ip key % 2 = 1 ∧
      Rsa.Rfc.valid (Rsa.Rfc.os2ip key) 65537 k ds.flatten (Rsa.Rfc.os2ip sig))

/-- **C89.** The check is exact, limb by limb, wherever an `unsigned` is wider than half a limb: on the
32-bit targets of the library. -/
theorem check_is_exact_partial (h u k : Nat) (hh : 9 ≤ h) (hmax : h ≤ 64) (hu : h < u)
    (hk : 2 * h = k * 8) : CheckIsExact h u := by
  intro alloc ha block hb key sig ds len hl
  rw [answer_eq hh hmax hu hk]
  exact Rsa.accepts_iff_valid (2 * h) (by omega) alloc ha block hb key sig ds len hl

/-- ESP8266 and ESP32: limbs of 32 bits, `unsigned` of 32 bits. -/
theorem esp_check_is_exact : CheckIsExact 16 32 :=
  check_is_exact_partial 16 32 4 (by decide) (by decide) (by decide) rfl

/-! A key of 512 bits whose highest 64 bits are `0x98c8210337b76cdb`, and its signature of "abc". -/

/-- The modulus of the example. -/
def wrapKey : Nat := 0x98c8210337b76cdb68968826dea33376ffb8aea66918bca9564e9afeb784268b830edfbf0b28fe0bf7fa0c44894b69550d4ab4629a7850fd1b6036ec1209968b
/-- The signature of the example. -/
def wrapSig : Nat := 0x67fd770971273cd7efd3d9ce885ec8997a61bfc26c6b997c114aeefa7228421284222bc3b04c98492251c84f57e6b5725dd3b5ad8ae662374fe4a05ae39fe49e

/-- The signature is accepted with limbs of 32 bits. -/
theorem wrapSig_accepted : answer 16 32 (fun k => List.replicate k 7) (List.replicate 64 0)
    (Rsa.Rfc.i2osp 64 wrapKey) (Rsa.Rfc.i2osp 64 wrapSig) [[0x61, 0x62, 0x63]] = some true := by
  decide +kernel

/-- On a host with limbs of 64 bits and an `unsigned` of 32 the same signature is rejected. -/
theorem wrapSig_rejected : answer 32 32 (fun k => List.replicate k 7) (List.replicate 64 0)
    (Rsa.Rfc.i2osp 64 wrapKey) (Rsa.Rfc.i2osp 64 wrapSig) [[0x61, 0x62, 0x63]] = some false := by
  decide +kernel

/-- With an `unsigned` as wide as half a limb the check is not exact: the valid signature above is
rejected. -/
theorem host_check_violation : ¬ CheckIsExact 32 32 := by
  intro hc
  have hl : ∀ k, (List.replicate k (7 : Byte)).length = k := fun k => List.length_replicate
  have hkey : Rsa.Rfc.OctetLength (Rsa.Rfc.os2ip (Rsa.Rfc.i2osp 64 wrapKey)) 64 := by
    have e : (Rsa.bits (Rsa.Rfc.os2ip (Rsa.Rfc.i2osp 64 wrapKey)) + 7) / 8 = 64 := by decide +kernel
    have := Rsa.size_octets (Rsa.Rfc.os2ip (Rsa.Rfc.i2osp 64 wrapKey)) (by decide +kernel)
    rw [e] at this
    exact this
  obtain ⟨ok, a1, a2⟩ := esp_check_is_exact (fun k => List.replicate k 7) hl (List.replicate 64 0)
    List.length_replicate (Rsa.Rfc.i2osp 64 wrapKey) (Rsa.Rfc.i2osp 64 wrapSig) [[0x61, 0x62, 0x63]] 64 hkey
  obtain ⟨ok', b1, b2⟩ := hc (fun k => List.replicate k 7) hl (List.replicate 64 0)
    List.length_replicate (Rsa.Rfc.i2osp 64 wrapKey) (Rsa.Rfc.i2osp 64 wrapSig) [[0x61, 0x62, 0x63]] 64 hkey
  rw [wrapSig_accepted] at a1
  rw [wrapSig_rejected] at b1
  have t := a2.1 (Option.some.inj a1).symm
  have := b2.2 t
  rw [← Option.some.inj b1] at this
  cases this

/-- **C89.** mpz_powm is modular exponentiation, for every base, exponent and modulus of at least three
limbs. -/
theorem powm_is_power (h u : Nat) (hh : 4 ≤ h) (hu : h < u) (b e m : List Nat) (hb : Number h b)
    (he : Number h e) (hm : Number h m) (hlen : 3 ≤ m.length) :
    ∃ r, powm h u b e m = some r ∧ Number h r ∧ value h r = value h b ^ value h e % value h m :=
  powm_spec hh hu hb he hm hlen

/-- A base longer than the modulus, an exponent of two limbs, a modulus that is shifted. -/
example : powm 4 8 [7, 9, 200, 3, 1] [5, 1] [77, 3, 9] = some [90, 214, 4]
    ∧ value 4 [7, 9, 200, 3, 1] ^ value 4 [5, 1] % value 4 [77, 3, 9] = value 4 [90, 214, 4] := by
  decide +kernel

/-- **C89.** The precomputed inverse is the one its comment promises. -/
theorem inverse_is_exact (h u u1 u0 : Nat) (hh : 1 ≤ h) (hu : h < u) (h1 : u1 < 2 ^ (2 * h))
    (h0 : u0 < 2 ^ (2 * h)) (hn : 2 ^ (2 * h) ≤ 2 * u1) :
    ∃ v, invert3by2 h u u1 u0 = some v ∧ IsInverse (2 ^ (2 * h)) (u1 * 2 ^ (2 * h) + u0) v := by
  rw [← base_eq] at *
  obtain ⟨v, v1, _, v3⟩ := invert3by2_spec hh hu h1 h0 hn
  exact ⟨v, v1, v3⟩

/-- On the 64-bit host it is not. -/
theorem inverse_violation : ¬ ∀ u1 u0, u1 < 2 ^ 64 → u0 < 2 ^ 64 → 2 ^ 64 ≤ 2 * u1 →
    ∃ v, invert3by2 32 32 u1 u0 = some v ∧ IsInverse (2 ^ 64) (u1 * 2 ^ 64 + u0) v := by
  intro hc
  obtain ⟨v, v1, v2⟩ := hc 0x98c8210337b76cdb 0 (by decide) (by decide) (by decide)
  have e : invert3by2 32 32 0x98c8210337b76cdb 0 = some 0xacf3a59d00000000 := by decide +kernel
  rw [e] at v1
  rw [← Option.some.inj v1] at v2
  revert v2
  unfold IsInverse
  decide +kernel

/-- **C89.** The 3/2 division step returns the quotient and the remainder. -/
theorem step_is_exact (h u n2 n1 n0 d1 d0 v : Nat) (hu : h ≤ u) (h2 : n2 < 2 ^ (2 * h))
    (h1 : n1 < 2 ^ (2 * h)) (h0 : n0 < 2 ^ (2 * h)) (e1 : d1 < 2 ^ (2 * h)) (e0 : d0 < 2 ^ (2 * h))
    (hn : 2 ^ (2 * h) ≤ 2 * d1) (hv : v < 2 ^ (2 * h))
    (hi : IsInverse (2 ^ (2 * h)) (d1 * 2 ^ (2 * h) + d0) v)
    (hlt : n2 * 2 ^ (2 * h) + n1 < d1 * 2 ^ (2 * h) + d0) :
    value h [n0, n1, n2] = (udiv3by2 h u n2 n1 n0 d1 d0 v).1 * value h [d0, d1]
        + value h [(udiv3by2 h u n2 n1 n0 d1 d0 v).2.2, (udiv3by2 h u n2 n1 n0 d1 d0 v).2.1]
    ∧ value h [(udiv3by2 h u n2 n1 n0 d1 d0 v).2.2, (udiv3by2 h u n2 n1 n0 d1 d0 v).2.1]
        < value h [d0, d1] := by
  unfold IsInverse at hi
  rw [← base_eq] at *
  obtain ⟨u1, u2, _, _, _⟩ := udiv3by2_eq hu h2 h1 h0 e1 e0 hn hv hi hlt
  generalize udiv3by2 h u n2 n1 n0 d1 d0 v = s at *
  have e : two h s.2 = s.2.1 * base h + s.2.2 := rfl
  rw [e] at u1 u2
  simp only [value_cons, value_nil]
  constructor
  · linear_combination u1
  · linarith

example : udiv3by2 4 8 3 200 77 129 5 ((256 ^ 3 - 1) / (129 * 256 + 5) - 256) = (7, 65, 42) := by
  decide

end Verif.Gmp
