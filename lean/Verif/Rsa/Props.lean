import Verif.Rsa.Spec
import Verif.Rsa.Model
import Verif.Sha256.Props

/-!
# C86: a signature is accepted exactly when RFC 8017 says it is valid
-/

namespace Verif.Rsa

open Verif.Sha256 (Byte Ctx copyTo digest copyTo_length copyTo_take)

/-! ## Numbers from bytes -/

theorem importBytes_append (a : Byte) (l : List Byte) : importBytes (l ++ [a]) = a.toNat + 256 * importBytes l := by
  simp [importBytes]

theorem os2ip_append (a : Byte) : ∀ l, Rfc.os2ip (l ++ [a]) = a.toNat + 256 * Rfc.os2ip l := by
  intro l
  induction l with
  | nil => simp [Rfc.os2ip]
  | cons b bs ih =>
    rw [List.cons_append, Rfc.os2ip, Rfc.os2ip, ih, List.length_append, List.length_cons, List.length_nil, Nat.pow_succ, Nat.mul_add,
      ← Nat.mul_assoc b.toNat]
    omega

theorem importBytes_eq (s : List Byte) : importBytes s = Rfc.os2ip s := by
  have h : ∀ l : List Byte, importBytes l.reverse = Rfc.os2ip l.reverse := by
    intro l
    induction l with
    | nil => rfl
    | cons b bs ih => rw [List.reverse_cons, importBytes_append, os2ip_append, ih]
  have := h s.reverse
  rwa [List.reverse_reverse] at this

theorem log2_bounds (n : Nat) (h : n ≠ 0) : 2 ^ n.log2 ≤ n ∧ n < 2 ^ (n.log2 + 1) := ⟨Nat.log2_self_le h, Nat.lt_log2_self⟩

theorem size_octets (n : Nat) (h : n ≠ 0) : Rfc.OctetLength n ((bits n + 7) / 8) := by
  obtain ⟨h1, h2⟩ := log2_bounds n h
  have p : ∀ k, 256 ^ k = 2 ^ (8 * k) := fun k => by rw [Nat.pow_mul]
  unfold bits
  rw [if_neg h]
  refine ⟨?_, ?_⟩
  · rw [p]
    exact Nat.lt_of_lt_of_le h2 (Nat.pow_le_pow_right (by decide) (by omega))
  · intro j hj
    rw [p] at hj
    have := (Nat.pow_lt_pow_iff_right (a := 2) (by decide)).1 (Nat.lt_of_le_of_lt h1 hj)
    omega

theorem octets_unique (n a b : Nat) (ha : Rfc.OctetLength n a) (hb : Rfc.OctetLength n b) : a = b :=
  Nat.le_antisymm (ha.2 b hb.1) (hb.2 a ha.1)

/-! ## The power -/

theorem limbs_lt (w x m : Nat) (hm : m ≠ 0) (h : limbs w x < limbs w m) : x < m := by
  unfold limbs at h
  rw [if_neg hm] at h
  by_cases hx : x = 0
  · omega
  · rw [if_neg hx] at h
    have h1 : x.log2 < m.log2 := by
      apply Nat.lt_of_not_le
      intro hle
      have := Nat.div_le_div_right (c := w) hle
      omega
    have a := (log2_bounds x hx).2
    have b := (log2_bounds m hm).1
    exact Nat.lt_of_lt_of_le a (Nat.le_trans (Nat.pow_le_pow_right (by decide) h1) b)

theorem mod_shift (t m k : Nat) : t % (m * 2 ^ k) % m = t % m := Nat.mod_mul_right_mod t m (2 ^ k)

theorem powBit_mod (w mn m k base : Nat) (bit : Bool) (tr : Nat) :
    powBit w mn (m * 2 ^ k) base bit tr % m = (tr * tr * base ^ bit.toNat) % m := by
  unfold powBit
  dsimp only
  have h : (if bit = true then tr * tr * base else tr * tr) = tr * tr * base ^ bit.toNat := by cases bit <;> simp
  rw [h]
  split
  · exact mod_shift _ _ _
  · rfl

theorem mul_pow_mod (a b c m k : Nat) (h : a % m = b % m) : (a ^ k * c) % m = (b ^ k * c) % m := by
  rw [Nat.mul_mod, Nat.pow_mod, h, ← Nat.pow_mod, ← Nat.mul_mod]

theorem powLoop_mod (w mn m s base e : Nat) : ∀ k tr,
    powLoop w mn (m * 2 ^ s) base e k tr % m = (tr ^ 2 ^ k * base ^ (e % 2 ^ k)) % m := by
  intro k
  induction k with
  | zero => intro tr; simp [powLoop, Nat.mod_one]
  | succ k ih =>
    intro tr
    rw [powLoop, ih, mul_pow_mod _ _ _ _ _ (powBit_mod w mn m s base (e.testBit k) tr)]
    congr 1
    have hb : (e.testBit k).toNat = e / 2 ^ k % 2 := by
      rw [Nat.testBit_eq_decide_div_mod_eq]
      have := Nat.mod_two_eq_zero_or_one (e / 2 ^ k)
      rcases this with h | h <;> simp [h]
    rw [hb, Nat.mod_pow_succ, Nat.pow_succ 2 k, Nat.pow_add, Nat.mul_pow, Nat.mul_comm (2 ^ k) 2, Nat.pow_mul tr, ← Nat.pow_mul base,
      Nat.mul_comm (e / 2 ^ k % 2), Nat.mul_comm (base ^ (e % 2 ^ k)), Nat.pow_two, Nat.mul_pow]
    simp only [Nat.mul_assoc]

theorem powm_eq (w b e m : Nat) (he : e < 2 ^ w) (h0 : e ≠ 0) (hm : m ≠ 0) : powm w b e m = some (b ^ e % m) := by
  unfold powm
  rw [if_neg hm, if_neg h0]
  dsimp only
  congr 1
  have hb : (if limbs w b ≥ limbs w m then b % (m * 2 ^ shiftOf w m) else b) % m = b % m := by
    split
    · exact mod_shift _ _ _
    · rfl
  generalize hbase : (if limbs w b ≥ limbs w m then b % (m * 2 ^ shiftOf w m) else b) = base at *
  have hr : powLoop w (limbs w m) (m * 2 ^ shiftOf w m) base e w 1 % m = b ^ e % m := by
    rw [powLoop_mod, Nat.one_pow, Nat.one_mul, Nat.mod_eq_of_lt he, Nat.pow_mod, hb, ← Nat.pow_mod]
  by_cases hl : limbs w (powLoop w (limbs w m) (m * 2 ^ shiftOf w m) base e w 1) ≥ limbs w m
  · rw [if_pos hl, hr]
  · rw [if_neg hl, ← hr, Nat.mod_eq_of_lt (limbs_lt w _ m hm (Nat.lt_of_not_le hl))]

/-! ## The encoded message -/

theorem copyTo_at (a b c d : List Byte) (h : b.length = d.length) : copyTo (a ++ b ++ c) a.length d = a ++ d ++ c := by
  unfold copyTo
  rw [List.append_assoc a b c, List.take_left, ← h, ← List.append_assoc a b c, ← List.length_append, List.drop_left]

theorem encoded (mem : List Byte) (k : Nat) (hmem : mem.length = k) (hk : 62 ≤ k) (dg : List Byte) (hd : dg.length = 32) :
    ∃ em p, signaturePrefix k mem sha256Prefix 32 = some (em, p) ∧
      copyTo em p dg = [0x00, 0x01] ++ List.replicate (k - 51 - 3) 0xff ++ [0x00] ++ (Rfc.digestInfo ++ dg) := by
  have hs : sha256Prefix.length = 19 := rfl
  have hid : sha256Prefix = Rfc.digestInfo := rfl
  have hdi : Rfc.digestInfo.length = 19 := rfl
  unfold signaturePrefix
  rw [if_neg (by rw [hs]; omega)]
  dsimp only
  refine ⟨_, _, rfl, ?_⟩
  rw [hs, hid]
  -- the memory, cut at the places the code writes to
  obtain ⟨x0, x1, r, rfl⟩ : ∃ x0 x1 r, mem = x0 :: x1 :: r := by
    match mem, hmem with
    | x0 :: x1 :: r, _ => exact ⟨x0, x1, r, rfl⟩
    | [_], h => simp at h; omega
    | [], h => simp at h; omega
  have hr : r.length = k - 2 := by simp at hmem; omega
  obtain ⟨ps, r1, rfl, hps⟩ : ∃ ps r1, r = ps ++ r1 ∧ ps.length = k - 54 :=
    ⟨r.take (k - 54), r.drop (k - 54), (List.take_append_drop _ _).symm, by rw [List.length_take]; omega⟩
  rw [List.length_append] at hr
  obtain ⟨z, r2, rfl⟩ : ∃ z r2, r1 = z :: r2 := by
    match r1, hr with
    | z :: r2, _ => exact ⟨z, r2, rfl⟩
    | [], h => simp at h; omega
  rw [List.length_cons] at hr
  obtain ⟨id, r3, rfl, hidl⟩ : ∃ id r3, r2 = id ++ r3 ∧ id.length = 19 :=
    ⟨r2.take 19, r2.drop 19, (List.take_append_drop _ _).symm, by rw [List.length_take]; omega⟩
  rw [List.length_append] at hr
  have c1 : copyTo (x0 :: x1 :: (ps ++ z :: (id ++ r3))) (k - 32 - 19) Rfc.digestInfo = [] ++ [x0] ++ (x1 :: (ps ++ z :: (Rfc.digestInfo ++ r3))) := by
    have := copyTo_at ([x0, x1] ++ ps ++ [z]) id r3 Rfc.digestInfo (by rw [hidl, hdi])
    have hl : ([x0, x1] ++ ps ++ [z]).length = k - 32 - 19 := by simp [hps]; omega
    rw [hl] at this
    simp only [List.append_assoc, List.cons_append, List.nil_append] at this ⊢
    exact this
  have c2 : copyTo ([] ++ [x0] ++ (x1 :: (ps ++ z :: (Rfc.digestInfo ++ r3)))) 0 [0] = [0] ++ [x1] ++ (ps ++ z :: (Rfc.digestInfo ++ r3)) :=
    copyTo_at [] [x0] _ [0] rfl
  have c3 : copyTo ([0] ++ [x1] ++ (ps ++ z :: (Rfc.digestInfo ++ r3))) 1 [1] = ([0, 1] ++ ps) ++ [z] ++ (Rfc.digestInfo ++ r3) := by
    refine (copyTo_at [0] [x1] _ [1] rfl).trans ?_
    simp only [List.append_assoc, List.cons_append, List.nil_append]
  have c4 : copyTo (([0, 1] ++ ps) ++ [z] ++ (Rfc.digestInfo ++ r3)) (k - 32 - 19 - 1) [0] = [0, 1] ++ ps ++ ([0] ++ (Rfc.digestInfo ++ r3)) := by
    have := copyTo_at ([0, 1] ++ ps) [z] (Rfc.digestInfo ++ r3) [0] rfl
    rw [show ([0, 1] ++ ps : List Byte).length = k - 32 - 19 - 1 by simp [hps]; omega] at this
    rw [this]
    simp only [List.append_assoc]
  have c5 : copyTo ([0, 1] ++ ps ++ ([0] ++ (Rfc.digestInfo ++ r3))) 2 (List.replicate (k - 32 - 19 - 3) 0xff) =
      ([0, 1] ++ List.replicate (k - 54) 0xff ++ ([0] ++ Rfc.digestInfo)) ++ r3 ++ [] := by
    have := copyTo_at [0, 1] ps ([0] ++ (Rfc.digestInfo ++ r3)) (List.replicate (k - 32 - 19 - 3) 0xff)
      (by rw [List.length_replicate, hps]; omega)
    rw [show k - 32 - 19 - 3 = k - 54 by omega] at this ⊢
    refine this.trans ?_
    simp only [List.append_assoc, List.append_nil]
  rw [c1, c2, c3, c4, c5]
  have c6 := copyTo_at ([0, 1] ++ List.replicate (k - 54) 0xff ++ ([0] ++ Rfc.digestInfo)) r3 [] dg (by rw [hd]; omega)
  rw [show ([0, 1] ++ List.replicate (k - 54) 0xff ++ ([0] ++ Rfc.digestInfo) : List Byte).length = k - 32 - 19 + 19 by
    simp only [List.length_append, List.length_cons, List.length_nil, List.length_replicate, hdi]; omega] at c6
  rw [c6, show k - 51 - 3 = k - 54 by omega]
  simp only [List.append_assoc, List.append_nil]

/-! ## The check -/

theorem checkSize_cases (n : Nat) : (n % 2 = 1 ∧ 12 ≤ (bits n + 7) / 8 ∧ checkSize n = (bits n + 7) / 8) ∨
    (n % 2 = 0 ∧ checkSize n = 0) ∨ ((bits n + 7) / 8 < 12 ∧ checkSize n = 0) := by
  unfold checkSize
  by_cases h : n % 2 = 0
  · rw [if_pos h]; exact .inr (.inl ⟨h, rfl⟩)
  · rw [if_neg h]
    by_cases h2 : (bits n + 7) / 8 < 12
    · rw [if_pos h2]; exact .inr (.inr ⟨h2, rfl⟩)
    · rw [if_neg h2]; exact .inl ⟨by omega, by omega, rfl⟩

/-- The answer of the code for the bytes of a key and a signature, when the pieces `ds` were hashed. `alloc` gives the memory
for a buffer of the size asked. -/
def answer (w : Nat) (alloc : Nat → List Byte) (block key sig : List Byte) (ds : List (List Byte)) : Option Bool × Ctx :=
  verify w (alloc (mkKey key).size) (mkKey key) (Sha256.updates (Sha256.init block) ds) sig

theorem zero_pow_mod (e n : Nat) (h : 0 < e) : 0 ^ e % n = 0 := by rw [Nat.zero_pow h, Nat.zero_mod]

theorem fips_length (m : List Byte) : (Sha256.Fips.sha256 m).length = 32 := rfl

/-- **C86.** The program always answers, and it accepts exactly the signatures that are valid for the modulus and the
public exponent 65537 by RFC 8017, if the modulus is odd; with an even modulus it accepts nothing. -/
theorem accepts_iff_valid (w : Nat) (hw : 17 ≤ w) (alloc : Nat → List Byte) (ha : ∀ k, (alloc k).length = k)
    (block : List Byte) (hb : block.length = 64) (key sig : List Byte) (ds : List (List Byte))
    (k : Nat) (hk : Rfc.OctetLength (Rfc.os2ip key) k) :
    ∃ ok, (answer w alloc block key sig ds).1 = some ok ∧
      (ok = true ↔ Rfc.os2ip key % 2 = 1 ∧ Rfc.valid (Rfc.os2ip key) 65537 k ds.flatten (Rfc.os2ip sig)) := by
  have hdi : Rfc.digestInfo.length = 19 := rfl
  have hw2 : 65537 < 2 ^ w := Nat.lt_of_lt_of_le (by decide) (Nat.pow_le_pow_right (by decide) hw)
  unfold answer mkKey verify
  rw [importBytes_eq, importBytes_eq]
  dsimp only
  generalize hn : Rfc.os2ip key = n at *
  generalize hs : Rfc.os2ip sig = s
  -- without room for the digest
  have small : ∀ c, c < 62 → (encode (alloc c) c (Sha256.updates (Sha256.init block) ds)) = (none, Sha256.updates (Sha256.init block) ds) := by
    intro c hc
    unfold encode signaturePrefix
    rw [if_pos (show c < 11 + sha256Prefix.length + 32 by have : sha256Prefix.length = 19 := rfl; omega)]
  by_cases hbig : n % 2 = 1 ∧ 62 ≤ k
  · obtain ⟨hodd, h62⟩ := hbig
    have hn0 : n ≠ 0 := by omega
    have hks : (bits n + 7) / 8 = k := octets_unique n _ _ (size_octets n hn0) hk
    have hc : checkSize n = k := by
      rcases checkSize_cases n with h | h | h <;> omega
    rw [hc]
    have hd := (Sha256.digest_is_sha256 block hb ds 32 (Nat.le_refl _)).1
    rw [List.take_of_length_le (by rw [fips_length]; exact Nat.le_refl _)] at hd
    obtain ⟨em, p, e1, e2⟩ := encoded (alloc k) k (ha k) h62 (digest (Sha256.updates (Sha256.init block) ds) 32).1 (by rw [hd, fips_length])
    have henc : encode (alloc k) k (Sha256.updates (Sha256.init block) ds) =
        (some (Rfc.os2ip ([0x00, 0x01] ++ List.replicate (k - 51 - 3) 0xff ++ [0x00] ++ (Rfc.digestInfo ++ Sha256.Fips.sha256 ds.flatten))),
          (digest (Sha256.updates (Sha256.init block) ds) 32).2) := by
      unfold encode
      rw [e1]
      dsimp only
      rw [e2, importBytes_eq, hd]
    rw [henc]
    dsimp only
    generalize hEM : ([0x00, 0x01] ++ List.replicate (k - 51 - 3) 0xff ++ [0x00] ++ (Rfc.digestInfo ++ Sha256.Fips.sha256 ds.flatten) : List Byte) = EM
    have hlen : EM.length = k := by
      rw [← hEM]
      simp only [List.length_append, List.length_cons, List.length_nil, List.length_replicate, hdi, fips_length]
      omega
    have hemsa : Rfc.emsa k ds.flatten = some EM := by
      unfold Rfc.emsa
      rw [if_neg (by rw [hdi]; omega), hdi, hEM]
    have hpos : 0 < Rfc.os2ip EM := by
      rw [← hEM]
      show 0 < 0 * _ + (1 * 256 ^ _ + _)
      have : 0 < 256 ^ (List.replicate (k - 51 - 3) (0xff : Byte) ++ [0x00] ++ (Rfc.digestInfo ++ Sha256.Fips.sha256 ds.flatten)).length :=
        Nat.pow_pos (by decide)
      exact Nat.lt_of_lt_of_le this (Nat.le_trans (by rw [Nat.one_mul]; exact Nat.le_add_right _ _) (Nat.le_add_left _ _))
    unfold rsaVerify Rfc.valid
    dsimp only
    rw [hemsa]
    by_cases h0 : s = 0 ∨ s ≥ n
    · rw [if_pos h0]
      refine ⟨false, rfl, ?_⟩
      simp only [Bool.false_eq_true, false_iff]
      rintro ⟨_, h1, h2⟩
      rcases h0 with h0 | h0
      · injection h2 with h2
        subst h0
        rw [zero_pow_mod 65537 n (by decide)] at h2
        have := os2ip_i2osp k 0 (Nat.pow_pos (by decide))
        rw [← h2] at this
        omega
      · omega
    · rw [if_neg h0, powm_eq w s 65537 n hw2 (by decide) hn0, Option.map_some]
      refine ⟨_, rfl, ?_⟩
      rw [beq_iff_eq]
      have hlt : s ^ 65537 % n < 256 ^ k := Nat.lt_trans (Nat.mod_lt _ (Nat.pos_of_ne_zero hn0)) hk.1
      constructor
      · intro h
        refine ⟨hodd, by omega, ?_⟩
        rw [← h, ← hlen, i2osp_os2ip]
      · rintro ⟨_, _, h⟩
        injection h with h
        rw [h, os2ip_i2osp k _ hlt]
  · have hc : checkSize n < 62 := by
      rcases checkSize_cases n with h | h | h
      · have hks := octets_unique n _ _ (size_octets n (by omega)) hk
        omega
      · omega
      · omega
    rw [small _ hc]
    refine ⟨false, rfl, ?_⟩
    simp only [Bool.false_eq_true, false_iff]
    rintro ⟨h1, h2, h3⟩
    unfold Rfc.emsa at h3
    rw [if_pos (by rw [hdi]; omega)] at h3
    cases h3

/-- After a check that got as far as the hash, the hash object is as new. -/
theorem hash_is_reset (w : Nat) (alloc : Nat → List Byte) (block : List Byte) (hb : block.length = 64) (key sig : List Byte)
    (ds : List (List Byte)) (m : Nat) (h : Ctx) (he : encode (alloc (mkKey key).size) (mkKey key).size (Sha256.updates (Sha256.init block) ds) = (some m, h)) :
    ∃ b', b'.length = 64 ∧ (answer w alloc block key sig ds).2 = Sha256.init b' := by
  obtain ⟨_, b', h1, h2⟩ := Sha256.digest_is_sha256 block hb ds 32 (Nat.le_refl _)
  refine ⟨b', h1, ?_⟩
  unfold answer verify
  rw [he]
  dsimp only
  unfold encode at he
  split at he
  · injection he with _ he
    rw [← he, h2]
  · cases he

/-! A key of 504 bits, and its signature of "abc". -/

/-- The modulus of the example. -/
def exampleKey : Nat := 0xc2054f0229dacf9d34ee695da75f6518a0000789266cb48d4ca1a64389c721eb1eb627cc9d6bf521e03e5f2879a23b9667a60341d1374a4e8401effdb2b765
/-- The signature of the example. -/
def exampleSig : Nat := 0x1bb69b4b0f921fc5f074d7b2c60727e5b14bdd2ca9dbbd8cedfa6600d7a26f9e090128da179e8c5541f7a188e8166db73842f509404c837bb7c9f454b2c5c8

/-- The signature is accepted, with the text hashed in two pieces, with either size of limb; with another text, or a signature
that is one off, it is not. -/
example : (answer 32 (fun k => List.replicate k 7) (List.replicate 64 0) (Rfc.i2osp 63 exampleKey) (Rfc.i2osp 63 exampleSig)
    [[0x61], [0x62, 0x63]]).1 = some true := by decide +kernel
example : (answer 64 (fun k => List.replicate k 7) (List.replicate 64 0) (Rfc.i2osp 63 exampleKey) (Rfc.i2osp 63 exampleSig)
    [[0x61, 0x62, 0x63]]).1 = some true := by decide +kernel
example : (answer 32 (fun k => List.replicate k 7) (List.replicate 64 0) (Rfc.i2osp 63 exampleKey) (Rfc.i2osp 63 exampleSig)
    [[0x61, 0x62, 0x64]]).1 = some false := by decide +kernel
example : (answer 32 (fun k => List.replicate k 7) (List.replicate 64 0) (Rfc.i2osp 63 exampleKey) (Rfc.i2osp 63 (exampleSig + 1))
    [[0x61, 0x62, 0x63]]).1 = some false := by decide +kernel

end Verif.Rsa
