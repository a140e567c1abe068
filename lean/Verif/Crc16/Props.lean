import Verif.Crc16.Lemmas

/-!
# C07: CRC-16 detects every short corruption

The specification vocabulary is only `bitAt` (bit `j` of a record, least significant bit of each
byte first), `flipped` and ordinary list operations (`Verif/Crc16/Spec.lean`).
-/

namespace Verif.Crc16

/-- **C07 (burst).** If two records of equal length differ, but only inside some window of 16
consecutive bits, their CRC-16 differ. No bound on the record length. -/
theorem burst_detected (m m' : List (BitVec 8)) (hlen : m.length = m'.length) (hne : m ≠ m')
    (i : Nat) (hburst : ∀ j, (j < i ∨ i + 16 ≤ j) → bitAt m j = bitAt m' j) :
    crc16 m ≠ crc16 m' := by
  intro heq
  apply hne
  unfold crc16 at heq
  rw [foldl_update_eq_feed, foldl_update_eq_feed] at heq
  have hl : (bits m).length = (bits m').length := by rw [bits_length, bits_length, hlen]
  have h0 := feed_diff _ _ _ hl heq
  have hz := window_zero _ i (by
    intro j hj
    rw [xorBits_getD _ _ hl, bits_getD, bits_getD, hburst j hj]; simp) h0
  apply List.ext_getElem hlen
  intro k hk hk'
  apply BitVec.eq_of_getLsbD_eq
  intro b hb
  have := hz (8 * k + b)
  rw [xorBits_getD _ _ hl, bits_getD, bits_getD] at this
  have hd : (8 * k + b) / 8 = k := by omega
  have hm : (8 * k + b) % 8 = b := by omega
  simp only [bitAt, hd, hm, List.getD_eq_getElem?_getD, List.getElem?_eq_getElem hk,
    List.getElem?_eq_getElem hk', Option.getD_some] at this
  cases h1 : (m[k]).getLsbD b <;> cases h2 : (m'[k]).getLsbD b <;> simp_all

/-- The burst theorem is not vacuous: these two records satisfy its hypotheses with a window that
straddles three bytes. -/
example : crc16 [0x31, 0x80, 0xff, 0x01, 0x77] ≠ crc16 [0x31, 0x00, 0x00, 0x00, 0x77] :=
  burst_detected _ _ rfl (by decide) 15 (by
    intro j hj
    by_cases h : j < 40
    · have : ∀ j : Fin 40, (j.val < 15 ∨ 15 + 16 ≤ j.val) →
        bitAt [0x31, 0x80, 0xff, 0x01, 0x77] j.val = bitAt [0x31, 0x00, 0x00, 0x00, 0x77] j.val := by decide
      exact this ⟨j, h⟩ hj
    · have h5 : 5 ≤ j / 8 := by omega
      obtain ⟨k, hk⟩ := Nat.exists_eq_add_of_le h5
      rw [Nat.add_comm] at hk
      simp [bitAt, hk])

/-- **C07 (single byte).** Replacing any one byte by a different one changes the CRC. -/
theorem single_byte_detected (m : List (BitVec 8)) (k : Nat) (hk : k < m.length) (b : BitVec 8)
    (hb : b ≠ m[k]) : crc16 (m.set k b) ≠ crc16 m := by
  apply burst_detected _ _ (by simp) _ (8 * k)
  · intro j hj
    have : k ≠ j / 8 := by omega
    simp [bitAt, List.getD_eq_getElem?_getD, List.getElem?_set_ne this]
  · intro h
    apply hb
    have := congrArg (fun l => l[k]?) h
    simpa [hk] using this

example : crc16 ([0x53, 0x55, 0x50, 0x4c, 0x41].set 2 0x51) ≠ crc16 [0x53, 0x55, 0x50, 0x4c, 0x41] :=
  single_byte_detected _ 2 (by decide) _ (by decide)

/-- **C07 (odd errors).** Whenever an odd number of bits is flipped, anywhere in a record of any
length, the CRC changes. -/
theorem odd_flips_detected (m m' : List (BitVec 8)) (hlen : m.length = m'.length)
    (hodd : (flipped m m').length % 2 = 1) : crc16 m ≠ crc16 m' := by
  intro heq
  unfold crc16 at heq
  rw [foldl_update_eq_feed, foldl_update_eq_feed] at heq
  have hl : (bits m).length = (bits m').length := by rw [bits_length, bits_length, hlen]
  have h0 := congrArg parity16 (feed_diff _ _ _ hl heq)
  rw [parity_feed, par_eq_count, xorBits_length _ _ hl, bits_length] at h0
  have hf : (fun j => (xorBits (bits m) (bits m')).getD j false) = fun j => bitAt m j != bitAt m' j := by
    funext j
    rw [xorBits_getD _ _ hl, bits_getD, bits_getD]
  rw [hf] at h0
  unfold flipped at hodd
  simp [hodd, parity16] at h0

example : crc16 [0x00, 0x01, 0x02, 0x03] ≠ crc16 [0x80, 0x01, 0x82, 0x13] :=
  odd_flips_detected _ _ rfl (by decide)

/-- **C07 (double errors).** Flipping exactly two bits that are less than 32767 bit positions apart
(so: any two bits of a record of up to 4095 bytes) changes the CRC. -/
theorem double_flip_detected (m m' : List (BitVec 8)) (hlen : m.length = m'.length)
    (i k : Nat) (hik : i < k) (hd : k - i < 32767)
    (hflip : ∀ j, bitAt m j ≠ bitAt m' j ↔ (j = i ∨ j = k)) : crc16 m ≠ crc16 m' := by
  intro heq
  unfold crc16 at heq
  rw [foldl_update_eq_feed, foldl_update_eq_feed] at heq
  have hl : (bits m).length = (bits m').length := by rw [bits_length, bits_length, hlen]
  have h0 := feed_diff _ _ _ hl heq
  have he : ∀ j, (xorBits (bits m) (bits m')).getD j false = (decide (j = i) || decide (j = k)) := by
    intro j
    rw [xorBits_getD _ _ hl, bits_getD, bits_getD]
    have := hflip j
    by_cases h1 : j = i ∨ j = k
    · have h2 := this.mpr h1
      have : (decide (j = i) || decide (j = k)) = true := by simpa using h1
      rw [this]
      cases hx : bitAt m j <;> cases hy : bitAt m' j <;> simp_all
    · have h2 : bitAt m j = bitAt m' j := Decidable.byContradiction (fun h => h1 (this.mp h))
      have : (decide (j = i) || decide (j = k)) = false := by simpa using h1
      rw [this, h2]; simp
  exact two_bits_nonzero _ i k hik hd he h0

example : crc16 [0x00, 0x01, 0x02, 0x03] ≠ crc16 [0x40, 0x01, 0x02, 0x07] :=
  double_flip_detected _ _ rfl 6 26 (by decide) (by decide) (by
    intro j
    by_cases h : j < 32
    · have : ∀ j : Fin 32, bitAt [0x00, 0x01, 0x02, 0x03] j.val ≠ bitAt [0x40, 0x01, 0x02, 0x07] j.val ↔
        (j.val = 6 ∨ j.val = 26) := by decide
      exact this ⟨j, h⟩
    · have h5 : 4 ≤ j / 8 := by omega
      obtain ⟨k, hk⟩ := Nat.exists_eq_add_of_le h5
      rw [Nat.add_comm] at hk
      simp [bitAt, hk]
      omega)

end Verif.Crc16
