/-
mpz_import, mpz_sizeinbase(., 2) and mpz_odd_p.
-/
import Verif.Gmp.Powm

namespace Verif.Gmp

/-- The number written by octets, lowest first. -/
def octets : List Nat → Nat
  | [] => 0
  | x :: xs => x + 256 * octets xs

theorem pow_256 (b : Nat) : 2 ^ (b * 8) * 256 = 2 ^ ((b + 1) * 8) := by
  rw [Nat.add_mul, Nat.pow_add]

theorem importLoop_spec {h k : Nat} (hk : 2 * h = k * 8) (hk0 : 0 < k) : ∀ (xs : List Nat)
    (limb bytes : Nat) (rp : List Nat), (∀ x ∈ xs, x < 256) → limb < 2 ^ (bytes * 8) → bytes < k →
    Limbs h rp →
    value h (importLoop h xs limb bytes rp).2.2
        + base h ^ (importLoop h xs limb bytes rp).2.2.length * (importLoop h xs limb bytes rp).1
      = value h rp + base h ^ rp.length * (limb + 2 ^ (bytes * 8) * octets xs)
    ∧ Limbs h (importLoop h xs limb bytes rp).2.2
    ∧ (importLoop h xs limb bytes rp).1 < 2 ^ ((importLoop h xs limb bytes rp).2.1 * 8)
    ∧ (importLoop h xs limb bytes rp).2.1 < k
    ∧ (importLoop h xs limb bytes rp).2.2.length * k + (importLoop h xs limb bytes rp).2.1
      = rp.length * k + bytes + xs.length
  | [], limb, bytes, rp, _, hl, hb, hr => by
    refine ⟨?_, hr, hl, hb, ?_⟩
    · show value h rp + base h ^ rp.length * limb = _
      rw [octets, Nat.mul_zero, Nat.add_zero]
    · rfl
  | x :: xs, limb, bytes, rp, hx, hl, hb, hr => by
    have hx0 : x < 256 := hx x List.mem_cons_self
    have hxs : ∀ y ∈ xs, y < 256 := fun y hy => hx y (List.mem_cons_of_mem _ hy)
    have hkh : 2 * h / 8 = k := by omega
    have hbk : 2 ^ ((bytes + 1) * 8) ≤ base h := by
      rw [base_eq, hk]; exact Nat.pow_le_pow_right (by decide) (by omega)
    have hxb : x * 2 ^ (bytes * 8) + 2 ^ (bytes * 8) ≤ 2 ^ ((bytes + 1) * 8) := by
      rw [← pow_256]
      have : (x + 1) * 2 ^ (bytes * 8) ≤ 256 * 2 ^ (bytes * 8) := Nat.mul_le_mul_right _ hx0
      rw [Nat.add_mul, Nat.one_mul] at this
      have := Nat.mul_comm 256 (2 ^ (bytes * 8))
      omega
    have hw : wmul h x (2 ^ (bytes * 8)) = x * 2 ^ (bytes * 8) :=
      wmul_exact (by have := Nat.two_pow_pos (bytes * 8); omega)
    have hor : limb ||| wmul h x (2 ^ (bytes * 8)) = x * 2 ^ (bytes * 8) + limb := by
      rw [hw, Nat.or_comm, or_shift hl]
    have hsum : x * 2 ^ (bytes * 8) + limb + 2 ^ ((bytes + 1) * 8) * octets xs
        = limb + 2 ^ (bytes * 8) * octets (x :: xs) := by
      rw [octets, ← pow_256]; ring
    unfold importLoop
    rw [hkh, hor]
    by_cases hc : bytes + 1 = k
    · rw [if_pos hc]
      have hlast : x * 2 ^ (bytes * 8) + limb < base h := by omega
      obtain ⟨i1, i2, i3, i4, i5⟩ := importLoop_spec hk hk0 xs 0 0 (rp ++ [x * 2 ^ (bytes * 8) + limb])
        hxs (by simp) hk0 (limbs_append.2 ⟨hr, limbs_one hlast⟩)
      refine ⟨?_, i2, i3, i4, ?_⟩
      · rw [i1, ← hsum, value_append, value_cons, value_nil, List.length_append, List.length_singleton,
          Nat.zero_mul, Nat.pow_zero]
        have hb' : 2 ^ ((bytes + 1) * 8) = base h := by rw [hc, base_eq, hk]
        rw [hb', Nat.pow_succ]
        ring
      · rw [i5, List.length_append, List.length_singleton, Nat.add_mul, List.length_cons]
        omega
    · rw [if_neg hc]
      obtain ⟨i1, i2, i3, i4, i5⟩ := importLoop_spec hk hk0 xs (x * 2 ^ (bytes * 8) + limb) (bytes + 1) rp
        hxs (by omega) (by omega) hr
      refine ⟨?_, i2, i3, i4, ?_⟩
      · rw [i1, ← hsum]
      · rw [i5, List.length_cons]; omega

/-- mpz_import reads the octets, most significant first, whatever their number. -/
theorem importZ_spec {h k : Nat} (hk : 2 * h = k * 8) (hk0 : 0 < k) {xs : List Nat}
    (hx : ∀ x ∈ xs, x < 256) :
    ∃ r, importZ h xs = some r ∧ Number h r ∧ value h r = octets xs.reverse := by
  have hkh : 2 * h / 8 = k := by omega
  obtain ⟨i1, i2, i3, i4, i5⟩ := importLoop_spec hk hk0 xs.reverse 0 0 []
    (fun x hy => hx x (List.mem_reverse.1 hy)) (by simp) hk0 (limbs_nil h)
  unfold importZ
  dsimp only
  rw [hkh]
  generalize importLoop h xs.reverse 0 0 [] = s at *
  obtain ⟨limb, bytes, rp⟩ := s
  dsimp only at *
  rw [List.length_nil, List.length_reverse, Nat.zero_mul, Nat.add_zero, Nat.zero_add] at i5
  rw [value_nil, List.length_nil, Nat.pow_zero, Nat.one_mul, Nat.zero_mul, Nat.pow_zero, Nat.one_mul,
    Nat.zero_add, Nat.zero_add] at i1
  have hn : rp.length + flag (decide (0 < bytes)) = (xs.length + k - 1) / k := by
    rw [← i5]
    unfold flag
    by_cases hb : 0 < bytes
    · rw [if_pos (by simpa using hb)]
      rw [show rp.length * k + bytes + k - 1 = (bytes - 1) + k * (rp.length + 1) by
        rw [Nat.mul_add, Nat.mul_comm k]; omega]
      rw [Nat.add_mul_div_left _ _ hk0, Nat.div_eq_of_lt (by omega), Nat.zero_add]
    · rw [if_neg (by simpa using hb)]
      rw [show rp.length * k + bytes + k - 1 = (k - 1) + k * rp.length by
        rw [Nat.mul_comm k]; omega]
      rw [Nat.add_mul_div_left _ _ hk0, Nat.div_eq_of_lt (by omega), Nat.zero_add, Nat.add_zero]
  rw [if_neg (by rw [hn]; simp)]
  have hlb : limb < base h := by
    refine i3.trans_le ?_
    rw [base_eq, hk]; exact Nat.pow_le_pow_right (by decide) (by omega)
  by_cases hl : limb = 0
  · rw [if_neg (by simp [hl])]
    obtain ⟨n1, n2, _⟩ := normalized_spec rp i2
    refine ⟨_, rfl, n2, ?_⟩
    rw [n1, ← i1, hl, Nat.mul_zero, Nat.add_zero]
  · rw [if_pos hl]
    refine ⟨_, rfl, ⟨limbs_append.2 ⟨i2, limbs_one hlb⟩, ?_⟩, ?_⟩
    · unfold Normal; rw [List.getLast?_append]; simp [hl]
    · rw [value_append, value_cons, value_nil, Nat.mul_zero, Nat.add_zero, i1]

/-- mpz_sizeinbase(., 2). -/
theorem sizeBits_spec {h : Nat} (hh : 4 ≤ h) {xs : List Nat} (hx : Number h xs) :
    sizeBits h xs = some (if value h xs = 0 then 1 else (value h xs).log2 + 1) := by
  have hB := base_pos h
  unfold sizeBits
  by_cases h0 : xs.length = 0
  · have : xs = [] := List.length_eq_zero_iff.1 h0
    rw [if_pos h0, this, value_nil, if_pos rfl]
  · rw [if_neg h0]
    have hne : xs ≠ [] := fun hc => h0 (by rw [hc]; rfl)
    obtain ⟨s1, s2, s3⟩ := last_split hx.1 hne
    have hlow := normal_lower (h := h) hx.2 hne
    have hpos : 0 < base h ^ (xs.length - 1) := Nat.pow_pos hB
    have v1 := value_lt s2
    rw [List.length_dropLast] at v1
    have hx0 : 0 < xs.getLastD 0 := by
      rcases Nat.eq_zero_or_pos (xs.getLastD 0) with hc | hc
      · rw [hc] at s3; omega
      · exact hc
    obtain ⟨c, c1, c2, c3, c4⟩ := clz_spec hh hx0 s1
    rw [c1, Option.map_some, if_neg (by omega)]
    congr 1
    generalize xs.getLastD 0 = x at *
    have hb : base h ^ (xs.length - 1) = 2 ^ ((xs.length - 1) * (2 * h)) := by
      rw [base_eq, ← Nat.pow_mul, Nat.mul_comm]
    have lo : 2 ^ (2 * h - c - 1) ≤ x := by
      by_contra hc
      have : (x + 1) * 2 ^ c ≤ 2 ^ (2 * h - c - 1) * 2 ^ c := Nat.mul_le_mul_right _ (by omega)
      rw [← Nat.pow_add, show 2 * h - c - 1 + c = 2 * h - 1 by omega, Nat.add_mul, Nat.one_mul] at this
      have e : base h = 2 ^ (2 * h - 1) * 2 := by rw [base_eq, ← Nat.pow_succ]; congr 1; omega
      have := Nat.two_pow_pos c
      omega
    have hi : x < 2 ^ (2 * h - c) := by
      rw [base_split c4.le] at c3
      exact Nat.lt_of_mul_lt_mul_right c3
    have e1 : base h ^ (xs.length - 1) * 2 ^ (2 * h - c - 1) ≤ value h xs := by
      rw [← s3]
      exact (Nat.mul_le_mul_left _ lo).trans (Nat.le_add_left _ _)
    have e2 : value h xs < base h ^ (xs.length - 1) * 2 ^ (2 * h - c) := by
      have : base h ^ (xs.length - 1) * (x + 1) ≤ base h ^ (xs.length - 1) * 2 ^ (2 * h - c) :=
        Nat.mul_le_mul_left _ hi
      rw [Nat.mul_add, Nat.mul_one] at this
      omega
    rw [hb, ← Nat.pow_add] at e1 e2
    have : (value h xs).log2 = (xs.length - 1) * (2 * h) + (2 * h - c - 1) := by
      rw [Nat.log2_eq_iff (by omega)]
      refine ⟨e1, ?_⟩
      rw [show (xs.length - 1) * (2 * h) + (2 * h - c - 1) + 1 = (xs.length - 1) * (2 * h) + (2 * h - c) by omega]
      exact e2
    rw [this]
    omega

/-- mpz_odd_p. -/
theorem oddZ_spec {h : Nat} (hh : 4 ≤ h) (xs : List Nat) :
    oddZ xs = true ↔ value h xs % 2 = 1 := by
  cases xs with
  | nil => simp [oddZ, value_nil]
  | cons x xs =>
    rw [value_cons]
    have e : base h = 2 * 2 ^ (2 * h - 1) := by rw [base_eq, ← Nat.pow_succ']; congr 1; omega
    rw [e, Nat.mul_assoc, Nat.add_mul_mod_self_left]
    simp [oddZ]

end Verif.Gmp
