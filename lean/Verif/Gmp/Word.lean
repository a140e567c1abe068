/-
Facts about single limbs: the half-limb product, the two-limb sums and differences.
-/
import Verif.Gmp.Model
import Verif.Gmp.Spec
import Mathlib.Tactic.Linarith
import Mathlib.Tactic.Ring
import Mathlib.Tactic.LinearCombination
import Mathlib.Tactic.Zify

namespace Verif.Gmp

theorem base_eq (h : Nat) : base h = 2 ^ (2 * h) := by
  rw [base, half, ← Nat.pow_add, Nat.two_mul]

theorem half_pos (h : Nat) : 0 < half h := Nat.two_pow_pos h

theorem base_pos (h : Nat) : 0 < base h := Nat.mul_pos (half_pos h) (half_pos h)

theorem half_two {h : Nat} (hh : 1 ≤ h) : 2 ≤ half h := by
  have : 2 ^ 1 ≤ 2 ^ h := Nat.pow_le_pow_right (by decide) hh
  exact this

theorem half_le_uint {h u : Nat} (hu : h ≤ u) : half h ≤ 2 ^ u := Nat.pow_le_pow_right (by decide) hu

theorem wadd_lt (h a b : Nat) : wadd h a b < base h := Nat.mod_lt _ (base_pos h)
theorem wsub_lt (h a b : Nat) : wsub h a b < base h := Nat.mod_lt _ (base_pos h)
theorem wmul_lt (h a b : Nat) : wmul h a b < base h := Nat.mod_lt _ (base_pos h)

/-- A sum that may wrap, and how the code notices. -/
theorem wadd_carry {h a b : Nat} (ha : a < base h) (hb : b < base h) :
    wadd h a b + base h * flag (decide (wadd h a b < b)) = a + b := by
  unfold wadd flag
  rcases Nat.lt_or_ge (a + b) (base h) with h1 | h1
  · rw [Nat.mod_eq_of_lt h1, if_neg (by simp)]; omega
  · have : (a + b) % base h = a + b - base h := by
      rw [Nat.mod_eq_sub_mod h1, Nat.mod_eq_of_lt (by omega)]
    rw [this, if_pos (by simp; omega)]; omega

theorem wadd_comm (h a b : Nat) : wadd h a b = wadd h b a := by
  unfold wadd; rw [Nat.add_comm]

theorem wadd_carry' {h a b : Nat} (ha : a < base h) (hb : b < base h) :
    wadd h a b + base h * flag (decide (wadd h a b < a)) = a + b := by
  rw [wadd_comm, Nat.add_comm a b]; exact wadd_carry hb ha

/-- A difference that may wrap, and how the code notices. -/
theorem wsub_borrow {h a b : Nat} (ha : a < base h) (hb : b < base h) :
    wsub h a b + b = a + base h * flag (decide (a < b)) := by
  unfold wsub flag
  rcases Nat.lt_or_ge a b with h1 | h1
  · rw [if_pos (by simpa using h1), Nat.mod_eq_of_lt (by omega)]; omega
  · have : (a + (base h - b)) % base h = a - b := by
      rw [Nat.mod_eq_sub_mod (by omega), Nat.mod_eq_of_lt (by omega)]; omega
    rw [this, if_neg (by simpa using h1)]; omega

/-- The borrow is also visible in the result (mpn_submul_1 tests it that way). -/
theorem wsub_flag {h a b : Nat} (ha : a < base h) (hb : b < base h) :
    decide (a < wsub h a b) = decide (a < b) := by
  have := wsub_borrow ha hb
  have h2 := wsub_lt h a b
  unfold flag at this
  rcases Nat.lt_or_ge a b with h1 | h1
  · rw [if_pos (by simpa using h1)] at this
    simp only [h1, decide_true, decide_eq_true_eq]; omega
  · rw [if_neg (by simpa using h1)] at this
    have h3 : ¬ a < b := by omega
    simp only [h3, decide_false, decide_eq_false_iff_not]; omega

theorem flag_le (c : Bool) : flag c ≤ 1 := by unfold flag; split <;> omega

theorem wadd_exact {h a b : Nat} (hs : a + b < base h) : wadd h a b = a + b := Nat.mod_eq_of_lt hs
theorem wmul_exact {h a b : Nat} (hs : a * b < base h) : wmul h a b = a * b := Nat.mod_eq_of_lt hs
theorem wsub_exact {h a b : Nat} (ha : a < base h) (hb : b ≤ a) : wsub h a b = a - b := by
  have := wsub_borrow ha (Nat.lt_of_le_of_lt hb ha)
  unfold flag at this
  rw [if_neg (by simpa using hb)] at this
  omega

/-- The half-limb recombination of gmp_umul_ppmm. -/
theorem join_eq {h xl xh yl yh : Nat} (h1 : xl < half h) (h2 : xh < half h) (h3 : yl < half h)
    (h4 : yh < half h) :
    (join h (xl * yl) (xl * yh) (xh * yl) (xh * yh)).1 * base h
      + (join h (xl * yl) (xl * yh) (xh * yl) (xh * yh)).2
      = (xh * half h + xl) * (yh * half h + yl) := by
  have hb := half_pos h
  have e : base h = half h * half h := rfl
  generalize hbb : half h = b at *
  generalize hB : base h = B at *
  have f0 : xl * yl ≤ (b - 1) * (b - 1) := Nat.mul_le_mul (by omega) (by omega)
  have f1 : xl * yh ≤ (b - 1) * (b - 1) := Nat.mul_le_mul (by omega) (by omega)
  have f2 : xh * yl ≤ (b - 1) * (b - 1) := Nat.mul_le_mul (by omega) (by omega)
  have f3 : xh * yh ≤ (b - 1) * (b - 1) := Nat.mul_le_mul (by omega) (by omega)
  have g : (b - 1) * (b - 1) + 2 * b = B + 1 := by
    obtain ⟨c, rfl⟩ : ∃ c, b = c + 1 := ⟨b - 1, by omega⟩
    rw [e]; simp only [Nat.add_sub_cancel]; ring
  have hx : (xh * b + xl) * (yh * b + yl) = xh * yh * B + (xl * yh + xh * yl) * b + xl * yl := by
    rw [e]; ring
  rw [hx]
  generalize xl * yl = x0 at *
  generalize xl * yh = x1 at *
  generalize xh * yl = x2 at *
  generalize xh * yh = x3 at *
  have d0 : x0 / b * b + x0 % b = x0 := by rw [Nat.mul_comm]; exact Nat.div_add_mod _ _
  have q0 : x0 / b < b := by rw [Nat.div_lt_iff_lt_mul hb]; omega
  have q0' : x0 / b + 1 ≤ b := q0
  have m0 : x0 % b < b := Nat.mod_lt _ hb
  have s1 : wadd h x1 (x0 / b) = x1 + x0 / b := wadd_exact (by rw [hB]; omega)
  have s2 := wadd_carry (h := h) (a := x1 + x0 / b) (b := x2) (by rw [hB]; omega) (by rw [hB]; omega)
  have hm : mid h x0 x1 x2 = wadd h (x1 + x0 / b) x2 := by unfold mid; rw [hbb, s1]
  have hl : mid h x0 x1 x2 < B := by rw [hm, ← hB]; exact wadd_lt _ _ _
  rw [← hm, hB] at s2
  have d1 : mid h x0 x1 x2 / b * b + mid h x0 x1 x2 % b = mid h x0 x1 x2 := by
    rw [Nat.mul_comm]; exact Nat.div_add_mod _ _
  have q1 : mid h x0 x1 x2 / b < b := by rw [Nat.div_lt_iff_lt_mul hb, ← e]; omega
  have m1 : mid h x0 x1 x2 % b < b := Nat.mod_lt _ hb
  unfold join
  rw [hbb]
  dsimp only
  -- low limb
  have lo : wmul h (mid h x0 x1 x2) b = mid h x0 x1 x2 % b * b := by
    unfold wmul; rw [hB, e, Nat.mul_mod_mul_right]
  have lo2 : mid h x0 x1 x2 % b * b + b ≤ B := by
    have : (mid h x0 x1 x2 % b + 1) * b ≤ b * b := Nat.mul_le_mul_right _ m1
    rw [e]; rw [Nat.add_mul] at this; omega
  rw [lo, wadd_exact (h := h) (a := mid h x0 x1 x2 % b * b) (b := x0 % b) (by rw [hB]; omega)]
  unfold flag at s2
  generalize mid h x0 x1 x2 = t at *
  generalize x0 / b = c0 at *
  generalize x0 % b = r0 at *
  generalize hc1 : t / b = c1 at *
  generalize t % b = r1 at *
  by_cases hc : t < x2
  · rw [if_pos (by simpa using hc)] at s2
    rw [if_pos hc]
    -- the high limb does not overflow: the whole product is below B * B
    have tot : x3 * B + (x1 + x2) * b + x0 = x3 * B + b * B + c1 * B + r1 * b + r0 := by
      have : (x1 + x2) * b + c0 * b = t * b + B * b := by
        rw [← Nat.add_mul, ← Nat.add_mul]; congr 1; omega
      have h5 : t * b = c1 * B + r1 * b := by rw [← d1, e]; ring
      have h6 : b * B = B * b := Nat.mul_comm _ _
      omega
    have hub : x3 + b + c1 < B := by
      by_contra hh
      have h7 : B * B ≤ (x3 + b + c1) * B := Nat.mul_le_mul_right _ (by omega)
      have h8 : (x3 + b + c1) * B = x3 * B + b * B + c1 * B := by ring
      have h9 : x3 * B + (x1 + x2) * b + x0 ≤ ((b-1)*(b-1)) * B + ((b-1)*(b-1) + (b-1)*(b-1)) * b + (b-1)*(b-1) := by
        have : x3 * B ≤ ((b-1)*(b-1)) * B := Nat.mul_le_mul_right _ f3
        have : (x1 + x2) * b ≤ ((b-1)*(b-1) + (b-1)*(b-1)) * b := Nat.mul_le_mul_right _ (by omega)
        omega
      obtain ⟨c, rfl⟩ : ∃ c, b = c + 1 := ⟨b - 1, by omega⟩
      simp only [Nat.add_sub_cancel] at h9
      have k1 : B = c * (c + 2) + 1 := by rw [e]; ring
      have k2 : c * c * B + (c * c + c * c) * (c + 1) + c * c = c * (c + 2) * (c * (c + 2)) := by
        rw [e]; ring
      have k3 : B * B = c * (c + 2) * (c * (c + 2)) + 2 * (c * (c + 2)) + 1 := by
        rw [k1]; ring
      omega
    rw [wadd_exact (h := h) (a := x3) (b := b) (by rw [hB]; omega), wadd_exact (by rw [hB]; omega)]
    rw [tot]; ring
  · rw [if_neg (by simpa using hc)] at s2
    rw [if_neg hc]
    have tot : x3 * B + (x1 + x2) * b + x0 = x3 * B + c1 * B + r1 * b + r0 := by
      have : (x1 + x2) * b + c0 * b = t * b := by
        rw [← Nat.add_mul]; congr 1; omega
      have h5 : t * b = c1 * B + r1 * b := by rw [← d1, e]; ring
      omega
    rw [wadd_exact (h := h) (a := x3) (b := 0) (by rw [hB]; omega), wadd_exact (by rw [hB]; omega)]
    rw [tot]; ring

theorem umul_eq {h u x y : Nat} (hu : h ≤ u) (hx : x < base h) (hy : y < base h) :
    (umul h u x y).1 * base h + (umul h u x y).2 = x * y := by
  have hb := half_pos h
  have hlu := half_le_uint hu
  have a1 : x % half h < half h := Nat.mod_lt _ hb
  have a2 : x / half h < half h := by rw [Nat.div_lt_iff_lt_mul hb]; exact hx
  have a3 : y % half h < half h := Nat.mod_lt _ hb
  have a4 : y / half h < half h := by rw [Nat.div_lt_iff_lt_mul hb]; exact hy
  unfold umul
  rw [Nat.mod_eq_of_lt (Nat.lt_of_lt_of_le a1 hlu), Nat.mod_eq_of_lt (Nat.lt_of_lt_of_le a2 hlu),
    Nat.mod_eq_of_lt (Nat.lt_of_lt_of_le a3 hlu), Nat.mod_eq_of_lt (Nat.lt_of_lt_of_le a4 hlu)]
  have ex : ∀ {p q : Nat}, p < half h → q < half h → wmul h p q = p * q := by
    intro p q hp hq
    exact wmul_exact (Nat.mul_lt_mul'' hp hq)
  rw [ex a1 a3, ex a1 a4, ex a2 a3, ex a2 a4, join_eq a1 a2 a3 a4]
  congr 1
  · rw [Nat.mul_comm]; exact Nat.div_add_mod _ _
  · rw [Nat.mul_comm]; exact Nat.div_add_mod _ _

theorem umul_lt (h u x y : Nat) : (umul h u x y).1 < base h ∧ (umul h u x y).2 < base h := by
  unfold umul join; exact ⟨wadd_lt _ _ _, wadd_lt _ _ _⟩

theorem umul_high {h u x y : Nat} (hu : h ≤ u) (hx : x < base h) (hy : y < base h) :
    (umul h u x y).1 * base h + (umul h u x y).2 + 2 * base h ≤ base h * base h + 1 := by
  rw [umul_eq hu hx hy]
  have : x * y ≤ (base h - 1) * (base h - 1) := Nat.mul_le_mul (by omega) (by omega)
  have hB := base_pos h
  generalize base h = B at *
  obtain ⟨c, rfl⟩ : ∃ c, B = c + 1 := ⟨B - 1, by omega⟩
  have : (c + 1) * (c + 1) = c * c + 2 * c + 1 := by ring
  rw [Nat.add_sub_cancel] at *
  omega

/-- Two-limb values. -/
def two (h : Nat) (a : Nat × Nat) : Nat := a.1 * base h + a.2

theorem fold_mod {B x s : Nat} (hs : s < B) : x % B * B + s = (x * B + s) % (B * B) := by
  have hB : 0 < B := by omega
  rw [Nat.mod_mul, Nat.add_comm (x * B) s, Nat.add_mul_mod_self_right, Nat.mod_eq_of_lt hs,
    Nat.add_mul_div_right _ _ hB, Nat.div_eq_of_lt hs, Nat.zero_add, Nat.mul_comm B, Nat.add_comm]

theorem add2_eq {h : Nat} {a b : Nat × Nat} (ha2 : a.2 < base h) (hb2 : b.2 < base h) :
    two h (add2 h a b) = (two h a + two h b) % (base h * base h) := by
  have c := wadd_carry' ha2 hb2
  have hs := wadd_lt h a.2 b.2
  unfold two add2
  dsimp only
  generalize wadd h a.2 b.2 = s at *
  generalize flag _ = f at *
  have e1 : wadd h (wadd h a.1 b.1) f = (a.1 + b.1 + f) % base h := by
    unfold wadd; rw [Nat.mod_add_mod]
  have e2 : a.1 * base h + a.2 + (b.1 * base h + b.2) = (a.1 + b.1 + f) * base h + s := by
    rw [Nat.add_mul, Nat.add_mul, Nat.mul_comm f]; omega
  rw [e1, e2, fold_mod hs]

theorem sub2_eq {h : Nat} {a b : Nat × Nat} (ha : a.1 < base h) (ha2 : a.2 < base h)
    (hb : b.1 < base h) (hb2 : b.2 < base h) :
    two h (sub2 h a b) = (two h a + (base h * base h - two h b)) % (base h * base h) := by
  have hB := base_pos h
  have c := wsub_borrow ha2 hb2
  have hs := wsub_lt h a.2 b.2
  unfold two sub2
  dsimp only
  generalize wsub h a.2 b.2 = s at *
  have hf := flag_le (decide (a.2 < b.2))
  generalize flag _ = f at *
  have e1 : wsub h (wsub h a.1 b.1) f = (a.1 + (base h - b.1) + (base h - f)) % base h := by
    unfold wsub; rw [Nat.mod_add_mod]
  rw [e1, fold_mod hs]
  have le : b.1 * base h + b.2 ≤ base h * base h := by
    have : (b.1 + 1) * base h ≤ base h * base h := Nat.mul_le_mul_right _ hb
    rw [Nat.add_mul] at this; omega
  have e2 : (a.1 + (base h - b.1) + (base h - f)) * base h + s
      = a.1 * base h + a.2 + (base h * base h - (b.1 * base h + b.2)) + base h * base h := by
    zify [hb.le, (show f ≤ base h by omega), le]
    zify at c
    linear_combination c
  rw [e2, Nat.add_mod_right]

theorem add2_lt (h : Nat) (a b : Nat × Nat) : (add2 h a b).1 < base h ∧ (add2 h a b).2 < base h :=
  ⟨wadd_lt _ _ _, wadd_lt _ _ _⟩

theorem sub2_lt (h : Nat) (a b : Nat × Nat) : (sub2 h a b).1 < base h ∧ (sub2 h a b).2 < base h :=
  ⟨wsub_lt _ _ _, wsub_lt _ _ _⟩

theorem two_lt {h : Nat} {a : Nat × Nat} (h1 : a.1 < base h) (h2 : a.2 < base h) :
    two h a < base h * base h := by
  have : (a.1 + 1) * base h ≤ base h * base h := Nat.mul_le_mul_right _ h1
  unfold two
  rw [Nat.add_mul] at this; omega

end Verif.Gmp
