/-
gmp_udiv_qr_3by2: three limbs divided by two with the precomputed inverse.
-/
import Verif.Gmp.Word
import Verif.Gmp.Quotient

namespace Verif.Gmp

/-- Comparing two limbs against two limbs. -/
theorem two_le {h : Nat} {a d : Nat × Nat} (ha : a.2 < base h) (hd : d.2 < base h) :
    (d.1 ≤ a.1 ∧ (d.1 < a.1 ∨ d.2 ≤ a.2)) ↔ two h d ≤ two h a := by
  unfold two
  rcases Nat.lt_trichotomy d.1 a.1 with hl | hl | hl
  · have : (d.1 + 1) * base h ≤ a.1 * base h := Nat.mul_le_mul_right _ hl
    rw [Nat.add_mul] at this
    constructor
    · intro; omega
    · intro; exact ⟨hl.le, Or.inl hl⟩
  · rw [hl]
    constructor
    · rintro ⟨_, h1 | h1⟩ <;> omega
    · intro; exact ⟨Nat.le_refl _, Or.inr (by omega)⟩
  · have : (a.1 + 1) * base h ≤ d.1 * base h := Nat.mul_le_mul_right _ hl
    rw [Nat.add_mul] at this
    constructor
    · rintro ⟨h1, _⟩; omega
    · intro; omega

/-- Comparing only the high limb against a multiple of the base. -/
theorem high_le {h q0 : Nat} {a : Nat × Nat} (ha : a.2 < base h) :
    q0 ≤ a.1 ↔ q0 * base h ≤ two h a := by
  unfold two
  rcases Nat.lt_or_ge a.1 q0 with hl | hl
  · have : (a.1 + 1) * base h ≤ q0 * base h := Nat.mul_le_mul_right _ hl
    rw [Nat.add_mul] at this
    constructor <;> intro <;> omega
  · have : q0 * base h ≤ a.1 * base h := Nat.mul_le_mul_right _ hl
    constructor <;> intro <;> omega

/-- The guess fits two limbs. -/
theorem guess_fits {β d v u2 u1 : Nat} (hβ : 0 < β) (hv : (v + β) * d ≤ β ^ 3 - 1)
    (hu : u2 * β + u1 < d) : (β + v) * u2 + u1 < β * β := by
  have h3 : 0 < β ^ 3 := Nat.pow_pos hβ
  have a : β * ((β + v) * u2 + u1) ≤ (β + v) * (u2 * β + u1) := by
    have : (β + v) * (u2 * β + u1) = β * ((β + v) * u2 + u1) + v * u1 := by ring
    omega
  have b : (β + v) * (u2 * β + u1) + (β + v) ≤ (v + β) * d := by
    have : (β + v) * (u2 * β + u1 + 1) ≤ (β + v) * d := Nat.mul_le_mul_left _ hu
    rw [Nat.mul_add] at this
    rw [Nat.add_comm v β]; omega
  have c : β ^ 3 = β * (β * β) := by ring
  have e : β * ((β + v) * u2 + u1) < β * (β * β) := by omega
  exact Nat.lt_of_mul_lt_mul_left e

theorem inverse_mul {β d v : Nat} (hv : v + β = (β ^ 3 - 1) / d) : (v + β) * d ≤ β ^ 3 - 1 := by
  rw [hv]; exact Nat.div_mul_le_self _ _

theorem guess_eq {h u n2 n1 d v : Nat} (hu : h ≤ u) (hn2 : n2 < base h) (hn1 : n1 < base h)
    (hvl : v < base h) (hv : v + base h = (base h ^ 3 - 1) / d) (hnd : n2 * base h + n1 < d) :
    (guess h u n2 n1 v).1 * base h + (guess h u n2 n1 v).2 = (base h + v) * n2 + n1 := by
  have p := umul_eq hu hn2 hvl
  have a := add2_eq (h := h) (a := umul h u n2 v) (b := (n2, n1)) (umul_lt h u n2 v).2 hn1
  have f := guess_fits (base_pos h) (inverse_mul hv) hnd
  have e : two h (umul h u n2 v) + two h (n2, n1) = (base h + v) * n2 + n1 := by
    unfold two; rw [p]; dsimp only; ring
  rw [e, Nat.mod_eq_of_lt f] at a
  exact a

theorem guessRest_eq {h u q n2 n1 n0 d1 d0 : Nat} (hu : h ≤ u) (hq : q < base h)
    (hn1 : n1 < base h) (hn0 : n0 < base h) (hd1 : d1 < base h) (hd0 : d0 < base h) :
    (two h (guessRest h u q n1 n0 d1 d0) + (q + 1) * (d1 * base h + d0)) % base h ^ 2
      = (n2 * base h ^ 2 + n1 * base h + n0) % base h ^ 2 := by
  have hB := base_pos h
  have p := umul_eq hu hd0 hq
  have pl := umul_lt h u d0 q
  have wl := wsub_lt h n1 (wmul h d1 q)
  have wb := wsub_borrow (h := h) hn1 (wmul_lt h d1 q)
  have s1 := sub2_eq (h := h) (a := (wsub h n1 (wmul h d1 q), n0)) (b := (d1, d0)) wl hn0 hd1 hd0
  have sl := sub2_lt h (wsub h n1 (wmul h d1 q), n0) (d1, d0)
  have s2 := sub2_eq (h := h) (a := sub2 h (wsub h n1 (wmul h d1 q), n0) (d1, d0))
    (b := umul h u d0 q) sl.1 sl.2 pl.1 pl.2
  have t1 := two_lt (h := h) (a := (d1, d0)) hd1 hd0
  have t2 := two_lt (h := h) (a := umul h u d0 q) pl.1 pl.2
  have e2 : two h (umul h u d0 q) = d0 * q := p
  unfold guessRest
  rw [e2] at s2 t2
  generalize two h (sub2 h (sub2 h (wsub h n1 (wmul h d1 q), n0) (d1, d0)) (umul h u d0 q)) = w at *
  generalize two h (sub2 h (wsub h n1 (wmul h d1 q), n0) (d1, d0)) = X at *
  have eY : two h (wsub h n1 (wmul h d1 q), n0) = wsub h n1 (wmul h d1 q) * base h + n0 := rfl
  have eD : two h (d1, d0) = d1 * base h + d0 := rfl
  rw [eY, eD] at s1
  rw [eD] at t1
  generalize flag _ = f at *
  have ew : wmul h d1 q = d1 * q % base h := rfl
  have dq := Nat.div_add_mod (d1 * q) (base h)
  rw [← ew] at dq
  generalize wmul h d1 q = m at *
  generalize wsub h n1 m = y at *
  rw [Nat.pow_two]
  have dw := Nat.div_add_mod (X + (base h * base h - d0 * q)) (base h * base h)
  have dx := Nat.div_add_mod (y * base h + n0 + (base h * base h - (d1 * base h + d0))) (base h * base h)
  rw [← s2] at dw
  rw [← s1] at dx
  generalize (X + (base h * base h - d0 * q)) / (base h * base h) = a at *
  generalize (y * base h + n0 + (base h * base h - (d1 * base h + d0))) / (base h * base h) = b at *
  generalize d1 * q / base h = c at *
  have hw : base h * base h * a + w + d0 * q = X + base h * base h := by omega
  have hx : base h * base h * b + X + (d1 * base h + d0) = y * base h + n0 + base h * base h := by omega
  have main : w + (q + 1) * (d1 * base h + d0) + base h * base h * (a + b + n2)
      = n2 * (base h * base h) + n1 * base h + n0 + base h * base h * (f + c + 2) := by
    zify at *
    linear_combination hw + hx + base h * wb - base h * dq
  have := congrArg (· % (base h * base h)) main
  rwa [Nat.add_mul_mod_self_left, Nat.add_mul_mod_self_left] at this

/-- The division of three limbs by a normalised two-limb divisor is exact. -/
theorem udiv3by2_eq {h u n2 n1 n0 d1 d0 v : Nat} (hu : h ≤ u) (hn2 : n2 < base h)
    (hn1 : n1 < base h) (hn0 : n0 < base h) (hd1 : d1 < base h) (hd0 : d0 < base h)
    (hnorm : base h ≤ 2 * d1) (hvl : v < base h)
    (hv : v + base h = (base h ^ 3 - 1) / (d1 * base h + d0))
    (hnd : n2 * base h + n1 < d1 * base h + d0) :
    n2 * base h ^ 2 + n1 * base h + n0
      = (udiv3by2 h u n2 n1 n0 d1 d0 v).1 * (d1 * base h + d0) + two h (udiv3by2 h u n2 n1 n0 d1 d0 v).2
    ∧ two h (udiv3by2 h u n2 n1 n0 d1 d0 v).2 < d1 * base h + d0
    ∧ (udiv3by2 h u n2 n1 n0 d1 d0 v).1 < base h
    ∧ (udiv3by2 h u n2 n1 n0 d1 d0 v).2.1 < base h
    ∧ (udiv3by2 h u n2 n1 n0 d1 d0 v).2.2 < base h := by
  have hB := base_pos h
  have g := guess_eq hu hn2 hn1 hvl hv hnd
  have gl : (guess h u n2 n1 v).1 < base h ∧ (guess h u n2 n1 v).2 < base h :=
    add2_lt h (umul h u n2 v) (n2, n1)
  have gr := guessRest_eq (n2 := n2) hu gl.1 hn1 hn0 hd1 hd0
  unfold udiv3by2
  have rl := sub2_lt h (sub2 h (wsub h n1 (wmul h d1 (guess h u n2 n1 v).1), n0) (d1, d0))
    (umul h u d0 (guess h u n2 n1 v).1)
  change (guessRest h u (guess h u n2 n1 v).1 n1 n0 d1 d0).1 < base h
    ∧ (guessRest h u (guess h u n2 n1 v).1 n1 n0 d1 d0).2 < base h at rl
  generalize guessRest h u (guess h u n2 n1 v).1 n1 n0 d1 d0 = r at *
  generalize (guess h u n2 n1 v).1 = q1 at *
  generalize (guess h u n2 n1 v).2 = q0 at *
  obtain ⟨q, s, e, hs, cases⟩ := three_by_two (β := base h) rfl hd0 hd1 hnorm hv hn1 hn0 hnd g gl.2
  have hT : base h ^ 2 = base h * base h := Nat.pow_two _
  have hqB : q < base h := by
    by_contra hh
    have a1 : base h * (d1 * base h + d0) ≤ q * (d1 * base h + d0) := Nat.mul_le_mul_right _ (by omega)
    have a2 : base h * (n2 * base h + n1 + 1) ≤ base h * (d1 * base h + d0) := Nat.mul_le_mul_left _ hnd
    have a3 : base h * (n2 * base h + n1 + 1) = n2 * base h ^ 2 + n1 * base h + base h := by ring
    omega
  have w := two_lt rl.1 rl.2
  have hdlt : d1 * base h + d0 < base h * base h := two_lt (h := h) (a := (d1, d0)) hd1 hd0
  have hdd : two h (d1, d0) = d1 * base h + d0 := rfl
  have h00 : two h (0, 0) = 0 := by unfold two; simp
  have cmp := high_le (h := h) (q0 := q0) (a := r) rl.2
  have aD := add2_eq (h := h) (a := r) (b := (d1, d0)) rl.2 hd0
  have aZ := add2_eq (h := h) (a := r) (b := (0, 0)) rl.2 hB
  rw [hdd] at aD
  rw [h00, Nat.add_zero, Nat.mod_eq_of_lt w] at aZ
  have aDl := add2_lt h r (d1, d0)
  have aZl := add2_lt h r (0, 0)
  rw [hT] at cases gr
  have dec : wadd h (wadd h q1 1) (base h - 1) = q1 := by
    unfold wadd
    rw [Nat.mod_add_mod, show q1 + 1 + (base h - 1) = q1 + base h by omega, Nat.add_mod_right,
      Nat.mod_eq_of_lt gl.1]
  -- final comparison and subtraction
  have fin : ∀ (r' : Nat × Nat), r'.1 < base h → r'.2 < base h →
      (d1 * base h + d0 ≤ two h r' → two h (sub2 h r' (d1, d0)) = two h r' - (d1 * base h + d0)) := by
    intro r' l1 l2 hle
    have := sub2_eq (h := h) (a := r') (b := (d1, d0)) l1 l2 hd1 hd0
    have t := two_lt l1 l2
    rw [hdd] at this
    rw [this, show two h r' + (base h * base h - (d1 * base h + d0))
      = (two h r' - (d1 * base h + d0)) + base h * base h by omega, Nat.add_mod_right,
      Nat.mod_eq_of_lt (by omega)]
  unfold settle
  dsimp only
  rcases cases with ⟨hq, hc⟩ | ⟨hq, hc⟩ | ⟨hq, hc⟩
  · obtain ⟨c1, c2⟩ := hc _ w gr
    rw [c2] at aD
    have hup : q0 ≤ r.1 := cmp.2 c1
    rw [if_pos (show decide (q0 ≤ r.1) = true by simpa using hup),
      if_pos (show decide (q0 ≤ r.1) = true by simpa using hup), dec]
    rw [if_neg (by
      intro hh
      have := (two_le (h := h) (d := (d1, d0)) aDl.2 hd0).1 hh
      rw [hdd] at this; omega)]
    dsimp only
    rw [aD, ← hq]
    exact ⟨e, hs, hqB, aDl.1, aDl.2⟩
  · obtain ⟨c1, c2⟩ := hc _ w gr
    by_cases hup : q0 ≤ r.1
    · have c3 := c2 (cmp.1 hup)
      rw [c1, Nat.mod_eq_of_lt c3] at aD
      rw [if_pos (show decide (q0 ≤ r.1) = true by simpa using hup),
        if_pos (show decide (q0 ≤ r.1) = true by simpa using hup), dec]
      rw [if_pos ((two_le (h := h) (d := (d1, d0)) aDl.2 hd0).2 (by rw [hdd]; omega))]
      dsimp only
      have sl := sub2_lt h (add2 h r (d1, d0)) (d1, d0)
      rw [fin _ aDl.1 aDl.2 (by omega), aD, wadd_exact (by omega), ← hq]
      refine ⟨by omega, by omega, hqB, sl.1, sl.2⟩
    · rw [if_neg (show ¬ decide (q0 ≤ r.1) = true by simpa using hup),
        if_neg (show ¬ decide (q0 ≤ r.1) = true by simpa using hup)]
      rw [if_neg (by
        intro hh
        have := (two_le (h := h) (d := (d1, d0)) aZl.2 hd0).1 hh
        rw [hdd] at this; omega)]
      dsimp only
      rw [aZ, c1, wadd_exact (by omega), ← hq]
      exact ⟨e, hs, hqB, aZl.1, aZl.2⟩
  · obtain ⟨c1, c2⟩ := hc _ w gr
    have hup : ¬ q0 ≤ r.1 := by
      intro hh
      have := cmp.1 hh
      omega
    rw [if_neg (show ¬ decide (q0 ≤ r.1) = true by simpa using hup),
      if_neg (show ¬ decide (q0 ≤ r.1) = true by simpa using hup)]
    rw [if_pos ((two_le (h := h) (d := (d1, d0)) aZl.2 hd0).2 (by rw [hdd]; omega))]
    dsimp only
    have sl := sub2_lt h (add2 h r (0, 0)) (d1, d0)
    rw [fin _ aZl.1 aZl.2 (by omega), aZ, wadd_exact (h := h) (a := q1) (b := 1) (by omega),
      wadd_exact (by omega), c1]
    refine ⟨?_, by omega, by omega, sl.1, sl.2⟩
    rw [hq] at e
    rw [e]
    congr 1
    omega

end Verif.Gmp
