/-
mpn_invert_3by2: the precomputed inverse of a normalised divisor.
-/
import Verif.Gmp.Step
import Verif.Gmp.Shape
import Mathlib.Data.Nat.Prime.Basic

namespace Verif.Gmp

/-- The number divided first is `b³ - 1` less `b` times the divisor. -/
theorem first_number {b u1 : Nat} (hu : u1 < b * b) (hb : 0 < b) :
    (b * b - 1 - u1) * b + (b - 1) + b * u1 + 1 = b ^ 3 := by
  obtain ⟨c, hc⟩ : ∃ c, b * b = u1 + 1 + c := ⟨b * b - 1 - u1, by omega⟩
  have : b * b - 1 - u1 = c := by omega
  rw [this]
  have e : b ^ 3 = b * (b * b) := by ring
  rw [e, hc]
  have : b * (u1 + 1 + c) = b * u1 + b + c * b := by ring
  omega

theorem uint_exact {u x : Nat} (hx : x < 2 ^ u) : uint u x = x := Nat.mod_eq_of_lt hx

theorem uint_pred {u x : Nat} (h1 : 1 ≤ x) (hx : x < 2 ^ u) : uint u (x + 2 ^ u - 1) = x - 1 := by
  unfold uint
  rw [show x + 2 ^ u - 1 = (x - 1) + 2 ^ u by omega, Nat.add_mod_right, Nat.mod_eq_of_lt (by omega)]

theorem uint_pred2 {u x : Nat} (h1 : 2 ≤ x) (hx : x < 2 ^ u) : uint u (x + 2 ^ u - 2) = x - 2 := by
  unfold uint
  rw [show x + 2 ^ u - 2 = (x - 2) + 2 ^ u by omega, Nat.add_mod_right, Nat.mod_eq_of_lt (by omega)]

/-- `a - b` modulo the base, when the true value is known to be `c`. -/
theorem wsub_val {h a b c : Nat} (hb : b < base h) (hc : c < base h)
    (e : (b + c) % base h = a % base h) : wsub h (a % base h) b = c := by
  unfold wsub
  rw [← e, Nat.mod_add_mod, show b + c + (base h - b) = c + base h by omega, Nat.add_mod_right,
    Nat.mod_eq_of_lt hc]

theorem firstTry_spec {h u u1 : Nat} (hh : 1 ≤ h) (hu : h ≤ u) (hu1 : u1 < base h)
    (hn : base h ≤ 2 * u1) :
    ∃ qh r p, firstTry h u u1 = (qh, r, p) ∧ qh < half h ∧ r < u1 ∧ p < base h
      ∧ (half h ≤ 2 * (u1 / half h)) ∧ p = qh * (u1 % half h)
      ∧ (base h - 1 - u1) * half h + (half h - 1) + p = qh * u1 + r := by
  have hb := half_pos h
  have hb2 := half_two hh
  have e : base h = half h * half h := rfl
  have hlu := half_le_uint hu
  have d := Nat.div_add_mod u1 (half h)
  have ml := Nat.mod_lt u1 hb
  have dl : u1 / half h < half h := by rw [Nat.div_lt_iff_lt_mul hb]; exact hu1
  have hpar : ∃ c, half h = 2 * c := by
    refine ⟨2 ^ (h - 1), ?_⟩
    unfold half
    rw [← Nat.pow_succ']; congr 1; omega
  obtain ⟨c, hc⟩ := hpar
  have dn : half h ≤ 2 * (u1 / half h) := by
    have : c ≤ u1 / half h := by
      rw [Nat.le_div_iff_mul_le hb]
      have : base h = 2 * (c * half h) := by rw [e, hc]; ring
      omega
    omega
  have hord : half h - 1 < 2 ^ h := by have : half h = 2 ^ h := rfl; omega
  unfold firstTry
  dsimp only
  rw [uint_exact (show u1 % half h < 2 ^ u by omega), uint_exact (show u1 / half h < 2 ^ u by omega)]
  generalize hul : u1 % half h = ul at *
  generalize huh : u1 / half h = uh at *
  have huhp : 0 < uh := by omega
  have qd := Nat.div_add_mod (base h - 1 - u1) uh
  have qm := Nat.mod_lt (base h - 1 - u1) huhp
  have ql : (base h - 1 - u1) / uh < half h := by
    rw [Nat.div_lt_iff_lt_mul huhp]
    have : half h * half h ≤ half h * (2 * uh) := Nat.mul_le_mul_left _ dn
    have e3 : half h * (2 * uh) = 2 * (half h * uh) := by ring
    omega
  rw [uint_exact (show (base h - 1 - u1) / uh < 2 ^ u by omega)]
  generalize hqh : (base h - 1 - u1) / uh = qh at *
  have w1 : qh * uh < base h := Nat.mul_lt_mul'' ql dl
  have w2 : qh * ul < base h := Nat.mul_lt_mul'' ql ml
  rw [wmul_exact w1, wmul_exact w2]
  have qc : uh * qh = qh * uh := Nat.mul_comm _ _
  have s1 : wsub h (base h - 1 - u1) (qh * uh) = (base h - 1 - u1) % uh := by
    rw [wsub_exact (by omega) (by omega)]; omega
  rw [s1]
  generalize hs : (base h - 1 - u1) % uh = s at *
  have w3 : s * half h + half h ≤ uh * half h := by
    have : (s + 1) * half h ≤ uh * half h := Nat.mul_le_mul_right _ qm
    rw [Nat.add_mul] at this; omega
  have hle : uh * half h ≤ u1 := by rw [Nat.mul_comm]; omega
  have w4 : wmul h s (half h) = s * half h := wmul_exact (by omega)
  have w5 : (s * half h ||| (half h - 1)) = s * half h + (half h - 1) := by
    have := or_shift (a := s) hord
    exact this
  rw [w4, w5]
  refine ⟨qh, s * half h + (half h - 1), qh * ul, rfl, ql, by omega, w2, dn, rfl, ?_⟩
  have e5 : qh * u1 = qh * uh * half h + qh * ul := by rw [← d]; ring
  have e6 : (base h - 1 - u1) * half h = qh * uh * half h + s * half h := by
    rw [← qd]; rw [qc]; ring
  omega

/-- The first half quotient is the 3/2 inverse in half limbs. -/
theorem firstAdjust_spec {h u u1 : Nat} (hh : 1 ≤ h) (hu : h ≤ u) (hu1 : u1 < base h)
    (hn : base h ≤ 2 * u1) :
    ∃ qh r, firstAdjust h u u1 (firstTry h u u1) = (qh, r) ∧ qh < half h ∧ r < u1
      ∧ (qh + half h) * u1 + r + 1 = half h ^ 3 := by
  obtain ⟨qh, r, p, e, hq, hr, hp, _, _, hm⟩ := firstTry_spec hh hu hu1 hn
  have fn := first_number (b := half h) (u1 := u1) hu1 (half_pos h)
  have hB : base h = half h * half h := rfl
  rw [← hB] at fn
  have hlu := half_le_uint hu
  rw [e]
  unfold firstAdjust
  dsimp only
  have tot : qh * u1 + r + half h * u1 + 1 = half h ^ 3 + p := by omega
  have fin : ∀ q s, q * u1 + s + half h * u1 + 1 = half h ^ 3 →
      (q + half h) * u1 + s + 1 = half h ^ 3 := by
    intro q s h1; rw [Nat.add_mul]; omega
  have lo : (half h) * u1 + 1 ≤ half h ^ 3 := by omega
  by_cases h1 : r < p
  · rw [if_pos h1]
    have p0 : 0 < u1 := by omega
    by_cases h2 : u1 ≤ wadd h r u1 ∧ wadd h r u1 < p
    · rw [if_pos h2]
      have nc : r + u1 < base h := by
        by_contra hx
        have : wadd h r u1 = r + u1 - base h := by
          unfold wadd; rw [Nat.mod_eq_sub_mod (by omega), Nat.mod_eq_of_lt (by omega)]
        omega
      rw [wadd_exact nc] at h2 ⊢
      have q2 : 2 ≤ qh := by
        by_contra hx
        have : qh * u1 ≤ 1 * u1 := Nat.mul_le_mul_right _ (by omega)
        omega
      have hs : wsub h (wadd h (r + u1) u1) p = r + u1 + u1 - p := by
        apply wsub_val (a := r + u1 + u1) hp (by omega)
        congr 1; omega
      rw [hs, uint_pred2 q2 (by omega)]
      refine ⟨qh - 2, r + u1 + u1 - p, rfl, by omega, by omega, fin _ _ ?_⟩
      have : (qh - 2) * u1 + 2 * u1 = qh * u1 := by rw [← Nat.add_mul]; congr 1; omega
      omega
    · rw [if_neg h2]
      have hge : p ≤ r + u1 := by
        by_contra hx
        apply h2
        rw [wadd_exact (by omega)]
        omega
      have q1 : 1 ≤ qh := by
        by_contra hx
        have : qh = 0 := by omega
        rw [this] at hm; omega
      have hs : wsub h (wadd h r u1) p = r + u1 - p := by
        apply wsub_val (a := r + u1) hp (by omega)
        congr 1; omega
      rw [hs, uint_pred q1 (by omega)]
      refine ⟨qh - 1, r + u1 - p, rfl, by omega, by omega, fin _ _ ?_⟩
      have : (qh - 1) * u1 + u1 = qh * u1 := by
        have : (qh - 1) * u1 + 1 * u1 = qh * u1 := by rw [← Nat.add_mul]; congr 1; omega
        omega
      omega
  · rw [if_neg h1, wsub_exact (by omega) (by omega)]
    exact ⟨qh, r - p, rfl, hq, by omega, fin _ _ (by omega)⟩

/-- The inverse of one limb: the half quotients together.  `hql` says that the second half
quotient, before its correction, fits an `unsigned`. -/
theorem secondHalf_spec {h u u1 qh r : Nat} (hh : 1 ≤ h) (hu : h ≤ u) (hu1 : u1 < base h)
    (hn : base h ≤ 2 * u1) (hq : qh < half h) (hr : r < u1)
    (hm : (qh + half h) * u1 + r + 1 = half h ^ 3)
    (hql : (r / half h * qh + r) / half h + 1 < 2 ^ u) :
    ∃ m s, secondHalf h u u1 (qh, r) = (m, s) ∧ m < base h ∧ s < u1
      ∧ (base h + m) * u1 + s + 1 = base h * base h := by
  have hb := half_pos h
  have e : base h = half h * half h := rfl
  have d := Nat.div_add_mod u1 (half h)
  have ml := Nat.mod_lt u1 hb
  have dl : u1 / half h < half h := by rw [Nat.div_lt_iff_lt_mul hb]; exact hu1
  have dr := Nat.div_add_mod r (half h)
  have mr := Nat.mod_lt r hb
  have dn : half h ≤ 2 * (u1 / half h) := by
    obtain ⟨_, _, _, _, _, _, _, x, _⟩ := firstTry_spec hh hu hu1 hn
    exact x
  have h3 : 0 < half h ^ 3 := Nat.pow_pos hb
  have hd : u1 = u1 / half h * half h + u1 % half h := by rw [Nat.mul_comm]; omega
  have hv : qh + half h = (half h ^ 3 - 1) / u1 := by
    symm
    apply Nat.div_eq_of_lt_le
    · omega
    · rw [Nat.add_mul]; omega
  have hrd : r / half h * half h + r % half h = r := by rw [Nat.mul_comm]; omega
  have fits := guess_fits (u2 := r / half h) (u1 := r % half h) hb (inverse_mul hv) (by omega)
  have pe : (half h + qh) * (r / half h) + r % half h = r / half h * qh + r := by
    have := Nat.mul_comm qh (r / half h)
    have := Nat.mul_comm (half h) (r / half h)
    rw [Nat.add_mul]; omega
  rw [pe, ← e] at fits
  have rl : r / half h * qh < base h := by omega
  have hp : wadd h (wmul h (r / half h) qh) r = r / half h * qh + r := by
    rw [wmul_exact rl, wadd_exact fits]
  unfold secondHalf
  dsimp only
  rw [hp]
  generalize hP : r / half h * qh + r = P at *
  have dP := Nat.div_add_mod P (half h)
  have mP := Nat.mod_lt P hb
  rw [uint_exact hql]
  generalize hq1 : P / half h = q1 at *
  generalize hq0 : P % half h = q0 at *
  have q1l : q1 < half h := by rw [← hq1, Nat.div_lt_iff_lt_mul hb]; exact fits
  obtain ⟨q, s, eN, hs, cases⟩ := three_by_two (β := half h) (d := u1) (v := qh)
    (u2 := r / half h) (u1 := r % half h) (u0 := half h - 1) (q1 := q1) (q0 := q0)
    hd ml dl dn hv mr (by omega) (by omega) (by rw [pe, Nat.mul_comm]; exact dP) mP
  have hT : half h ^ 2 = base h := by rw [e]; ring
  have eN' : r / half h * half h ^ 2 + r % half h * half h + (half h - 1)
      = r * half h + (half h - 1) := by
    have : r * half h = (r / half h * half h + r % half h) * half h := by rw [hrd]
    rw [this]; ring
  rw [eN'] at eN
  rw [eN', hT] at cases
  have hqb : q < half h := by
    by_contra hx
    have a1 : half h * u1 ≤ q * u1 := Nat.mul_le_mul_right _ (by omega)
    have a2 : (r + 1) * half h ≤ u1 * half h := Nat.mul_le_mul_right _ hr
    rw [Nat.add_mul] at a2
    have a3 : u1 * half h = half h * u1 := Nat.mul_comm _ _
    omega
  have hpb : wmul h P (half h) = q0 * half h := by
    unfold wmul; rw [e, Nat.mul_mod_mul_right, hq0]
  rw [hpb]
  -- the wrapped remainder
  have wl := wsub_lt h (wadd h (wmul h r (half h)) (half h - 1)) (wmul h (q1 + 1) u1)
  have wm : (wsub h (wadd h (wmul h r (half h)) (half h - 1)) (wmul h (q1 + 1) u1) + (q1 + 1) * u1)
      % base h = (r * half h + (half h - 1)) % base h := by
    unfold wsub wadd wmul
    rw [Nat.mod_add_mod, Nat.mod_add_mod]
    have dd := Nat.div_add_mod ((q1 + 1) * u1) (base h)
    have mm := Nat.mod_lt ((q1 + 1) * u1) (base_pos h)
    generalize (q1 + 1) * u1 / base h = c at *
    generalize (q1 + 1) * u1 % base h = y at *
    rw [← dd, Nat.add_assoc, Nat.mod_add_mod, ← Nat.add_assoc, show r * half h + (half h - 1) + (base h - y) + (base h * c + y)
      = (r * half h + (half h - 1)) + base h * (c + 1) by rw [Nat.mul_add]; omega,
      Nat.add_mul_mod_self_left]
  generalize wsub h (wadd h (wmul h r (half h)) (half h - 1)) (wmul h (q1 + 1) u1) = w at *
  have pr : uint u (q1 + 1 + 2 ^ u - 1) = q1 := by rw [uint_pred (by omega) hql]; omega
  have mb : ∀ x, x < half h → wmul h qh (half h) + x = qh * half h + x ∧ qh * half h + x < base h := by
    intro x hx
    have : (qh + 1) * half h ≤ half h * half h := Nat.mul_le_mul_right _ hq
    rw [Nat.add_mul] at this
    rw [wmul_exact (by omega)]
    exact ⟨rfl, by omega⟩
  have fin : ∀ m, m = qh * half h + q → (base h + m) * u1 + s + 1 = base h * base h := by
    intro m hme
    have k1 : (base h + m) * u1 + s = base h * u1 + qh * half h * u1 + (q * u1 + s) := by
      rw [hme]; ring
    rw [k1, ← eN]
    have k2 : base h * base h = half h * half h ^ 3 := by rw [e]; ring
    rw [k2, ← hm]
    have k3 : half h * ((qh + half h) * u1 + r + 1)
        = base h * u1 + qh * half h * u1 + r * half h + half h := by rw [e]; ring
    omega
  rcases cases with ⟨hqe, hc⟩ | ⟨hqe, hc⟩ | ⟨hqe, hc⟩
  · obtain ⟨c1, c2⟩ := hc w wl wm
    have hup : decide (q0 * half h ≤ w) = true := by simpa using c1
    rw [if_pos hup, if_pos hup, pr]
    have wa : wadd h w u1 = s := c2
    rw [wa, if_neg (by omega)]
    have := mb q1 (by omega)
    have wm2 : wadd h (wmul h qh (half h)) q1 = qh * half h + q := by
      rw [wadd_exact (by omega), this.1, hqe]
    rw [wm2]
    exact ⟨_, s, rfl, by rw [hqe]; exact this.2, hs, fin _ rfl⟩
  · obtain ⟨c1, c2⟩ := hc w wl wm
    by_cases c3 : q0 * half h ≤ w
    · have hup : decide (q0 * half h ≤ w) = true := by simpa using c3
      rw [if_pos hup, if_pos hup, pr]
      have wa : wadd h w u1 = s + u1 := by
        unfold wadd; rw [c1]; exact Nat.mod_eq_of_lt (c2 c3)
      rw [wa, if_pos (by omega)]
      have m1 := mb q1 (by omega)
      have m2 := mb q hqb
      rw [wadd_exact (h := h) (a := wmul h qh (half h)) (b := q1) (by omega), m1.1,
        wadd_exact (by omega), wsub_exact (c2 c3) (by omega)]
      refine ⟨_, _, rfl, by omega, by omega, ?_⟩
      rw [show s + u1 - u1 = s by omega]
      exact fin _ (by omega)
    · have hup : ¬ decide (q0 * half h ≤ w) = true := by simpa using c3
      rw [if_neg hup, if_neg hup, if_neg (by omega)]
      have m2 := mb (q1 + 1) (by omega)
      rw [wadd_exact (h := h) (a := wmul h qh (half h)) (b := q1 + 1) (by omega), m2.1]
      refine ⟨_, _, rfl, m2.2, by omega, ?_⟩
      rw [c1]
      exact fin _ (by omega)
  · obtain ⟨c1, c2⟩ := hc w wl wm
    have hup : ¬ decide (q0 * half h ≤ w) = true := by simp; omega
    rw [if_neg hup, if_neg hup, if_pos (by omega)]
    have m1 := mb (q1 + 1) (by omega)
    have m2 := mb (q1 + 2) (by omega)
    rw [wadd_exact (h := h) (a := wmul h qh (half h)) (b := q1 + 1) (by omega), m1.1,
      wadd_exact (by omega), wsub_exact wl (by omega)]
    refine ⟨_, _, rfl, by omega, by omega, ?_⟩
    rw [c1, show s + u1 - u1 = s by omega]
    exact fin _ (by omega)

/-- The inverse of one limb where `unsigned` is wider than half a limb. -/
theorem invert1_spec {h u u1 : Nat} (hh : 1 ≤ h) (hu : h < u) (hu1 : u1 < base h)
    (hn : base h ≤ 2 * u1) :
    ∃ m s, invert1 h u u1 = (m, s) ∧ m < base h ∧ s < u1
      ∧ (base h + m) * u1 + s + 1 = base h * base h := by
  obtain ⟨qh, r, e, hq, hr, hm⟩ := firstAdjust_spec hh (by omega : h ≤ u) hu1 hn
  have hb := half_pos h
  unfold invert1
  rw [e]
  apply secondHalf_spec hh (by omega) hu1 hn hq hr hm
  have hlt : half h < 2 ^ u := Nat.pow_lt_pow_right (by decide) hu
  have h3 : 0 < half h ^ 3 := Nat.pow_pos hb
  have hv : (qh + half h) * u1 ≤ half h ^ 3 - 1 := by omega
  have dr := Nat.div_add_mod r (half h)
  have hrd : r / half h * half h + r % half h = r := by rw [Nat.mul_comm]; omega
  have fits := guess_fits (u2 := r / half h) (u1 := r % half h) hb hv (by omega)
  have pe : (half h + qh) * (r / half h) + r % half h = r / half h * qh + r := by
    have := Nat.mul_comm qh (r / half h)
    have := Nat.mul_comm (half h) (r / half h)
    rw [Nat.add_mul]; omega
  rw [pe] at fits
  have : (r / half h * qh + r) / half h < half h := by rw [Nat.div_lt_iff_lt_mul hb]; exact fits
  omega

/-- After the low limb of the divisor was added. -/
theorem refineLow_spec {h u1 u0 m s : Nat} (hu1 : u1 < base h)
    (hn : base h ≤ 2 * u1) (hu0 : u0 < base h) (h0 : 0 < u0) (hm : m < base h) (hs : s < u1)
    (e : (base h + m) * u1 + s + 1 = base h * base h) :
    ∃ m' p, refineLow h u1 u0 (m, s) = (m', p) ∧ m' < base h ∧ p < base h ∧ base h ≤ p + u1
      ∧ (base h + m') * u1 + u0 + base h = base h * base h + p := by
  have hB := base_pos h
  have c := wadd_carry (h := h) (a := base h - 1 - s) (b := u0) (by omega) hu0
  have l := wadd_lt h (base h - 1 - s) u0
  unfold refineLow
  dsimp only
  generalize wadd h (base h - 1 - s) u0 = r at *
  unfold flag at c
  by_cases h1 : r < u0
  · rw [if_pos h1]
    rw [if_pos (by simpa using h1)] at c
    by_cases h2 : u1 ≤ r
    · rw [if_pos h2]
      have m2 : 2 ≤ m := by
        by_contra hx
        have : (base h + m) * u1 ≤ (base h + 1) * u1 := Nat.mul_le_mul_right _ (by omega)
        have a2 : (base h + 1) * u1 = base h * u1 + u1 := by ring
        have a3 : base h * (u1 + 1) ≤ base h * base h := Nat.mul_le_mul_left _ hu1
        rw [Nat.mul_add] at a3
        omega
      have b1 := wsub_borrow (h := h) (a := r - u1) (b := u1) (by omega) hu1
      unfold flag at b1
      rw [if_pos (by simp; omega)] at b1
      rw [wsub_exact l h2, wsub_exact hm (by omega), wsub_exact (by omega) (by omega)]
      refine ⟨_, _, rfl, by omega, wsub_lt _ _ _, by omega, ?_⟩
      have : (base h + (m - 1 - 1)) * u1 + 2 * u1 = (base h + m) * u1 := by
        rw [← Nat.add_mul]; congr 1; omega
      omega
    · rw [if_neg h2]
      have m1 : 1 ≤ m := by
        by_contra hx
        have : m = 0 := by omega
        have e' : base h * u1 + s + 1 = base h * base h := by rw [this] at e; exact e
        have a3 : base h * (u1 + 1) ≤ base h * base h := Nat.mul_le_mul_left _ hu1
        rw [Nat.mul_add] at a3
        omega
      have b1 := wsub_borrow (h := h) (a := r) (b := u1) l hu1
      unfold flag at b1
      rw [if_pos (by simp; omega)] at b1
      rw [wsub_exact hm m1]
      refine ⟨_, _, rfl, by omega, wsub_lt _ _ _, by omega, ?_⟩
      have : (base h + (m - 1)) * u1 + 1 * u1 = (base h + m) * u1 := by
        rw [← Nat.add_mul]; congr 1; omega
      omega
  · rw [if_neg h1]
    rw [if_neg (by simpa using h1)] at c
    exact ⟨m, r, rfl, hm, l, by omega, by omega⟩

/-- A normalised divisor with a low limb does not divide the cube of the base. -/
theorem not_dvd_cube {h u1 u0 c : Nat} (hu1 : u1 < base h) (hn : base h ≤ 2 * u1)
    (hu0 : u0 < base h) (h0 : 0 < u0) : c * (u1 * base h + u0) ≠ base h ^ 3 := by
  intro e
  have hB := base_pos h
  have hd : (u1 * base h + u0) ∣ 2 ^ (2 * h * 3) := by
    refine ⟨c, ?_⟩
    rw [Nat.pow_mul, ← base_eq, ← e, Nat.mul_comm]
  obtain ⟨j, _, hj⟩ := (Nat.dvd_prime_pow Nat.prime_two).1 hd
  have hlow : base h ≤ u1 * base h + u0 := by
    have : 1 * base h ≤ u1 * base h := Nat.mul_le_mul_right _ (by omega)
    omega
  have hjge : 2 * h ≤ j := by
    by_contra hx
    have : 2 ^ j < 2 ^ (2 * h) := Nat.pow_lt_pow_right (by decide) (by omega)
    rw [← hj, ← base_eq] at this
    omega
  have dv : base h ∣ u1 * base h + u0 := by
    rw [hj, base_eq]; exact Nat.pow_dvd_pow 2 hjge
  have : base h ∣ u0 := (Nat.dvd_add_right (Nat.dvd_mul_left _ _)).1 dv
  have := Nat.le_of_dvd h0 this
  omega

theorem refineProduct_spec {h u u1 u0 m p : Nat} (hu : h ≤ u) (hu1 : u1 < base h)
    (hn : base h ≤ 2 * u1) (hu0 : u0 < base h) (h0 : 0 < u0) (hm : m < base h) (hp : p < base h)
    (hpl : base h ≤ p + u1)
    (e : (base h + m) * u1 + u0 + base h = base h * base h + p) :
    ∃ v, refineProduct h u u1 u0 (m, p) = v ∧ v < base h
      ∧ (base h + v) * (u1 * base h + u0) < base h ^ 3
      ∧ base h ^ 3 ≤ (base h + v) * (u1 * base h + u0) + (u1 * base h + u0) := by
  have hB := base_pos h
  have t := umul_eq hu hu0 hm
  have tl := umul_lt h u u0 m
  have c := wadd_carry (h := h) hp tl.1
  have rl := wadd_lt h p (umul h u u0 m).1
  unfold refineProduct
  dsimp only
  generalize (umul h u u0 m).1 = t1 at *
  generalize (umul h u u0 m).2 = t0 at *
  generalize wadd h p t1 = r at *
  unfold flag at c
  have main : (base h + m) * (u1 * base h + u0) + base h * base h = base h ^ 3 + base h * (p + t1) + t0 := by
    zify at *
    linear_combination base h * e - t
  have hT : base h * base h ≤ 2 * (u1 * base h + u0) := by
    have : base h * base h ≤ 2 * u1 * base h := Nat.mul_le_mul_right _ hn
    have e2 : 2 * u1 * base h = 2 * (u1 * base h) := by ring
    omega
  by_cases h1 : r < t1
  · rw [if_pos h1]
    rw [if_pos (by simpa using h1)] at c
    have main2 : (base h + m) * (u1 * base h + u0) = base h ^ 3 + (r * base h + t0) := by
      have : base h * (p + t1) = base h * r + base h * base h := by
        rw [← c]; ring
      rw [Nat.mul_comm r]; omega
    have m1 : 1 ≤ m := by
      by_contra hx
      have hz : m = 0 := by omega
      rw [hz, Nat.add_zero] at main2
      have a : base h * (u1 * base h + u0) < base h * (base h * base h) :=
        Nat.mul_lt_mul_of_pos_left (two_lt (h := h) (a := (u1, u0)) hu1 hu0) hB
      have b : base h * (base h * base h) = base h ^ 3 := by ring
      omega
    have ne := not_dvd_cube (c := base h + m - 1) hu1 hn hu0 h0
    have dec : (base h + m - 1) * (u1 * base h + u0) + (u1 * base h + u0)
        = (base h + m) * (u1 * base h + u0) := by
      have : (base h + m - 1) * (u1 * base h + u0) + 1 * (u1 * base h + u0)
        = (base h + m) * (u1 * base h + u0) := by rw [← Nat.add_mul]; congr 1; omega
      omega
    -- the second correction fires exactly when it should
    have up : r * base h + t0 < u0 * m := by
      rw [← t]
      have : (r + 1) * base h ≤ t1 * base h := Nat.mul_le_mul_right _ h1
      rw [Nat.add_mul] at this; omega
    have up2 : u0 * m < base h * base h := Nat.mul_lt_mul'' hu0 hm
    have cond : (decide (u1 < r) || (decide (r = u1) && decide (u0 < t0))) = true
        ↔ u1 * base h + u0 < r * base h + t0 := by
      rw [Bool.or_eq_true, Bool.and_eq_true, decide_eq_true_eq, decide_eq_true_eq, decide_eq_true_eq]
      rcases Nat.lt_trichotomy r u1 with hl | hl | hl
      · have : (r + 1) * base h ≤ u1 * base h := Nat.mul_le_mul_right _ hl
        rw [Nat.add_mul] at this
        constructor
        · rintro (h | ⟨h, _⟩) <;> omega
        · intro; omega
      · rw [hl]
        constructor
        · rintro (h | ⟨_, h⟩) <;> omega
        · intro; right; exact ⟨rfl, by omega⟩
      · have : (u1 + 1) * base h ≤ r * base h := Nat.mul_le_mul_right _ hl
        rw [Nat.add_mul] at this
        constructor
        · intro; omega
        · intro; left; exact hl
    generalize hdd : u1 * base h + u0 = d at *
    by_cases h2 : d < r * base h + t0
    · have hf : flag (decide (u1 < r) || (decide (r = u1) && decide (u0 < t0))) = 1 := by
        unfold flag; rw [if_pos (cond.2 h2)]
      rw [hf, wsub_exact hm m1]
      have m2 : 2 ≤ m := by
        by_contra hx
        have hz : m = 1 := by omega
        have a : base h * d < base h * (base h * base h) :=
          Nat.mul_lt_mul_of_pos_left (by rw [← hdd]; exact two_lt (h := h) (a := (u1, u0)) hu1 hu0) hB
        have b : base h * (base h * base h) = base h ^ 3 := by ring
        rw [hz] at main2
        rw [hz, Nat.add_sub_cancel] at dec
        omega
      rw [wsub_exact (by omega) (by omega)]
      have dec2 : (base h + (m - 1 - 1)) * d + d = (base h + m - 1) * d := by
        have : (base h + (m - 1 - 1)) * d + 1 * d = (base h + m - 1) * d := by
          rw [← Nat.add_mul]; congr 1; omega
        omega
      exact ⟨_, rfl, by omega, by omega, by omega⟩
    · have hf : flag (decide (u1 < r) || (decide (r = u1) && decide (u0 < t0))) = 0 := by
        unfold flag; rw [if_neg (fun hx => h2 (cond.1 hx))]
      rw [hf, wsub_exact hm m1, wsub_exact (by omega) (by omega)]
      have em : base h + (m - 1 - 0) = base h + m - 1 := by omega
      exact ⟨_, rfl, by omega, by rw [em]; omega, by rw [em]; omega⟩
  · rw [if_neg h1]
    rw [if_neg (by simpa using h1)] at c
    have c' : r = p + t1 := by omega
    refine ⟨m, rfl, hm, ?_, ?_⟩
    · have : base h * (p + t1 + 1) ≤ base h * base h := Nat.mul_le_mul_left _ (by omega)
      rw [Nat.mul_add] at this
      omega
    · have a : base h * base h ≤ base h * (p + u1) := Nat.mul_le_mul_left _ hpl
      rw [Nat.mul_add] at a
      have b : base h * (p + t1) = base h * p + base h * t1 := by ring
      have cc : base h * u1 = u1 * base h := Nat.mul_comm _ _
      omega

/-- mpn_invert_3by2 computes the 3/2 inverse, wherever `unsigned` is wider than half a limb. -/
theorem invert3by2_spec {h u u1 u0 : Nat} (hh : 1 ≤ h) (hu : h < u) (hu1 : u1 < base h)
    (hu0 : u0 < base h) (hn : base h ≤ 2 * u1) :
    ∃ v, invert3by2 h u u1 u0 = some v ∧ v < base h
      ∧ v + base h = (base h ^ 3 - 1) / (u1 * base h + u0) := by
  have hB := base_pos h
  obtain ⟨m, s, e1, hm, hs, em⟩ := invert1_spec hh hu hu1 hn
  unfold invert3by2
  rw [if_neg (by omega), e1]
  by_cases h0 : 0 < u0
  · rw [if_pos h0]
    obtain ⟨m', p, e2, hm', hp, hpl, ep⟩ := refineLow_spec hu1 hn hu0 h0 hm hs em
    rw [e2]
    obtain ⟨v, e3, hv, l1, l2⟩ := refineProduct_spec (by omega : h ≤ u) hu1 hn hu0 h0 hm' hp hpl ep
    rw [e3]
    refine ⟨v, rfl, hv, ?_⟩
    symm
    rw [Nat.add_comm v]
    apply Nat.div_eq_of_lt_le
    · omega
    · have : 0 < base h ^ 3 := Nat.pow_pos hB
      rw [Nat.add_mul, Nat.one_mul]; omega
  · rw [if_neg h0]
    have hz : u0 = 0 := by omega
    refine ⟨m, rfl, hm, ?_⟩
    symm
    rw [Nat.add_comm m, hz, Nat.add_zero]
    have e3 : base h ^ 3 = (base h + m) * (u1 * base h) + (s * base h + base h) := by
      have : base h ^ 3 = base h * base h * base h := by ring
      rw [this, ← em]; ring
    apply Nat.div_eq_of_lt_le
    · omega
    · have : (s + 1) * base h ≤ u1 * base h := Nat.mul_le_mul_right _ hs
      rw [Nat.add_mul] at this
      rw [Nat.add_mul (base h + m) 1, Nat.one_mul]; omega

end Verif.Gmp
