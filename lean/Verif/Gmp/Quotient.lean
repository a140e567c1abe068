/-
Why a quotient guessed with a 3/2 inverse is off by at most one either way, and how the low limbs
tell (the argument of Möller and Granlund, "Improved division by invariant integers", which
mini-gmp relies on without proof).  `β` is any base: mini-gmp uses the same step with half limbs
and with whole limbs.
-/
import Mathlib.Tactic.Linarith
import Mathlib.Tactic.Ring
import Mathlib.Tactic.LinearCombination
import Mathlib.Tactic.Zify

namespace Verif.Gmp

theorem mod_cancel {a b c n : Nat} (hh : (a + c) % n = (b + c) % n) : a % n = b % n := by
  have h2 : ((a : ℤ) + c) % n = ((b : ℤ) + c) % n := by exact_mod_cast hh
  have h3 : (a : ℤ) % n = (b : ℤ) % n := Int.emod_add_cancel_right (c : ℤ) |>.1 h2
  exact_mod_cast h3

/-- The bound on the part of the remainder that comes from the three limbs. -/
theorem part_lt {β d d1 d0 v k u2 u1 u0 : ℤ} (hd : d = d1 * β + d0) (h0 : 0 ≤ d0)
    (h0' : d0 < β) (h1 : 0 ≤ d1) (h1' : d1 < β) (hv : 0 ≤ v) (hk : k = β ^ 3 - (β + v) * d)
    (hk1 : 1 ≤ k) (hk2 : k ≤ d) (g2 : 0 ≤ u2) (g1 : 0 ≤ u1) (g1' : u1 < β) (g0' : u0 < β)
    (hu : u2 * β + u1 < d) :
    β * (u2 * k + u1 * (β ^ 2 - d) + u0 * β) < β ^ 2 * (β ^ 2 - d) + d ^ 2 := by
  have hβ : 0 < β := by omega
  have hdlt : d < β ^ 2 := by
    have : (d1 + 1) * β ≤ β * β := mul_le_mul_of_nonneg_right (by omega) hβ.le
    linarith
  have hd0 : 0 < d := by
    have : 0 ≤ u2 * β := mul_nonneg g2 hβ.le
    omega
  have hu2 : u2 ≤ d1 := by
    by_contra hh
    have : (d1 + 1) * β ≤ u2 * β := mul_le_mul_of_nonneg_right (by omega) hβ.le
    linarith
  obtain ⟨δ, hδ⟩ : ∃ δ, δ = β ^ 2 - d := ⟨_, rfl⟩
  rw [← hδ]
  have hδ1 : 0 ≤ δ := by omega
  have b0 : u0 * β ≤ (β - 1) * β := mul_le_mul_of_nonneg_right (by omega) hβ.le
  have p2 : 0 < β ^ 2 := by omega
  have ck : u2 * k ≤ u2 * d := mul_le_mul_of_nonneg_left hk2 g2
  rcases Int.lt_or_le u2 d1 with hlt | hge
  · have b2 : u2 * d ≤ (d1 - 1) * d := mul_le_mul_of_nonneg_right (by omega) hd0.le
    have b1 : u1 * δ ≤ (β - 1) * δ := mul_le_mul_of_nonneg_right (by omega) hδ1
    have s : u2 * k + u1 * δ + u0 * β ≤ d1 * d + β * δ - β := by linarith
    have s2 : β * (u2 * k + u1 * δ + u0 * β) ≤ β * (d1 * d + β * δ - β) :=
      mul_le_mul_of_nonneg_left s hβ.le
    have s3 : d1 * β * d ≤ d * d := mul_le_mul_of_nonneg_right (by omega) hd0.le
    linarith
  · have he : u2 = d1 := by omega
    subst he
    rcases Int.lt_or_le (β * δ) d with hs | hs
    · -- the inverse does not help, but the limbs are small
      have e : u2 * k + u1 * δ = δ * (u2 * β + u1) - v * d * u2 := by
        rw [hk, hδ]; ring
      have n1 : 0 ≤ v * d * u2 := mul_nonneg (mul_nonneg hv hd0.le) g2
      have n2 : δ * (u2 * β + u1) ≤ δ * (d - 1) := mul_le_mul_of_nonneg_left (by omega) hδ1
      have s : u2 * k + u1 * δ + u0 * β ≤ δ * (d - 1) + (β - 1) * β := by linarith
      have s2 : β * (u2 * k + u1 * δ + u0 * β) ≤ β * (δ * (d - 1) + (β - 1) * β) :=
        mul_le_mul_of_nonneg_left s hβ.le
      have hδβ : δ ≤ β - 1 := by
        by_contra hh
        have : β * β ≤ β * δ := mul_le_mul_of_nonneg_left (by omega) hβ.le
        linarith
      have hdd : d = β ^ 2 - δ := by omega
      obtain ⟨t, ht⟩ : ∃ t, t = β - 1 - δ := ⟨_, rfl⟩
      have ht0 : 0 ≤ t := by omega
      have hδt : δ = β - 1 - t := by omega
      have id : β ^ 2 * δ + d ^ 2 - β * (δ * (d - 1) + (β - 1) * β)
          = t * (β ^ 2 * (β - 1)) + β ^ 2 + β * t + β * t ^ 2 + δ ^ 2 := by
        rw [hdd, hδt]; ring
      have p1 : 0 ≤ t * (β ^ 2 * (β - 1)) := mul_nonneg ht0 (mul_nonneg p2.le (by omega))
      have p3 : 0 ≤ β * t := mul_nonneg hβ.le ht0
      have p4 : 0 ≤ β * t ^ 2 := mul_nonneg hβ.le (sq_nonneg t)
      have p5 : 0 ≤ δ ^ 2 := sq_nonneg δ
      linarith
    · have b1 : u1 * δ ≤ (d0 - 1) * δ := mul_le_mul_of_nonneg_right (by omega) hδ1
      have s : u2 * k + u1 * δ + u0 * β ≤ u2 * d + d0 * δ + d - β := by linarith
      have s2 : β * (u2 * k + u1 * δ + u0 * β) ≤ β * (u2 * d + d0 * δ + d - β) :=
        mul_le_mul_of_nonneg_left s hβ.le
      have p : 0 ≤ (β - d0) * (β * δ - d) := mul_nonneg (by omega) (by omega)
      have id : β ^ 2 * δ + d ^ 2 - β * (u2 * d + d0 * δ + d - β)
          = (β - d0) * (β * δ - d) + β ^ 2 + (d - u2 * β - d0) * d := by ring
      have z : d - u2 * β - d0 = 0 := by omega
      rw [z] at id
      linarith

/-- The remainder of the guess: where it can lie. -/
theorem guess_bounds {β d d1 d0 v k u2 u1 u0 q1 q0 : ℤ} (hd : d = d1 * β + d0) (h0 : 0 ≤ d0)
    (h0' : d0 < β) (h1 : 0 ≤ d1) (h1' : d1 < β) (hv : 0 ≤ v) (hk : k = β ^ 3 - (β + v) * d)
    (hk1 : 1 ≤ k) (hk2 : k ≤ d) (g2 : 0 ≤ u2) (g1 : 0 ≤ u1) (g1' : u1 < β) (g0 : 0 ≤ u0)
    (g0' : u0 < β) (hu : u2 * β + u1 < d) (hq : q1 * β + q0 = (β + v) * u2 + u1) (q0n : 0 ≤ q0)
    (q0l : q0 < β) :
    -d ≤ u2 * β ^ 2 + u1 * β + u0 - (q1 + 1) * d
    ∧ q0 * β - β ^ 2 ≤ u2 * β ^ 2 + u1 * β + u0 - (q1 + 1) * d
    ∧ (u2 * β ^ 2 + u1 * β + u0 - (q1 + 1) * d < β ^ 2 - d
      ∨ u2 * β ^ 2 + u1 * β + u0 - (q1 + 1) * d < q0 * β) := by
  have hβ : 0 < β := by omega
  have hdlt : d < β ^ 2 := by
    have : (d1 + 1) * β ≤ β * β := mul_le_mul_of_nonneg_right (by omega) hβ.le
    linarith
  have part := part_lt hd h0 h0' h1 h1' hv hk hk1 hk2 g2 g1 g1' g0' hu
  have key : β * (u2 * β ^ 2 + u1 * β + u0 - (q1 + 1) * d)
      = u2 * k + u1 * (β ^ 2 - d) + u0 * β + q0 * d - β * d := by
    rw [hk]; linear_combination -d * hq
  generalize u2 * β ^ 2 + u1 * β + u0 - (q1 + 1) * d = r at *
  have n1 : 0 ≤ u2 * k := mul_nonneg g2 (by omega)
  have n2 : 0 ≤ u1 * (β ^ 2 - d) := mul_nonneg g1 (by omega)
  have n3 : 0 ≤ u0 * β := mul_nonneg g0 hβ.le
  have hd0 : 0 ≤ d := by omega
  have n4 : 0 ≤ q0 * d := mul_nonneg q0n hd0
  refine ⟨?_, ?_, ?_⟩
  · by_contra hh
    have : β * (r + d) < 0 := mul_neg_of_pos_of_neg hβ (by omega)
    linarith
  · by_contra hh
    have p : 0 ≤ (β - q0) * (β ^ 2 - d) := mul_nonneg (by omega) (by omega)
    have : β * (r - q0 * β + β ^ 2) < 0 := mul_neg_of_pos_of_neg hβ (by omega)
    linarith
  · by_contra hh
    have a1 : β ^ 2 - d ≤ r := by omega
    have a2 : q0 * β ≤ r := by omega
    have c1 : (β ^ 2 - d) * (β ^ 2 - d) ≤ (β ^ 2 - d) * r := mul_le_mul_of_nonneg_left a1 (by omega)
    have c2 : d * (q0 * β) ≤ d * r := mul_le_mul_of_nonneg_left a2 hd0
    have c3 : β * (β * r) = β * (u2 * k + u1 * (β ^ 2 - d) + u0 * β + q0 * d - β * d) := by rw [key]
    generalize u2 * k + u1 * (β ^ 2 - d) + u0 * β = S at *
    linarith

/-- The whole 3/2 step on numbers: from the guess `q1`, its low limb `q0` and the remainder of
`q1 + 1` taken modulo `β²`, the two conditional corrections give quotient and remainder. -/
theorem three_by_two {β d d1 d0 v u2 u1 u0 q1 q0 : Nat} (hd : d = d1 * β + d0)
    (h0' : d0 < β) (h1' : d1 < β) (hn : β ≤ 2 * d1) (hv : v + β = (β ^ 3 - 1) / d)
    (g1' : u1 < β) (g0' : u0 < β) (hu : u2 * β + u1 < d)
    (hq : q1 * β + q0 = (β + v) * u2 + u1) (q0l : q0 < β) :
    ∃ (q r : Nat), u2 * β ^ 2 + u1 * β + u0 = q * d + r ∧ r < d ∧
      -- the guess was one too large: the wrapped remainder shows it
      ((q = q1 ∧ ∀ w, w < β ^ 2 → (w + (q1 + 1) * d) % β ^ 2 = (u2 * β ^ 2 + u1 * β + u0) % β ^ 2 →
          q0 * β ≤ w ∧ (w + d) % β ^ 2 = r)
      -- exact, although the test may already have taken one off
      ∨ (q = q1 + 1 ∧ ∀ w, w < β ^ 2 → (w + (q1 + 1) * d) % β ^ 2 = (u2 * β ^ 2 + u1 * β + u0) % β ^ 2 →
          w = r ∧ (q0 * β ≤ w → r + d < β ^ 2))
      -- one too small, and the test does not fire
      ∨ (q = q1 + 2 ∧ ∀ w, w < β ^ 2 → (w + (q1 + 1) * d) % β ^ 2 = (u2 * β ^ 2 + u1 * β + u0) % β ^ 2 →
          w = r + d ∧ w < q0 * β)) := by
  have hβ : 0 < β := by omega
  have hdp : 0 < d := by omega
  have hd2 : d < β ^ 2 := by
    rw [hd, Nat.pow_two]
    have : (d1 + 1) * β ≤ β * β := Nat.mul_le_mul_right _ h1'
    rw [Nat.add_mul] at this; omega
  have hd3 : β ^ 2 ≤ 2 * d := by
    rw [hd, Nat.pow_two]
    have : β * β ≤ 2 * d1 * β := Nat.mul_le_mul_right _ hn
    have e : 2 * d1 * β = 2 * (d1 * β) := by ring
    omega
  have dm := Nat.div_add_mod (β ^ 3 - 1) d
  have ml := Nat.mod_lt (β ^ 3 - 1) hdp
  rw [← hv] at dm
  have h3 : 0 < β ^ 3 := Nat.pow_pos hβ
  have hk : (((β ^ 3 - 1) % d + 1 : Nat) : ℤ) = (β : ℤ) ^ 3 - ((β : ℤ) + v) * d := by
    have : d * (v + β) + ((β ^ 3 - 1) % d + 1) = β ^ 3 := by omega
    have := congrArg (Nat.cast (R := ℤ)) this
    push_cast at this ⊢
    linear_combination this
  have B := guess_bounds (β := β) (d := d) (d1 := d1) (d0 := d0) (v := v)
    (k := (((β ^ 3 - 1) % d + 1 : Nat) : ℤ)) (u2 := u2) (u1 := u1) (u0 := u0) (q1 := q1) (q0 := q0)
    (by rw [hd]; push_cast; ring) (by omega) (by omega) (by omega) (by omega) (by omega) hk
    (by omega) (by omega) (by omega) (by omega) (by omega) (by omega) (by omega)
    (by exact_mod_cast hu) (by exact_mod_cast hq) (by omega) (by omega)
  obtain ⟨b1, b2, b3⟩ := B
  generalize hN : u2 * β ^ 2 + u1 * β + u0 = N at *
  have hNz : (u2 : ℤ) * (β : ℤ) ^ 2 + u1 * β + u0 = N := by rw [← hN]; push_cast; ring
  rw [hNz] at b1 b2 b3
  have hP : ((q1 : ℤ) + 1) * d = ((q1 + 1) * d : Nat) := by push_cast; ring
  rw [hP] at b1 b2 b3
  have hqb : (q0 : ℤ) * β = (q0 * β : Nat) := by push_cast; ring
  have hb2 : (β : ℤ) ^ 2 = (β ^ 2 : Nat) := by push_cast; ring
  rw [hqb, hb2] at b2
  rw [hqb, hb2] at b3
  have hqlt : q0 * β < β ^ 2 := by rw [Nat.pow_two]; exact Nat.mul_lt_mul_of_pos_right q0l hβ
  generalize hT : β ^ 2 = T at *
  have e0 : q1 * d + d = (q1 + 1) * d := by ring
  have e2 : (q1 + 2) * d = (q1 + 1) * d + d := by ring
  generalize hPd : (q1 + 1) * d = P at *
  generalize q0 * β = Z at *
  have wrap : ∀ w, w < T → (w + P) % T = N % T → (w = N - P ∧ P ≤ N) ∨ (w + P = N + T ∧ N < P) := by
    intro w hw hm
    have hNP : N < P + T := by omega
    have hPN : P < N + T := by omega
    have a := Nat.div_add_mod (w + P) T
    have b := Nat.div_add_mod N T
    rw [hm] at a
    -- w + P - N is a multiple of T between -T and 2T
    rcases Nat.le_total P N with hle | hle
    · left
      refine ⟨?_, hle⟩
      have hwz : w % T = (N - P) % T := by
        have : (w + P) % T = (N - P + P) % T := by rw [hm]; congr 1; omega
        exact mod_cancel this
      rwa [Nat.mod_eq_of_lt hw, Nat.mod_eq_of_lt (by omega)] at hwz
    · rcases Nat.eq_or_lt_of_le hle with heq | hlt
      · left
        have hwz : w % T = (N - P) % T := by
          have : (w + P) % T = (N - P + P) % T := by rw [hm]; congr 1; omega
          exact mod_cancel this
        rw [Nat.mod_eq_of_lt hw, Nat.mod_eq_of_lt (by omega)] at hwz
        exact ⟨hwz, by omega⟩
      · right
        refine ⟨?_, hlt⟩
        have hwz : w % T = (N + T - P) % T := by
          have : (w + P) % T = (N + T - P + P) % T := by
            rw [hm, show N + T - P + P = N + T by omega, Nat.add_mod_right]
          exact mod_cancel this
        rw [Nat.mod_eq_of_lt hw, Nat.mod_eq_of_lt (by omega)] at hwz
        omega
  rcases Nat.lt_or_ge N P with hneg | hpos
  · -- negative
    refine ⟨q1, N + d - P, by omega, by omega, Or.inl ⟨rfl, ?_⟩⟩
    intro w hw hm
    rcases wrap w hw hm with ⟨_, hh⟩ | ⟨hh, _⟩
    · omega
    · refine ⟨by omega, ?_⟩
      rw [show w + d = (N + d - P) + T by omega, Nat.add_mod_right, Nat.mod_eq_of_lt (by omega)]
  · rcases Nat.lt_or_ge (N - P) d with hlt | hge
    · refine ⟨q1 + 1, N - P, by rw [hPd]; omega, hlt, Or.inr (Or.inl ⟨rfl, ?_⟩)⟩
      intro w hw hm
      rcases wrap w hw hm with ⟨hh, _⟩ | ⟨_, hh⟩
      · exact ⟨hh, by omega⟩
      · omega
    · refine ⟨q1 + 2, N - P - d, by rw [e2]; omega, by omega, Or.inr (Or.inr ⟨rfl, ?_⟩)⟩
      intro w hw hm
      rcases wrap w hw hm with ⟨hh, _⟩ | ⟨_, hh⟩
      · exact ⟨by omega, by omega⟩
      · omega

end Verif.Gmp
