import Verif.Shutter.Outputs
/-!
# Frame lemmas and arithmetic of the position
-/

namespace Verif.Shutter

theorem stopMovement_eq (t : Nat) (s : RS) : ∃ l, stopMovement t s =
    { s with dir := .stop, pause := clk t, upOn := false, downOn := false, log := l } := by
  by_cases h : s.motor = 2 <;>
    simp [stopMovement, switchOff, relayUp, relayDown, write, RS.upPin, RS.downPin, h]

theorem startOpening_eq (t : Nat) (s : RS) : ∃ a b l, startOpening t s =
    { s with dir := .up, started := clk t, upOn := a, downOn := b, log := l } := by
  by_cases h : s.motor = 2 <;>
    simp [startOpening, relayUp, relayDown, write, RS.upPin, RS.downPin, h]

theorem startClosing_eq (t : Nat) (s : RS) : ∃ a b l, startClosing t s =
    { s with dir := .down, started := clk t, upOn := a, downOn := b, log := l } := by
  by_cases h : s.motor = 2 <;>
    simp [startClosing, relayUp, relayDown, write, RS.upPin, RS.downPin, h]

/-! ## Floating point -/

/-- The time for a distance of 0 to 100 percent. -/
theorem required_eq {time req : Nat} {d : Int} (h0 : 0 ≤ d) (h : required time d = some req) :
    req = time * d.toNat / 100 := by
  obtain ⟨n, rfl⟩ := Int.eq_ofNat_of_zero_le h0
  unfold required at h
  split at h
  · cases h
  · split at h
    · cases h
    · injection h with h
      rw [← h]
      simp only [Int.toNat_natCast]
      have : ((time : Int) * (n : Int) / 100) = ((time * n / 100 : Nat) : Int) := by
        rw [Int.natCast_ediv, Int.natCast_mul]; rfl
      rw [this, Int.toNat_natCast]

theorem rat_div_nonneg {a b : Nat} : (0 : Rat) ≤ (a : Rat) / (b : Rat) := by
  rw [Rat.div_def]
  refine Rat.mul_nonneg (by exact_mod_cast Nat.zero_le a) ?_
  by_cases hb : b = 0
  · subst hb; decide +kernel
  · have hpos : (0 : Rat) < (b : Rat) := by exact_mod_cast Nat.pos_of_ne_zero hb
    have h1 : (b : Rat) * (b : Rat)⁻¹ = 1 := Rat.mul_inv_cancel _ (by grind)
    rcases Rat.le_total (a := 0) (b := (b : Rat)⁻¹) with h | h
    · exact h
    · have := Rat.mul_le_mul_of_nonneg_left h (Rat.le_of_lt hpos)
      rw [h1] at this
      grind

theorem rat_div_mono {a a' b : Nat} (h : a ≤ a') : (a : Rat) / (b : Rat) ≤ (a' : Rat) / (b : Rat) := by
  rw [Rat.div_def, Rat.div_def]
  refine Rat.mul_le_mul_of_nonneg_right (by exact_mod_cast h) ?_
  have := rat_div_nonneg (a := 1) (b := b)
  rw [Rat.div_def] at this
  have h1 : ((1 : Nat) : Rat) = 1 := rfl
  rw [h1, Rat.one_mul] at this
  exact this

theorem rat_div_ge_one {a b : Nat} (hb : b ≠ 0) (h : b ≤ a) : (1 : Rat) ≤ (a : Rat) / (b : Rat) := by
  have h1 := rat_div_mono (b := b) h
  have hpos : (0 : Rat) < (b : Rat) := by exact_mod_cast Nat.pos_of_ne_zero hb
  rw [Rat.div_def (b : Rat), Rat.mul_inv_cancel _ (by grind)] at h1
  exact h1

theorem Rounding.zero (R : Rounding) : R.rnd 0 = 0 := R.int 0 (by decide)
theorem Rounding.one (R : Rounding) : R.rnd 1 = 1 := R.int 1 (by decide)

theorem fraction_range {F : Fp} {e r : Nat} {f : Rat} (h : fraction F e r = some f) : 0 ≤ f ∧ f ≤ 1 := by
  unfold fraction at h
  split at h
  · split at h
    · cases h
    · injection h with h; subst h; exact ⟨by decide, by decide⟩
  · simp only [] at h
    injection h with h
    subst h
    have h1 := F.f64.mono _ _ (rat_div_nonneg (a := e) (b := r))
    have h2 := F.f32.mono _ _ h1
    rw [Rounding.zero, Rounding.zero] at h2
    split
    · exact ⟨by decide, by decide⟩
    · exact ⟨h2, by grind⟩

theorem fraction_mono {F : Fp} {e e' r : Nat} {f f' : Rat} (he : e ≤ e') (h : fraction F e r = some f)
    (h' : fraction F e' r = some f') : f ≤ f' := by
  have hr := fraction_range h
  have hr' := fraction_range h'
  unfold fraction at h h'
  split at h
  · rename_i h0
    rw [if_pos h0] at h'
    split at h
    · cases h
    · rw [if_neg (by omega)] at h'
      injection h with h; injection h' with h'
      subst h; subst h'
      exact hr.2
  · rename_i h0
    rw [if_neg h0] at h'
    simp only [] at h h'
    injection h with h; injection h' with h'
    have h2 := F.f32.mono _ _ (F.f64.mono _ _ (rat_div_mono (b := r) he))
    generalize F.f32.rnd (F.f64.rnd ((e : Rat) / r)) = x at *
    generalize F.f32.rnd (F.f64.rnd ((e' : Rat) / r)) = x' at *
    subst h; subst h'
    split <;> split <;> grind

theorem fraction_done {F : Fp} {e r : Nat} {f : Rat} (he : r ≤ e) (h : fraction F e r = some f) :
    f = 1 := by
  unfold fraction at h
  split at h
  · split at h
    · cases h
    · injection h with h; exact h.symm
  · rename_i h0
    simp only [] at h
    injection h with h
    have h2 := F.f32.mono _ _ (F.f64.mono _ _ (rat_div_ge_one h0 he))
    rw [Rounding.one, Rounding.one] at h2
    generalize F.f32.rnd (F.f64.rnd ((e : Rat) / r)) = x at *
    subst h
    split <;> grind

theorem trunc_int (n : Int) : trunc (n : Rat) = n := by
  unfold trunc
  split
  · exact Rat.floor_intCast n
  · have : (-(n : Rat)) = ((-n : Int) : Rat) := by simp
    rw [this, Rat.floor_intCast]; omega

theorem trunc_mono_nonneg {x y : Rat} (h0 : 0 ≤ x) (h : x ≤ y) : trunc x ≤ trunc y := by
  unfold trunc
  rw [if_pos h0, if_pos (by grind)]
  exact Rat.floor_monotone h

/-- `rnd (n * f)` for `f` in [0, 1]. -/
theorem rnd_mul_range {R : Rounding} {n : Int} {f : Rat} (hn : 0 ≤ n) (hn' : n ≤ 1000) (h0 : 0 ≤ f) (h1 : f ≤ 1) :
    0 ≤ R.rnd ((n : Rat) * f) ∧ R.rnd ((n : Rat) * f) ≤ n := by
  have hn0 : (0 : Rat) ≤ (n : Rat) := by exact_mod_cast hn
  have ha : (0 : Rat) ≤ (n : Rat) * f := Rat.mul_nonneg hn0 h0
  have hb : (n : Rat) * f ≤ n := by
    have := Rat.mul_le_mul_of_nonneg_left h1 hn0
    rwa [Rat.mul_one] at this
  have h1 := R.mono _ _ ha
  have h2 := R.mono _ _ hb
  rw [Rounding.zero] at h1
  rw [R.int n (by omega)] at h2
  exact ⟨h1, h2⟩

theorem rnd_mul_mono {R : Rounding} {n : Int} {f f' : Rat} (hn : 0 ≤ n) (h : f ≤ f') :
    R.rnd ((n : Rat) * f) ≤ R.rnd ((n : Rat) * f') :=
  R.mono _ _ (Rat.mul_le_mul_of_nonneg_left h (by exact_mod_cast hn))

/-- `trunc (rnd x)` for `x` between two small integers. -/
theorem trunc_rnd_range {R : Rounding} {x : Rat} {a b : Int} (ha : 0 ≤ a) (hb : b ≤ 1000)
    (h1 : (a : Rat) ≤ x) (h2 : x ≤ (b : Rat)) : a ≤ trunc (R.rnd x) ∧ trunc (R.rnd x) ≤ b := by
  have hab : a ≤ b := by
    have : (a : Rat) ≤ (b : Rat) := by grind
    exact_mod_cast this
  have r1 := R.mono _ _ h1
  have r2 := R.mono _ _ h2
  rw [R.int a (by omega)] at r1
  rw [R.int b (by omega)] at r2
  have ha0 : (0 : Rat) ≤ (a : Rat) := by exact_mod_cast ha
  have t1 := trunc_mono_nonneg ha0 r1
  have t2 := trunc_mono_nonneg (by grind) r2
  rw [trunc_int] at t1 t2
  exact ⟨t1, t2⟩

theorem bind3 {F : Fp} {time : Nat} {d : Int} {e : Nat} {g : Rat → Int} {p : Int}
    (h : (do let req ← required time d; let f ← fraction F e req; some (g f)) = some p) :
    ∃ req f, required time d = some req ∧ fraction F e req = some f ∧ g f = p := by
  cases hr : required time d with
  | none => rw [hr] at h; cases h
  | some r =>
    rw [hr] at h
    cases hf : fraction F e r with
    | none => simp only [Option.bind_eq_bind, Option.bind_some, hf] at h; cases h
    | some f =>
      simp only [Option.bind_eq_bind, Option.bind_some, hf] at h
      injection h with h
      exact ⟨r, f, rfl, hf, h⟩

theorem posUp_range {F : Fp} {o : Nat} {a : Int} {e : Nat} {p : Int} (h0 : 0 ≤ a) (h1 : a ≤ 100)
    (h : posUp F o a e = some p) : 0 ≤ p ∧ p ≤ a := by
  obtain ⟨r, f, _, hf, rfl⟩ := bind3 h
  have hr := fraction_range hf
  have hm := rnd_mul_range (R := F.f32) h0 (by omega) hr.1 hr.2
  refine trunc_rnd_range (by omega) (by omega) ?_ ?_
  · have : ((0 : Int) : Rat) = 0 := rfl
    grind
  · grind

theorem posUp_mono {F : Fp} {o : Nat} {a : Int} {e e' : Nat} {p p' : Int} (h0 : 0 ≤ a) (h1 : a ≤ 100)
    (he : e ≤ e') (h : posUp F o a e = some p) (h' : posUp F o a e' = some p') : p' ≤ p := by
  obtain ⟨r, f, hr, hf, rfl⟩ := bind3 h
  obtain ⟨r', f', hr', hf', rfl⟩ := bind3 h'
  rw [hr] at hr'
  cases hr'
  have hff := fraction_mono he hf hf'
  have hrange := fraction_range hf'
  have hm := rnd_mul_range (R := F.f32) h0 (by omega) hrange.1 hrange.2
  have hmm := rnd_mul_mono (R := F.f32) h0 hff
  refine trunc_mono_nonneg ?_ (F.f32.mono _ _ (by grind))
  have := F.f32.mono 0 ((a : Rat) - F.f32.rnd ((a : Rat) * f')) (by grind)
  rwa [Rounding.zero] at this

theorem posUp_done {F : Fp} {o : Nat} {a : Int} {e : Nat} {p : Int} (h0 : 0 ≤ a) (h1 : a ≤ 100)
    (he : o * a.toNat / 100 ≤ e) (h : posUp F o a e = some p) : p = 0 := by
  obtain ⟨r, f, hr, hf, rfl⟩ := bind3 h
  rw [required_eq h0 hr] at hf
  have := fraction_done he hf
  subst this
  rw [Rat.mul_one, F.f32.int a (by omega)]
  have : (a : Rat) - a = ((0 : Int) : Rat) := by
    have : ((0 : Int) : Rat) = 0 := rfl
    grind
  rw [this, F.f32.int 0 (by omega), trunc_int]

theorem posDown_range {F : Fp} {c : Nat} {a : Int} {e : Nat} {p : Int} (h0 : 0 ≤ a) (h1 : a ≤ 100)
    (h : posDown F c a e = some p) : a ≤ p ∧ p ≤ 100 := by
  obtain ⟨r, f, _, hf, rfl⟩ := bind3 h
  have hr := fraction_range hf
  have hm := rnd_mul_range (R := F.f32) (n := 100 - a) (by omega) (by omega) hr.1 hr.2
  have hc : ((100 - a : Int) : Rat) = 100 - (a : Rat) := by simp [Rat.intCast_sub]
  refine trunc_rnd_range (by omega) (by omega) ?_ ?_
  · grind
  · have : ((100 : Int) : Rat) = 100 := rfl
    grind

theorem posDown_mono {F : Fp} {c : Nat} {a : Int} {e e' : Nat} {p p' : Int} (h0 : 0 ≤ a) (h1 : a ≤ 100)
    (he : e ≤ e') (h : posDown F c a e = some p) (h' : posDown F c a e' = some p') : p ≤ p' := by
  obtain ⟨r, f, hr, hf, rfl⟩ := bind3 h
  obtain ⟨r', f', hr', hf', rfl⟩ := bind3 h'
  rw [hr] at hr'
  cases hr'
  have hff := fraction_mono he hf hf'
  have hrange := fraction_range hf
  have hm := rnd_mul_range (R := F.f32) (n := 100 - a) (by omega) (by omega) hrange.1 hrange.2
  have hmm := rnd_mul_mono (R := F.f32) (n := 100 - a) (by omega) hff
  have ha0 : (0 : Rat) ≤ (a : Rat) := by exact_mod_cast h0
  refine trunc_mono_nonneg ?_ (F.f32.mono _ _ (by grind))
  have := F.f32.mono 0 ((a : Rat) + F.f32.rnd (((100 - a : Int) : Rat) * f)) (by grind)
  rwa [Rounding.zero] at this

theorem posDown_done {F : Fp} {c : Nat} {a : Int} {e : Nat} {p : Int} (h0 : 0 ≤ a) (h1 : a ≤ 100)
    (he : c * (100 - a).toNat / 100 ≤ e) (h : posDown F c a e = some p) : p = 100 := by
  obtain ⟨r, f, hr, hf, rfl⟩ := bind3 h
  rw [required_eq (by omega) hr] at hf
  have := fraction_done he hf
  subst this
  rw [Rat.mul_one, F.f32.int (100 - a) (by omega)]
  have hc : ((100 - a : Int) : Rat) = 100 - (a : Rat) := by simp [Rat.intCast_sub]
  have : (a : Rat) + ((100 - a : Int) : Rat) = ((100 : Int) : Rat) := by
    have : ((100 : Int) : Rat) = 100 := rfl
    grind
  rw [this, F.f32.int 100 (by omega), trunc_int]

theorem marginValue_le {F : Fp} {m : Int} {full x T : Nat} (hm : m ≤ 101) (hT : T ≤ 2 ^ 24)
    (hf : full ≤ T) (h : marginValue F m full = some x) : x ≤ T + 60000 := by
  unfold marginValue at h
  split at h
  · injection h with h; rw [← h]; unfold defaultTimeout; omega
  · split at h
    · injection h with h; omega
    · split at h
      · injection h with h; omega
      · rename_i h1 h2 h3
        simp only [] at h
        have hk : (((m - 1 : Int) : Rat) / 100) ≤ 1 ∧ 0 ≤ (((m - 1 : Int) : Rat) / 100) := by
          obtain ⟨k, hk⟩ := Int.eq_ofNat_of_zero_le (show 0 ≤ m - 1 by omega)
          rw [hk]
          have h100 : (100 : Rat) = ((100 : Nat) : Rat) := rfl
          refine ⟨?_, ?_⟩
          · have := rat_div_mono (a := k) (a' := 100) (b := 100) (by omega)
            have h1 : ((100 : Nat) : Rat) / ((100 : Nat) : Rat) = 1 := by decide +kernel
            rw [h1] at this
            exact this
          · exact rat_div_nonneg (a := k) (b := 100)
        have r1 := F.f64.mono _ _ hk.1
        rw [Rounding.one] at r1
        have hfull : (0 : Rat) ≤ (full : Rat) := by exact_mod_cast Nat.zero_le full
        have r2 := Rat.mul_le_mul_of_nonneg_left r1 hfull
        rw [Rat.mul_one] at r2
        have r3 := F.f64.mono _ _ r2
        have hi : F.f64.rnd (full : Rat) = (full : Rat) := by
          exact F.f64.int (full : Int) (by omega)
        rw [hi] at r3
        have r4 := Rat.floor_monotone r3
        have h5 : ((full : Rat)).floor = (full : Int) := by
          exact Rat.floor_intCast (full : Int)
        rw [h5] at r4
        generalize (F.f64.rnd ((full : Rat) * F.f64.rnd (((m - 1 : Int) : Rat) / 100))).floor = z at *
        split at h
        · cases h
        · injection h with h
          rw [← h]
          split <;> omega

end Verif.Shutter
