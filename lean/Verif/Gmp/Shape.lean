/-
Normal forms, comparison and shifts.
-/
import Verif.Gmp.Lists

namespace Verif.Gmp

theorem normalized_snoc (xs : List Nat) (x : Nat) :
    normalized (xs ++ [x]) = if x = 0 then normalized xs else xs ++ [x] := by
  unfold normalized
  rw [List.reverse_append, List.reverse_singleton, List.singleton_append, List.dropWhile_cons]
  by_cases hx : x = 0
  · rw [if_pos (by simp [hx]), if_pos hx]
  · rw [if_neg (by simp [hx]), if_neg hx]; simp

theorem normalized_rev {h : Nat} (ys : List Nat) (hy : Limbs h ys.reverse) :
    value h (normalized ys.reverse) = value h ys.reverse ∧ Number h (normalized ys.reverse)
    ∧ (normalized ys.reverse).length ≤ ys.reverse.length := by
  induction ys with
  | nil => exact ⟨rfl, ⟨limbs_nil h, by simp [Normal, normalized]⟩, by simp [normalized]⟩
  | cons x ys ih =>
    rw [List.reverse_cons] at hy ⊢
    rw [normalized_snoc]
    obtain ⟨h1, h2⟩ := limbs_append.1 hy
    obtain ⟨i1, i2, i3⟩ := ih h1
    by_cases hz : x = 0
    · rw [if_pos hz, i1, value_append, hz, value_cons, value_nil]
      refine ⟨by simp, i2, ?_⟩
      rw [List.length_append]; omega
    · rw [if_neg hz]
      refine ⟨rfl, ⟨hy, ?_⟩, Nat.le_refl _⟩
      simp [Normal, hz]

theorem normalized_spec {h : Nat} (xs : List Nat) (hx : Limbs h xs) :
    value h (normalized xs) = value h xs ∧ Number h (normalized xs)
    ∧ (normalized xs).length ≤ xs.length := by
  have := normalized_rev (h := h) xs.reverse (by rwa [List.reverse_reverse])
  rwa [List.reverse_reverse] at this

/-- A normalised number fills its highest limb. -/
theorem normal_lower {h : Nat} {xs : List Nat} (hn : Normal xs) (hne : xs ≠ []) :
    base h ^ (xs.length - 1) ≤ value h xs := by
  have e := List.dropLast_concat_getLast hne
  have : xs.getLast hne ≠ 0 := by
    intro h0; apply hn; rw [List.getLast?_eq_some_getLast hne, h0]
  rw [← List.length_dropLast]
  conv_rhs => rw [← e]
  rw [value_append, value_cons, value_nil]
  have : base h ^ xs.dropLast.length * 1 ≤ base h ^ xs.dropLast.length * (xs.getLast hne + base h * 0) :=
    Nat.mul_le_mul_left _ (by omega)
  omega

theorem normal_of_lower {h : Nat} {xs : List Nat} (hl : Limbs h xs) (hne : xs ≠ [])
    (hv : base h ^ (xs.length - 1) ≤ value h xs) : Normal xs := by
  have e := List.dropLast_concat_getLast hne
  intro h0
  rw [List.getLast?_eq_some_getLast hne] at h0
  have h0 := Option.some.inj h0
  rw [← List.length_dropLast] at hv
  rw [← e, value_append, h0, value_cons, value_nil] at hv
  have := value_lt (limbs_dropLast hl)
  have e2 : (xs.dropLast ++ [0]).dropLast.length = xs.dropLast.length := by simp
  rw [e2] at hv
  omega

theorem mulZ_eq {h u : Nat} (hu : h ≤ u) {us vs : List Nat} (hus : Number h us)
    (hvs : Number h vs) :
    value h (mulZ h u us vs) = value h us * value h vs ∧ Number h (mulZ h u us vs) := by
  unfold mulZ
  by_cases h0 : us.length = 0 ∨ vs.length = 0
  · rw [if_pos h0]
    refine ⟨?_, limbs_nil h, by simp [Normal]⟩
    rcases h0 with h0 | h0
    · rw [List.length_eq_zero_iff.1 h0]; simp [value]
    · rw [List.length_eq_zero_iff.1 h0]; simp [value]
  rw [if_neg h0]
  have hu0 : us.length ≠ 0 := fun h => h0 (Or.inl h)
  have hv0 : vs.length ≠ 0 := fun h => h0 (Or.inr h)
  have key : ∀ t, (if vs.length ≤ us.length then mulN h u us vs else mulN h u vs us) = t →
      value h t = value h us * value h vs ∧ Limbs h t ∧ t.length = us.length + vs.length := by
    intro t ht
    split at ht
    · rw [← ht]; exact mulN_eq hu hus.1 hvs.1 hu0 hv0
    · rw [← ht, Nat.mul_comm, Nat.add_comm]; exact mulN_eq hu hvs.1 hus.1 hv0 hu0
  dsimp only
  generalize (if vs.length ≤ us.length then mulN h u us vs else mulN h u vs us) = t at *
  obtain ⟨k1, k2, k3⟩ := key t rfl
  have l1 := normal_lower (h := h) hus.2 (by intro h; simp [h] at hu0)
  have l2 := normal_lower (h := h) hvs.2 (by intro h; simp [h] at hv0)
  have lo : base h ^ (us.length + vs.length - 2) ≤ value h t := by
    rw [k1, show us.length + vs.length - 2 = (us.length - 1) + (vs.length - 1) by omega,
      Nat.pow_add]
    exact Nat.mul_le_mul l1 l2
  have htne : t ≠ [] := by intro h; rw [h] at k3; simp at k3; omega
  by_cases hz : t.getLast? = some 0
  · rw [if_pos hz]
    have e := List.dropLast_concat_getLast htne
    rw [List.getLast?_eq_some_getLast htne] at hz
    have hz := Option.some.inj hz
    rw [hz] at e
    have hv : value h t.dropLast = value h t := by
      conv_rhs => rw [← e]
      rw [value_append, value_cons, value_nil]; simp
    have hlen : t.dropLast.length = us.length + vs.length - 1 := by rw [List.length_dropLast, k3]
    refine ⟨hv.trans k1, limbs_dropLast k2, normal_of_lower (limbs_dropLast k2) ?_ ?_⟩
    · intro h; rw [h] at hlen; simp at hlen; omega
    · rw [hv, hlen, show us.length + vs.length - 1 - 1 = us.length + vs.length - 2 by omega]
      exact lo
  · rw [if_neg hz]
    exact ⟨k1, k2, hz⟩

/-- Comparing limbs from the top compares numbers. -/
theorem cmpTop_spec {h : Nat} : ∀ (as bs : List Nat), Limbs h as → Limbs h bs →
    as.length = bs.length →
    (cmpTop as bs < 0 ↔ value h as.reverse < value h bs.reverse)
    ∧ (cmpTop as bs = 0 ↔ value h as.reverse = value h bs.reverse)
  | [], [], _, _, _ => by simp [cmpTop]
  | [], _ :: _, _, _, hl => by simp at hl
  | _ :: _, [], _, _, hl => by simp at hl
  | a :: as, b :: bs, ha, hb, hl => by
    obtain ⟨ha1, ha2⟩ := limbs_cons.1 ha
    obtain ⟨hb1, hb2⟩ := limbs_cons.1 hb
    have hl' : as.length = bs.length := by simpa using hl
    have ih := cmpTop_spec as bs ha2 hb2 hl'
    rw [List.reverse_cons, List.reverse_cons, value_append, value_append, value_cons, value_cons,
      value_nil, List.length_reverse, List.length_reverse, hl', Nat.mul_zero, Nat.add_zero,
      Nat.add_zero]
    have va := value_lt (h := h) (xs := as.reverse) (fun x hx => ha2 x (List.mem_reverse.1 hx))
    have vb := value_lt (h := h) (xs := bs.reverse) (fun x hx => hb2 x (List.mem_reverse.1 hx))
    rw [List.length_reverse] at va vb
    rw [hl'] at va
    unfold cmpTop
    rcases Nat.lt_trichotomy a b with hab | hab | hab
    · rw [if_pos (by omega), if_neg (by omega)]
      have : base h ^ bs.length * (a + 1) ≤ base h ^ bs.length * b := Nat.mul_le_mul_left _ hab
      rw [Nat.mul_add] at this
      constructor
      · constructor
        · intro; omega
        · intro; decide
      · constructor
        · intro h; exact absurd h (by decide)
        · intro h; omega
    · subst hab
      rw [if_neg (by simp)]
      constructor
      · rw [ih.1]; omega
      · rw [ih.2]; omega
    · rw [if_pos (by omega), if_pos hab]
      have : base h ^ bs.length * (b + 1) ≤ base h ^ bs.length * a := Nat.mul_le_mul_left _ hab
      rw [Nat.mul_add] at this
      constructor
      · constructor
        · intro h; exact absurd h (by decide)
        · intro; omega
      · constructor
        · intro h; exact absurd h (by decide)
        · intro h; omega

/-- A longer normalised number is larger. -/
theorem value_lt_of_length {h : Nat} {a b : List Nat} (ha : Number h a) (hb : Number h b)
    (hl : a.length < b.length) : value h a < value h b := by
  have h1 := value_lt ha.1
  have h2 := normal_lower (h := h) hb.2 (by intro hh; rw [hh] at hl; simp at hl)
  have : base h ^ a.length ≤ base h ^ (b.length - 1) :=
    Nat.pow_le_pow_right (base_pos h) (by omega)
  omega

theorem cmpZ_spec {h : Nat} {a b : List Nat} (ha : Number h a) (hb : Number h b) :
    (cmpZ a b < 0 ↔ value h a < value h b) ∧ (cmpZ a b = 0 ↔ value h a = value h b) := by
  unfold cmpZ
  rcases Nat.lt_trichotomy a.length b.length with hl | hl | hl
  · have := value_lt_of_length ha hb hl
    rw [if_pos (by omega), if_pos hl]
    exact ⟨⟨fun _ => this, fun _ => by decide⟩, ⟨fun h => absurd h (by decide), fun h => by omega⟩⟩
  · rw [if_neg (by omega)]
    have := cmpTop_spec (h := h) a.reverse b.reverse (fun x hx => ha.1 x (List.mem_reverse.1 hx))
      (fun x hx => hb.1 x (List.mem_reverse.1 hx)) (by simp [hl])
    rwa [List.reverse_reverse, List.reverse_reverse] at this
  · have := value_lt_of_length hb ha hl
    rw [if_pos (by omega), if_neg (by omega)]
    exact ⟨⟨fun h => absurd h (by decide), fun h => by omega⟩,
      ⟨fun h => absurd h (by decide), fun h => by omega⟩⟩

/-- Bits of two limbs that do not meet. -/
theorem or_shift {a t c : Nat} (ht : t < 2 ^ c) : (a * 2 ^ c) ||| t = a * 2 ^ c + t := by
  rw [Nat.mul_comm, ← Nat.two_pow_add_eq_or_of_lt ht]

theorem base_split {h c : Nat} (hc : c ≤ 2 * h) : base h = 2 ^ (2 * h - c) * 2 ^ c := by
  rw [base_eq, ← Nat.pow_add]; congr 1; omega

/-- One limb shifted left with the bits from below. -/
theorem shift_limb {h c x low : Nat} (hc : c ≤ 2 * h) (hlow : low < base h) :
    (wmul h x (2 ^ c) ||| low / 2 ^ (2 * h - c)) + base h * (x / 2 ^ (2 * h - c))
      = x * 2 ^ c + low / 2 ^ (2 * h - c)
    ∧ (wmul h x (2 ^ c) ||| low / 2 ^ (2 * h - c)) < base h := by
  have p1 : 0 < 2 ^ (2 * h - c) := Nat.two_pow_pos _
  have p2 : 0 < 2 ^ c := Nat.two_pow_pos _
  have e := base_split hc
  have w : wmul h x (2 ^ c) = x % 2 ^ (2 * h - c) * 2 ^ c := by
    unfold wmul; rw [e, Nat.mul_mod_mul_right]
  have hl : low / 2 ^ (2 * h - c) < 2 ^ c := by
    rw [Nat.div_lt_iff_lt_mul p1, Nat.mul_comm, ← e]; exact hlow
  rw [w, or_shift hl]
  have d := Nat.div_add_mod x (2 ^ (2 * h - c))
  have m := Nat.mod_lt x p1
  rw [e]
  generalize 2 ^ (2 * h - c) = P at *
  generalize 2 ^ c = Q at *
  constructor
  · conv_rhs => rw [← d]
    ring
  · have : (x % P + 1) * Q ≤ P * Q := Nat.mul_le_mul_right _ m
    rw [Nat.add_mul] at this; omega

theorem lshiftGo_eq {h c : Nat} (hc : c ≤ 2 * h) : ∀ (xs : List Nat) (low : Nat), Limbs h xs →
    low < base h →
    value h (lshiftGo h c low xs).1 + base h ^ xs.length * (lshiftGo h c low xs).2
      = value h xs * 2 ^ c + low / 2 ^ (2 * h - c)
    ∧ Limbs h (lshiftGo h c low xs).1 ∧ (lshiftGo h c low xs).1.length = xs.length
    ∧ (lshiftGo h c low xs).2 < 2 ^ c
  | [], low, _, hl => by
    refine ⟨by simp [lshiftGo, value], limbs_nil h, rfl, ?_⟩
    show low / 2 ^ (2 * h - c) < 2 ^ c
    rw [Nat.div_lt_iff_lt_mul (Nat.two_pow_pos _), Nat.mul_comm, ← base_split hc]; exact hl
  | x :: xs, low, hx, hl => by
    obtain ⟨hx1, hx2⟩ := limbs_cons.1 hx
    obtain ⟨s1, s2⟩ := shift_limb (h := h) (c := c) (x := x) hc hl
    obtain ⟨i1, i2, i3, i4⟩ := lshiftGo_eq hc xs x hx2 hx1
    unfold lshiftGo
    dsimp only
    refine ⟨?_, limbs_cons.2 ⟨s2, i2⟩, by simp [i3], i4⟩
    rw [value_cons, value_cons, List.length_cons, Nat.pow_succ]
    generalize (wmul h x (2 ^ c) ||| low / 2 ^ (2 * h - c)) = y at *
    linear_combination s1 + base h * i1

theorem lshift_eq {h c : Nat} (hc : c ≤ 2 * h) {xs : List Nat} (hx : Limbs h xs) :
    value h (lshift h c xs).1 + base h ^ xs.length * (lshift h c xs).2 = value h xs * 2 ^ c
    ∧ Limbs h (lshift h c xs).1 ∧ (lshift h c xs).1.length = xs.length
    ∧ (lshift h c xs).2 < 2 ^ c := by
  have := lshiftGo_eq hc xs 0 hx (base_pos h)
  rw [Nat.zero_div, Nat.add_zero] at this
  exact this

theorem rshiftGo_eq {h c : Nat} (hc : c ≤ 2 * h) : ∀ (xs : List Nat), Limbs h xs →
    value h (rshiftGo h c xs) = value h xs / 2 ^ c
    ∧ Limbs h (rshiftGo h c xs) ∧ (rshiftGo h c xs).length = xs.length
  | [], _ => by simp [rshiftGo, value, limbs_nil]
  | [x], hx => by
    obtain ⟨hx1, _⟩ := limbs_cons.1 hx
    refine ⟨by simp [rshiftGo, value], limbs_one ?_, rfl⟩
    exact Nat.lt_of_le_of_lt (Nat.div_le_self _ _) hx1
  | x :: y :: xs, hx => by
    obtain ⟨hx1, hx2⟩ := limbs_cons.1 hx
    obtain ⟨hy1, _⟩ := limbs_cons.1 hx2
    obtain ⟨i1, i2, i3⟩ := rshiftGo_eq hc (y :: xs) hx2
    have p1 : 0 < 2 ^ (2 * h - c) := Nat.two_pow_pos _
    have p2 : 0 < 2 ^ c := Nat.two_pow_pos _
    have e : base h = 2 ^ c * 2 ^ (2 * h - c) := by rw [base_split hc, Nat.mul_comm]
    have w : wmul h y (2 ^ (2 * h - c)) = y % 2 ^ c * 2 ^ (2 * h - c) := by
      unfold wmul; rw [e, Nat.mul_mod_mul_right]
    have hl : x / 2 ^ c < 2 ^ (2 * h - c) := by
      rw [Nat.div_lt_iff_lt_mul p2, Nat.mul_comm, ← e]; exact hx1
    unfold rshiftGo
    have hor : (x / 2 ^ c ||| wmul h y (2 ^ (2 * h - c)))
        = y % 2 ^ c * 2 ^ (2 * h - c) + x / 2 ^ c := by
      rw [w, Nat.or_comm, or_shift hl]
    rw [hor]
    refine ⟨?_, limbs_cons.2 ⟨?_, i2⟩, by simp [i3]⟩
    · rw [value_cons, i1, value_cons h x]
      have v : value h (y :: xs) % 2 ^ c = y % 2 ^ c := by
        rw [value_cons, e, Nat.mul_assoc, Nat.add_mul_mod_self_left]
      rw [← v, e]
      generalize value h (y :: xs) = Y at *
      have d := Nat.div_add_mod Y (2 ^ c)
      have : x + 2 ^ c * 2 ^ (2 * h - c) * Y = x + 2 ^ c * (2 ^ (2 * h - c) * Y) := by ring
      rw [this, Nat.add_mul_div_left _ _ p2]
      conv_rhs => rw [← d]
      ring
    · have m := Nat.mod_lt y p2
      rw [e]
      have : (y % 2 ^ c + 1) * 2 ^ (2 * h - c) ≤ 2 ^ c * 2 ^ (2 * h - c) := Nat.mul_le_mul_right _ m
      rw [Nat.add_mul] at this; omega

/-- The bits shifted out are zero exactly when the shift loses nothing. -/
theorem rshift_carry {h c : Nat} (hc : c ≤ 2 * h) (xs : List Nat) :
    (rshift h c xs).2 = 0 ↔ value h xs % 2 ^ c = 0 := by
  have p1 : 0 < 2 ^ (2 * h - c) := Nat.two_pow_pos _
  have e : base h = 2 ^ c * 2 ^ (2 * h - c) := by rw [base_split hc, Nat.mul_comm]
  have w : wmul h (xs.headD 0) (2 ^ (2 * h - c)) = xs.headD 0 % 2 ^ c * 2 ^ (2 * h - c) := by
    unfold wmul; rw [e, Nat.mul_mod_mul_right]
  have v : value h xs % 2 ^ c = xs.headD 0 % 2 ^ c := by
    cases xs with
    | nil => rfl
    | cons x xs => rw [value_cons, e, Nat.mul_assoc, Nat.add_mul_mod_self_left]; rfl
  unfold rshift
  dsimp only
  rw [w, v]
  constructor
  · intro h0
    rcases Nat.mul_eq_zero.1 h0 with h1 | h1
    · exact h1
    · omega
  · intro h0; rw [h0, Nat.zero_mul]

end Verif.Gmp
