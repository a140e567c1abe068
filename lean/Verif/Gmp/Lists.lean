/-
The loops over limbs compute sums, products and differences of the numbers the limbs stand for.
-/
import Verif.Gmp.Word

namespace Verif.Gmp

theorem value_cons (h x : Nat) (xs : List Nat) :
    value h (x :: xs) = x + base h * value h xs := by rw [value, base_eq]

theorem value_nil (h : Nat) : value h [] = 0 := rfl

theorem limbs_cons {h x : Nat} {xs : List Nat} :
    Limbs h (x :: xs) ↔ x < base h ∧ Limbs h xs := by
  rw [base_eq]; simp [Limbs]

theorem limbs_nil (h : Nat) : Limbs h [] := by intro x hx; cases hx

theorem limbs_append {h : Nat} {xs ys : List Nat} :
    Limbs h (xs ++ ys) ↔ Limbs h xs ∧ Limbs h ys := by
  unfold Limbs
  constructor
  · intro hh
    exact ⟨fun x hx => hh x (List.mem_append_left _ hx), fun x hx => hh x (List.mem_append_right _ hx)⟩
  · rintro ⟨h1, h2⟩ x hx
    rcases List.mem_append.1 hx with h3 | h3
    · exact h1 x h3
    · exact h2 x h3

theorem limbs_one {h x : Nat} (hx : x < base h) : Limbs h [x] :=
  limbs_cons.2 ⟨hx, limbs_nil h⟩

theorem limbs_take {h : Nat} {xs : List Nat} (n : Nat) (hx : Limbs h xs) : Limbs h (xs.take n) :=
  fun x hm => hx x (List.mem_of_mem_take hm)

theorem limbs_drop {h : Nat} {xs : List Nat} (n : Nat) (hx : Limbs h xs) : Limbs h (xs.drop n) :=
  fun x hm => hx x (List.mem_of_mem_drop hm)

theorem limbs_dropLast {h : Nat} {xs : List Nat} (hx : Limbs h xs) : Limbs h xs.dropLast :=
  fun x hm => hx x ((List.dropLast_sublist xs).subset hm)

theorem value_append (h : Nat) (xs ys : List Nat) :
    value h (xs ++ ys) = value h xs + base h ^ xs.length * value h ys := by
  induction xs with
  | nil => simp [value]
  | cons x xs ih =>
    rw [List.cons_append, value_cons, value_cons, ih, List.length_cons, Nat.pow_succ]; ring

theorem value_lt {h : Nat} {xs : List Nat} (hx : Limbs h xs) : value h xs < base h ^ xs.length := by
  induction xs with
  | nil => simp [value]
  | cons x xs ih =>
    obtain ⟨h1, h2⟩ := limbs_cons.1 hx
    have := ih h2
    rw [value_cons, List.length_cons, Nat.pow_succ]
    have : base h * (value h xs + 1) ≤ base h * base h ^ xs.length := Nat.mul_le_mul_left _ this
    rw [Nat.mul_add] at this
    rw [Nat.mul_comm (base h ^ xs.length)]
    omega

theorem addN_eq {h : Nat} : ∀ (as bs : List Nat) (cy : Nat), Limbs h as → Limbs h bs →
    as.length = bs.length → cy ≤ 1 → 2 ≤ base h →
    value h (addN h cy as bs).1 + base h ^ as.length * (addN h cy as bs).2
      = value h as + value h bs + cy
    ∧ (addN h cy as bs).2 ≤ 1 ∧ Limbs h (addN h cy as bs).1
    ∧ (addN h cy as bs).1.length = as.length
  | [], [], cy, _, _, _, hc, _ => by
    simp [addN, value, limbs_nil, hc]
  | [], _ :: _, _, _, _, hl, _, _ => by simp at hl
  | _ :: _, [], _, _, _, hl, _, _ => by simp at hl
  | a :: as, b :: bs, cy, ha, hb, hl, hc, h2 => by
    obtain ⟨ha1, ha2⟩ := limbs_cons.1 ha
    obtain ⟨hb1, hb2⟩ := limbs_cons.1 hb
    have c1 := wadd_carry (h := h) (a := a) (b := cy) ha1 (by omega)
    have l1 := wadd_lt h a cy
    have c2 := wadd_carry (h := h) (a := wadd h a cy) (b := b) l1 hb1
    have l2 := wadd_lt h (wadd h a cy) b
    have f1 := flag_le (decide (wadd h a cy < cy))
    have f2 := flag_le (decide (wadd h (wadd h a cy) b < b))
    unfold addN
    dsimp only
    generalize flag (decide (wadd h a cy < cy)) = g1 at *
    generalize flag (decide (wadd h (wadd h a cy) b < b)) = g2 at *
    generalize wadd h (wadd h a cy) b = s at *
    have g12 : g1 + g2 ≤ 1 := by
      by_contra hh
      have h3 : g1 = 1 := by omega
      have h4 : g2 = 1 := by omega
      subst h3 h4
      omega
    obtain ⟨e, e2, e3, e4⟩ := addN_eq as bs (g1 + g2) ha2 hb2 (by simpa using hl) g12 h2
    refine ⟨?_, e2, limbs_cons.2 ⟨l2, e3⟩, by simp [e4]⟩
    rw [value_cons, value_cons, value_cons, List.length_cons, Nat.pow_succ]
    have : s + base h * (g1 + g2) = a + cy + b := by rw [Nat.mul_add]; omega
    calc _ = s + base h * (value h (addN h (g1 + g2) as bs).1
            + base h ^ as.length * (addN h (g1 + g2) as bs).2) := by ring
      _ = s + base h * (value h as + value h bs + (g1 + g2)) := by rw [e]
      _ = s + base h * (g1 + g2) + base h * value h as + base h * value h bs := by ring
      _ = _ := by rw [this]; ring

theorem mul1_eq {h u vl : Nat} (hu : h ≤ u) (hv : vl < base h) : ∀ (us : List Nat) (cl : Nat),
    Limbs h us → cl < base h →
    value h (mul1 h u vl cl us).1 + base h ^ us.length * (mul1 h u vl cl us).2
      = value h us * vl + cl
    ∧ (mul1 h u vl cl us).2 < base h ∧ Limbs h (mul1 h u vl cl us).1
    ∧ (mul1 h u vl cl us).1.length = us.length
  | [], cl, _, hc => by simp [mul1, value, limbs_nil, hc]
  | x :: us, cl, hx, hc => by
    obtain ⟨hx1, hx2⟩ := limbs_cons.1 hx
    have p := umul_eq hu hx1 hv
    have ph := umul_high hu hx1 hv
    have pl := (umul_lt h u x vl).2
    have c1 := wadd_carry (h := h) pl hc
    have l1 := wadd_lt h (umul h u x vl).2 cl
    have hB := base_pos h
    unfold mul1
    dsimp only
    generalize (umul h u x vl).1 = p1 at *
    generalize (umul h u x vl).2 = p2 at *
    generalize flag (decide (wadd h p2 cl < cl)) = f at *
    generalize wadd h p2 cl = l at *
    have t1 : l + base h * (f + p1) = x * vl + cl := by rw [Nat.mul_add, ← p]; linarith
    have t2 : f + p1 < base h := by
      by_contra hh
      have : base h * base h ≤ base h * (f + p1) := Nat.mul_le_mul_left _ (by omega)
      omega
    rw [wadd_exact t2]
    obtain ⟨e, e2, e3, e4⟩ := mul1_eq hu hv us (f + p1) hx2 t2
    refine ⟨?_, e2, limbs_cons.2 ⟨l1, e3⟩, by simp [e4]⟩
    rw [value_cons, value_cons, List.length_cons, Nat.pow_succ]
    calc _ = l + base h * (value h (mul1 h u vl (f + p1) us).1
            + base h ^ us.length * (mul1 h u vl (f + p1) us).2) := by ring
      _ = l + base h * (f + p1) + base h * (value h us * vl) := by rw [e]; ring
      _ = _ := by rw [t1]; ring

theorem addmul1_eq {h u vl : Nat} (hu : h ≤ u) (hv : vl < base h) :
    ∀ (rs us : List Nat) (cl : Nat), Limbs h rs → Limbs h us → rs.length = us.length →
    cl < base h →
    value h (addmul1 h u vl cl rs us).1 + base h ^ us.length * (addmul1 h u vl cl rs us).2
      = value h rs + value h us * vl + cl
    ∧ (addmul1 h u vl cl rs us).2 < base h ∧ Limbs h (addmul1 h u vl cl rs us).1
    ∧ (addmul1 h u vl cl rs us).1.length = us.length
  | [], [], cl, _, _, _, hc => by simp [addmul1, value, limbs_nil, hc]
  | [], _ :: _, _, _, _, hl, _ => by simp at hl
  | _ :: _, [], _, _, _, hl, _ => by simp at hl
  | y :: rs, x :: us, cl, hy, hx, hl, hc => by
    obtain ⟨hx1, hx2⟩ := limbs_cons.1 hx
    obtain ⟨hy1, hy2⟩ := limbs_cons.1 hy
    have p := umul_eq hu hx1 hv
    have ph := umul_high hu hx1 hv
    have pl := (umul_lt h u x vl).2
    have c1 := wadd_carry (h := h) pl hc
    have l1 := wadd_lt h (umul h u x vl).2 cl
    have c2 := wadd_carry' (h := h) hy1 l1
    have l2 := wadd_lt h y (wadd h (umul h u x vl).2 cl)
    have hB := base_pos h
    unfold addmul1
    dsimp only
    generalize (umul h u x vl).1 = p1 at *
    generalize (umul h u x vl).2 = p2 at *
    generalize flag (decide (wadd h p2 cl < cl)) = f at *
    generalize wadd h p2 cl = l at *
    generalize flag (decide (wadd h y l < y)) = g at *
    generalize wadd h y l = s at *
    have t1 : s + base h * (f + p1 + g) = y + x * vl + cl := by
      rw [Nat.mul_add, Nat.mul_add, ← p]; linarith
    have t2 : f + p1 + g < base h := by
      by_contra hh
      have : base h * base h ≤ base h * (f + p1 + g) := Nat.mul_le_mul_left _ (by omega)
      omega
    rw [wadd_exact (h := h) (a := f) (b := p1) (by omega), wadd_exact t2]
    obtain ⟨e, e2, e3, e4⟩ := addmul1_eq hu hv rs us (f + p1 + g) hy2 hx2 (by simpa using hl) t2
    refine ⟨?_, e2, limbs_cons.2 ⟨l2, e3⟩, by simp [e4]⟩
    rw [value_cons, value_cons, value_cons, List.length_cons, Nat.pow_succ]
    calc _ = s + base h * (value h (addmul1 h u vl (f + p1 + g) rs us).1
            + base h ^ us.length * (addmul1 h u vl (f + p1 + g) rs us).2) := by ring
      _ = s + base h * (f + p1 + g) + base h * value h rs + base h * (value h us * vl) := by
        rw [e]; ring
      _ = _ := by rw [t1]; ring

theorem submul1_eq {h u vl : Nat} (hu : h ≤ u) (hv : vl < base h) :
    ∀ (rs us : List Nat) (cl : Nat), Limbs h rs → Limbs h us → rs.length = us.length →
    cl < base h →
    value h (submul1 h u vl cl rs us).1 + value h us * vl + cl
      = value h rs + base h ^ us.length * (submul1 h u vl cl rs us).2
    ∧ (submul1 h u vl cl rs us).2 < base h ∧ Limbs h (submul1 h u vl cl rs us).1
    ∧ (submul1 h u vl cl rs us).1.length = us.length
  | [], [], cl, _, _, _, hc => by simp [submul1, value, limbs_nil, hc]
  | [], _ :: _, _, _, _, hl, _ => by simp at hl
  | _ :: _, [], _, _, _, hl, _ => by simp at hl
  | y :: rs, x :: us, cl, hy, hx, hl, hc => by
    obtain ⟨hx1, hx2⟩ := limbs_cons.1 hx
    obtain ⟨hy1, hy2⟩ := limbs_cons.1 hy
    have p := umul_eq hu hx1 hv
    have ph := umul_high hu hx1 hv
    have pl := (umul_lt h u x vl).2
    have c1 := wadd_carry (h := h) pl hc
    have l1 := wadd_lt h (umul h u x vl).2 cl
    have c2 := wsub_borrow (h := h) hy1 l1
    have cf := wsub_flag (h := h) hy1 l1
    have l2 := wsub_lt h y (wadd h (umul h u x vl).2 cl)
    have hB := base_pos h
    unfold submul1
    dsimp only
    rw [cf]
    have fl := flag_le (decide (y < wadd h (umul h u x vl).2 cl))
    have fz : wadd h (umul h u x vl).2 cl = 0 → flag (decide (y < wadd h (umul h u x vl).2 cl)) = 0 := by
      intro h0; rw [h0]; simp [flag]
    generalize (umul h u x vl).1 = p1 at *
    generalize (umul h u x vl).2 = p2 at *
    generalize flag (decide (wadd h p2 cl < cl)) = f at *
    generalize wadd h p2 cl = l at *
    generalize flag (decide (y < l)) = g at *
    generalize wsub h y l = s at *
    have t0 : l + base h * (f + p1) = x * vl + cl := by
      rw [Nat.mul_add, ← p]; linarith
    have t1 : s + x * vl + cl = y + base h * (f + p1 + g) := by
      rw [Nat.mul_add]; omega
    have t2 : f + p1 + g < base h := by
      rcases Nat.lt_or_ge (f + p1) (base h) with h5 | h5
      · rcases Nat.lt_or_ge (f + p1 + 1) (base h) with h6 | h6
        · omega
        · have : f + p1 = base h - 1 := by omega
          have h7 : base h * (f + p1) + base h = base h * base h := by
            rw [this]
            obtain ⟨c, hc⟩ : ∃ c, base h = c + 1 := ⟨base h - 1, by omega⟩
            rw [hc, Nat.add_sub_cancel]; ring
          have : l = 0 := by omega
          have := fz this
          omega
      · have : base h * base h ≤ base h * (f + p1) := Nat.mul_le_mul_left _ h5
        omega
    rw [wadd_exact (h := h) (a := f) (b := p1) (by omega), wadd_exact t2]
    obtain ⟨e, e2, e3, e4⟩ := submul1_eq hu hv rs us (f + p1 + g) hy2 hx2 (by simpa using hl) t2
    refine ⟨?_, e2, limbs_cons.2 ⟨l2, e3⟩, by simp [e4]⟩
    rw [value_cons, value_cons, value_cons, List.length_cons, Nat.pow_succ]
    calc _ = s + x * vl + cl + base h * (value h (submul1 h u vl (f + p1 + g) rs us).1 + value h us * vl) := by ring
      _ = y + base h * (value h (submul1 h u vl (f + p1 + g) rs us).1 + value h us * vl
            + (f + p1 + g)) := by rw [t1]; ring
      _ = y + base h * (value h rs + base h ^ us.length * (submul1 h u vl (f + p1 + g) rs us).2) := by
        rw [e]
      _ = _ := by ring

/-- Splitting the finished limb off. -/
theorem take_drop_value (h : Nat) (x : Nat) (xs : List Nat) :
    value h (x :: xs) = x + base h * value h ((x :: xs).drop 1) := by
  rw [value_cons]; rfl

theorem mulRows_eq {h u : Nat} (hu : h ≤ u) {us : List Nat} (hus : Limbs h us)
    (hn : us.length ≠ 0) : ∀ (vs rp : List Nat), Limbs h vs → Limbs h rp →
    rp.length = us.length →
    value h (mulRows h u us rp vs) = value h rp + value h us * value h vs
    ∧ Limbs h (mulRows h u us rp vs)
    ∧ (mulRows h u us rp vs).length = us.length + vs.length
  | [], rp, _, hr, hl => by simp [mulRows, value, hr, hl]
  | v :: vs, rp, hv, hr, hl => by
    obtain ⟨hv1, hv2⟩ := limbs_cons.1 hv
    have hB := base_pos h
    obtain ⟨e, e2, e3, e4⟩ := addmul1_eq hu hv1 rp us 0 hr hus hl hB
    unfold mulRows
    dsimp only
    generalize addmul1 h u v 0 rp us = a at *
    obtain ⟨ws, c⟩ := a
    dsimp only at *
    have hw : Limbs h (ws ++ [c]) := limbs_append.2 ⟨e3, limbs_one e2⟩
    have hval : value h (ws ++ [c]) = value h rp + value h us * v := by
      rw [value_append, value_cons, value_nil, e4]; simp only [Nat.mul_zero, Nat.add_zero]
      omega
    have hlen : (ws ++ [c]).length = us.length + 1 := by simp [e4]
    generalize ws ++ [c] = r at *
    match r, hlen with
    | x :: xs, hlen =>
      obtain ⟨hx, hxs⟩ := limbs_cons.1 hw
      have hlx : xs.length = us.length := by simpa using hlen
      obtain ⟨i1, i2, i3⟩ := mulRows_eq hu hus hn vs xs hv2 hxs hlx
      rw [value_cons] at hval
      refine ⟨?_, limbs_append.2 ⟨limbs_one hx, i2⟩, ?_⟩
      · show value h (x :: mulRows h u us xs vs) = _
        rw [value_cons, i1, value_cons]
        linear_combination hval
      · show (x :: mulRows h u us xs vs).length = _
        rw [List.length_cons, i3, List.length_cons]; omega

theorem mulN_eq {h u : Nat} (hu : h ≤ u) {us vs : List Nat} (hus : Limbs h us) (hvs : Limbs h vs)
    (hn : us.length ≠ 0) (hm : vs.length ≠ 0) :
    value h (mulN h u us vs) = value h us * value h vs
    ∧ Limbs h (mulN h u us vs)
    ∧ (mulN h u us vs).length = us.length + vs.length := by
  match vs, hm with
  | v :: vs, _ =>
    obtain ⟨hv1, hv2⟩ := limbs_cons.1 hvs
    have hB := base_pos h
    obtain ⟨e, e2, e3, e4⟩ := mul1_eq hu hv1 us 0 hus hB
    unfold mulN
    dsimp only
    generalize mul1 h u v 0 us = a at *
    obtain ⟨ws, c⟩ := a
    dsimp only at *
    have hw : Limbs h (ws ++ [c]) := limbs_append.2 ⟨e3, limbs_one e2⟩
    have hval : value h (ws ++ [c]) = value h us * v := by
      rw [value_append, value_cons, value_nil, e4]; simp only [Nat.mul_zero, Nat.add_zero]
      omega
    have hlen : (ws ++ [c]).length = us.length + 1 := by simp [e4]
    generalize ws ++ [c] = r at *
    match r, hlen with
    | x :: xs, hlen =>
      obtain ⟨hx, hxs⟩ := limbs_cons.1 hw
      have hlx : xs.length = us.length := by simpa using hlen
      obtain ⟨i1, i2, i3⟩ := mulRows_eq hu hus hn vs xs hv2 hxs hlx
      rw [value_cons] at hval
      refine ⟨?_, limbs_append.2 ⟨limbs_one hx, i2⟩, ?_⟩
      · show value h (x :: mulRows h u us xs vs) = _
        rw [value_cons, i1, value_cons]
        linear_combination hval
      · show (x :: mulRows h u us xs vs).length = _
        rw [List.length_cons, i3, List.length_cons]; omega

end Verif.Gmp
