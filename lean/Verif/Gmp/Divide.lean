/-
Schoolbook division with the precomputed inverse: mpn_div_qr_pi1 and mpn_div_qr_preinv.
-/
import Verif.Gmp.Invert

namespace Verif.Gmp

/-- A divisor in the form the division routines expect, with its inverse. -/
structure Divisor (h : Nat) (dl : List Nat) (d0 d1 v : Nat) : Prop where
  low : dl ≠ []
  limbs : Limbs h dl
  l0 : d0 < base h
  l1 : d1 < base h
  norm : base h ≤ 2 * d1
  vl : v < base h
  inv : v + base h = (base h ^ 3 - 1) / (d1 * base h + d0)

theorem getD_top (dl : List Nat) (a b : Nat) :
    (dl ++ [a, b]).getD ((dl ++ [a, b]).length - 1) 0 = b := by
  rw [List.length_append, List.getD_eq_getElem?_getD, List.getElem?_append_right (by simp)]
  simp [show dl.length + 1 - dl.length = 1 by omega]

theorem getD_next (dl : List Nat) (a b : Nat) :
    (dl ++ [a, b]).getD ((dl ++ [a, b]).length - 2) 0 = a := by
  rw [List.length_append, List.getD_eq_getElem?_getD, List.getElem?_append_right (by simp)]
  simp

theorem value_top (h : Nat) (dl : List Nat) (a b : Nat) :
    value h (dl ++ [a, b]) = value h dl + base h ^ dl.length * (b * base h + a) := by
  rw [value_append, value_cons, value_cons, value_nil]; ring

theorem last_split {h : Nat} {r : List Nat} (hr : Limbs h r) (hne : r ≠ []) :
    r.getLastD 0 < base h ∧ Limbs h r.dropLast
    ∧ value h r.dropLast + base h ^ (r.length - 1) * r.getLastD 0 = value h r := by
  have e := List.dropLast_concat_getLast hne
  have g : r.getLastD 0 = r.getLast hne := by
    rw [List.getLastD_eq_getLast?, List.getLast?_eq_some_getLast hne]; rfl
  refine ⟨?_, limbs_dropLast hr, ?_⟩
  · rw [g, base_eq]; exact hr _ (List.getLast_mem hne)
  · rw [g]
    conv_rhs => rw [← e]
    rw [value_append, List.length_dropLast, value_cons, value_nil, Nat.mul_zero, Nat.add_zero]

/-- Division of a window, `q = GMP_LIMB_MAX`. -/
theorem pi1Max_spec {h u : Nat} {dl : List Nat} {d0 d1 v : Nat} (hu : h ≤ u)
    (D : Divisor h dl d0 d1 v) {win : List Nat} (hw : Limbs h win)
    (hlen : win.length = dl.length + 2)
    (lo : (base h - 1) * value h (dl ++ [d0, d1]) ≤ d1 * base h ^ (dl.length + 2) + value h win)
    (hi : d1 * base h ^ (dl.length + 2) + value h win
      < (base h - 1) * value h (dl ++ [d0, d1]) + value h (dl ++ [d0, d1])) :
    (pi1Max h u (dl ++ [d0, d1]) win).1 < base h
    ∧ Limbs h (pi1Max h u (dl ++ [d0, d1]) win).2
    ∧ (pi1Max h u (dl ++ [d0, d1]) win).2.length = dl.length + 1
    ∧ (pi1Max h u (dl ++ [d0, d1]) win).1 * base h ^ (dl.length + 1)
        + value h (pi1Max h u (dl ++ [d0, d1]) win).2 + (base h - 1) * value h (dl ++ [d0, d1])
        = d1 * base h ^ (dl.length + 2) + value h win := by
  have hB := base_pos h
  have hdp : Limbs h (dl ++ [d0, d1]) :=
    limbs_append.2 ⟨D.limbs, limbs_cons.2 ⟨D.l0, limbs_one D.l1⟩⟩
  have hdn : (dl ++ [d0, d1]).length = dl.length + 2 := by simp
  obtain ⟨e, ec, el, en⟩ := submul1_eq hu (show base h - 1 < base h by omega) win (dl ++ [d0, d1]) 0
    hw hdp (by rw [hlen, hdn]) hB
  unfold pi1Max
  dsimp only
  generalize submul1 h u (base h - 1) 0 win (dl ++ [d0, d1]) = a at *
  obtain ⟨r, cy⟩ := a
  dsimp only at *
  rw [hdn] at e en
  have vr := value_lt el
  have vD := value_lt hdp
  rw [en] at vr
  rw [hdn] at vD
  generalize value h (dl ++ [d0, d1]) = V at *
  have hc : V * (base h - 1) = (base h - 1) * V := Nat.mul_comm _ _
  generalize (base h - 1) * V = W at *
  generalize hP : base h ^ (dl.length + 2) = P at *
  have cyd : cy = d1 := by
    rcases Nat.lt_trichotomy cy d1 with hl | hl | hl
    · have : P * (cy + 1) ≤ P * d1 := Nat.mul_le_mul_left _ hl
      rw [Nat.mul_add] at this
      have := Nat.mul_comm d1 P
      omega
    · exact hl
    · have : P * (d1 + 1) ≤ P * cy := Nat.mul_le_mul_left _ hl
      rw [Nat.mul_add] at this
      have := Nat.mul_comm d1 P
      omega
  have hne : r ≠ [] := by intro hh; rw [hh] at en; simp at en
  obtain ⟨s1, s2, s3⟩ := last_split el hne
  refine ⟨s1, s2, by rw [List.length_dropLast, en]; omega, ?_⟩
  rw [en, show dl.length + 2 - 1 = dl.length + 1 by omega] at s3
  rw [cyd] at e
  have := Nat.mul_comm d1 P
  have := Nat.mul_comm (base h ^ (dl.length + 1)) (r.getLastD 0)
  omega

/-- Division of a window by the 3/2 quotient, with one possible add-back. -/
theorem pi1Sub_spec {h u : Nat} {dl : List Nat} {d0 d1 v : Nat} (hu : h ≤ u) (hb2 : 2 ≤ base h)
    (D : Divisor h dl d0 d1 v) {wl : List Nat} {w0 n0 n1 q r1 r0 : Nat} (hw : Limbs h wl)
    (hlen : wl.length = dl.length) (hq : q < base h) (hr1 : r1 < base h) (hr0 : r0 < base h)
    (hdiv : n1 * base h ^ 2 + n0 * base h + w0 = q * (d1 * base h + d0) + (r1 * base h + r0))
    (hlt : r1 * base h + r0 < d1 * base h + d0) :
    (pi1Sub h u (dl ++ [d0, d1]) (wl ++ [w0, n0]) d1 (q, r1, r0)).1 < base h
    ∧ Limbs h (pi1Sub h u (dl ++ [d0, d1]) (wl ++ [w0, n0]) d1 (q, r1, r0)).2
    ∧ (pi1Sub h u (dl ++ [d0, d1]) (wl ++ [w0, n0]) d1 (q, r1, r0)).2.length = dl.length + 1
    ∧ ∃ q', (pi1Sub h u (dl ++ [d0, d1]) (wl ++ [w0, n0]) d1 (q, r1, r0)).1 * base h ^ (dl.length + 1)
        + value h (pi1Sub h u (dl ++ [d0, d1]) (wl ++ [w0, n0]) d1 (q, r1, r0)).2
        + q' * value h (dl ++ [d0, d1])
        = n1 * base h ^ (dl.length + 2) + value h (wl ++ [w0, n0])
      ∧ (pi1Sub h u (dl ++ [d0, d1]) (wl ++ [w0, n0]) d1 (q, r1, r0)).1 * base h ^ (dl.length + 1)
        + value h (pi1Sub h u (dl ++ [d0, d1]) (wl ++ [w0, n0]) d1 (q, r1, r0)).2
        < value h (dl ++ [d0, d1]) := by
  have hB := base_pos h
  have hn : (dl ++ [d0, d1]).length - 2 = dl.length := by simp
  have hn1 : (dl ++ [d0, d1]).length - 1 = dl.length + 1 := by simp
  have t1 : (wl ++ [w0, n0]).take dl.length = wl := by rw [← hlen]; simp
  have t2 : (dl ++ [d0, d1]).take dl.length = dl := by simp
  have t3 : (dl ++ [d0, d1]).take (dl.length + 1) = dl ++ [d0] := by
    rw [show dl ++ [d0, d1] = (dl ++ [d0]) ++ [d1] by simp]
    rw [List.take_append_of_le_length (by simp), List.take_of_length_le (by simp)]
  obtain ⟨e, ec, el, en⟩ := submul1_eq hu hq wl dl 0 hw D.limbs hlen hB
  have vw := value_lt hw
  have vd := value_lt D.limbs
  rw [hlen] at vw
  unfold pi1Sub
  dsimp only
  rw [hn, hn1, t1, t2, t3]
  generalize submul1 h u q 0 wl dl = a at *
  obtain ⟨ms, cy⟩ := a
  dsimp only at *
  have vm := value_lt el
  rw [en] at vm
  -- the two limb subtraction
  have b0 := wsub_borrow (h := h) hr0 ec
  have f0 := flag_le (decide (r0 < cy))
  have b0l := wsub_lt h r0 cy
  generalize flag (decide (r0 < cy)) = cy1 at *
  generalize wsub h r0 cy = n0' at *
  have b1 := wsub_borrow (h := h) (a := r1) (b := cy1) hr1 (by omega)
  have b1l := wsub_lt h r1 cy1
  generalize wsub h r1 cy1 = n1' at *
  -- numbers
  have vT := value_top h dl d0 d1
  have vN := value_top h wl w0 n0
  rw [hlen] at vN
  rw [vT, vN]
  have hpk : base h ^ (dl.length + 1) = base h ^ dl.length * base h := Nat.pow_succ _ _
  have hpk2 : base h ^ (dl.length + 2) = base h ^ dl.length * base h ^ 2 := Nat.pow_add _ _ _
  rw [hpk, hpk2]
  have hrest : value h (ms ++ [n0']) = value h ms + base h ^ dl.length * n0' := by
    rw [value_append, value_cons, value_nil, en, Nat.mul_zero, Nat.add_zero]
  have lrest : Limbs h (ms ++ [n0']) := limbs_append.2 ⟨el, limbs_one b0l⟩
  have nrest : (ms ++ [n0']).length = dl.length + 1 := by rw [List.length_append, en]; rfl
  have hpos : 0 < base h ^ dl.length := Nat.pow_pos hB
  have hN : n1 * (base h ^ dl.length * base h ^ 2) + (value h wl + base h ^ dl.length * (n0 * base h + w0))
      = base h ^ dl.length * (q * (d1 * base h + d0)) + base h ^ dl.length * (r1 * base h + r0) + value h wl := by
    rw [← Nat.mul_add, ← hdiv]; ring
  rw [hN]
  have hqD : q * (value h dl + base h ^ dl.length * (d1 * base h + d0))
      = base h ^ dl.length * (q * (d1 * base h + d0)) + q * value h dl := by ring
  have hqv : q * value h dl = value h dl * q := Nat.mul_comm _ _
  have hrd : base h ^ dl.length * (r1 * base h + r0) + base h ^ dl.length
      ≤ base h ^ dl.length * (d1 * base h + d0) := by
    have : base h ^ dl.length * (r1 * base h + r0 + 1) ≤ base h ^ dl.length * (d1 * base h + d0) :=
      Nat.mul_le_mul_left _ hlt
    rw [Nat.mul_add] at this; omega
  unfold flag at b1
  by_cases hbor : r1 < cy1
  · rw [if_pos hbor]
    rw [if_pos (by simpa using hbor)] at b1
    have ld : Limbs h (dl ++ [d0]) := limbs_append.2 ⟨D.limbs, limbs_one D.l0⟩
    have vd0 : value h (dl ++ [d0]) = value h dl + base h ^ dl.length * d0 := by
      rw [value_append, value_cons, value_nil, Nat.mul_zero, Nat.add_zero]
    obtain ⟨g, gc, gl, gn⟩ := addN_eq (ms ++ [n0']) (dl ++ [d0]) 0 lrest ld (by rw [nrest]; simp)
      (by omega) hb2
    generalize addN h 0 (ms ++ [n0']) (dl ++ [d0]) = a at *
    obtain ⟨as, ac⟩ := a
    dsimp only at *
    rw [nrest] at g gn
    rw [hrest, vd0, hpk] at g
    have va := value_lt gl
    rw [gn, hpk] at va
    have hw2 : wadd h n1' (wadd h d1 ac) = (n1' + d1 + ac) % base h := by
      unfold wadd; rw [Nat.add_mod_mod, Nat.add_assoc]
    -- lower bound: one add-back is enough
    have k1 : q * value h dl < base h ^ dl.length * (d1 * base h + d0) + value h dl := by
      have a1 : q * value h dl ≤ base h * value h dl := Nat.mul_le_mul_right _ hq.le
      have a2 : base h * value h dl ≤ base h * base h ^ dl.length := Nat.mul_le_mul_left _ vd.le
      have a3 : base h ^ dl.length * base h ≤ base h ^ dl.length * (d1 * base h + d0) := by
        apply Nat.mul_le_mul_left
        have : 1 * base h ≤ d1 * base h := Nat.mul_le_mul_right _ (by have := D.norm; omega)
        omega
      have a4 : base h * base h ^ dl.length = base h ^ dl.length * base h := Nat.mul_comm _ _
      rcases Nat.eq_zero_or_pos (value h dl) with hz | hz
      · rw [hz] at a1 ⊢
        have : 0 < base h ^ dl.length * base h := Nat.mul_pos hpos hB
        omega
      · omega
    -- balance
    have bal : base h ^ dl.length * (n1' * base h + n0') + base h ^ dl.length * cy
        = base h ^ dl.length * (r1 * base h + r0) + base h ^ dl.length * (base h * base h) := by
      have : n1' * base h + n0' + cy = r1 * base h + r0 + base h * base h := by
        zify at *
        linear_combination base h * b1 + b0
      rw [← Nat.mul_add, this, Nat.mul_add]
    have tot : (n1' + d1 + ac) * (base h ^ dl.length * base h) + value h as + q * value h dl
        = base h ^ dl.length * (r1 * base h + r0) + base h ^ dl.length * (base h * base h) + value h wl
          + (value h dl + base h ^ dl.length * (d1 * base h + d0)) := by
      rw [hqv]
      zify at *
      linear_combination g + e + bal
    have hPP : base h ^ dl.length * (base h * base h) = base h * (base h ^ dl.length * base h) := by ring
    have lowb : base h ≤ n1' + d1 + ac := by
      by_contra hx
      have : (n1' + d1 + ac + 1) * (base h ^ dl.length * base h) ≤ base h * (base h ^ dl.length * base h) :=
        Nat.mul_le_mul_right _ (by omega)
      rw [Nat.add_mul, Nat.one_mul] at this
      omega
    have dlt : base h ^ dl.length * (d1 * base h + d0) + value h dl < base h * (base h ^ dl.length * base h) := by
      have a1 : d1 * base h + d0 + 1 ≤ base h * base h := two_lt (h := h) (a := (d1, d0)) D.l1 D.l0
      have : base h ^ dl.length * (d1 * base h + d0 + 1) ≤ base h ^ dl.length * (base h * base h) :=
        Nat.mul_le_mul_left _ a1
      rw [Nat.mul_add] at this
      omega
    -- the guess was too large
    have over : base h ^ dl.length * (r1 * base h + r0) + value h wl < q * value h dl := by
      have c1 : r1 * base h + r0 + 1 ≤ cy := by
        have : r1 = 0 := by omega
        rw [this, Nat.zero_mul, Nat.zero_add]
        have b0' : cy1 = 1 := by omega
        rw [b0'] at b0
        omega
      have c2 : base h ^ dl.length * (r1 * base h + r0 + 1) ≤ base h ^ dl.length * cy :=
        Nat.mul_le_mul_left _ c1
      rw [Nat.mul_add, Nat.mul_one] at c2
      omega
    have upb : n1' + d1 + ac < 2 * base h := by
      have := D.l1
      have h3 : n1' + d1 + ac ≤ 2 * base h - 1 := by omega
      omega
    have md : (n1' + d1 + ac) % base h = n1' + d1 + ac - base h := by
      rw [Nat.mod_eq_sub_mod lowb, Nat.mod_eq_of_lt (by omega)]
    rw [hw2, md]
    have sp : (n1' + d1 + ac - base h) * (base h ^ dl.length * base h)
        + base h * (base h ^ dl.length * base h) = (n1' + d1 + ac) * (base h ^ dl.length * base h) := by
      rw [← Nat.add_mul]; congr 1; omega
    have q1 : 1 ≤ q := by
      by_contra hx
      have : q = 0 := by omega
      rw [this] at over; omega
    refine ⟨by omega, gl, gn, q - 1, ?_, by omega⟩
    have hq1 : (q - 1) * (value h dl + base h ^ dl.length * (d1 * base h + d0))
        + (value h dl + base h ^ dl.length * (d1 * base h + d0))
        = base h ^ dl.length * (q * (d1 * base h + d0)) + q * value h dl := by
      rw [← hqD]
      have : (q - 1) * (value h dl + base h ^ dl.length * (d1 * base h + d0))
        + 1 * (value h dl + base h ^ dl.length * (d1 * base h + d0))
        = q * (value h dl + base h ^ dl.length * (d1 * base h + d0)) := by
        rw [← Nat.add_mul]; congr 1; omega
      omega
    omega
  · rw [if_neg hbor]
    rw [if_neg (by simpa using hbor)] at b1
    dsimp only
    rw [hrest]
    have bal : base h ^ dl.length * (n1' * base h + n0') + base h ^ dl.length * cy
        = base h ^ dl.length * (r1 * base h + r0) := by
      have : n1' * base h + n0' + cy = r1 * base h + r0 := by
        zify at *
        linear_combination base h * b1 + b0
      rw [← Nat.mul_add, this]
    have e1 : n1' * (base h ^ dl.length * base h) + (value h ms + base h ^ dl.length * n0')
        = base h ^ dl.length * (n1' * base h + n0') + value h ms := by ring
    rw [e1]
    refine ⟨b1l, lrest, nrest, q, ?_, ?_⟩
    · rw [hqD]; omega
    · omega

/-- Any list of at least two limbs, seen from the top. -/
theorem split_top {xs : List Nat} {k : Nat} (hl : xs.length = k + 2) :
    ∃ ys a b, xs = ys ++ [a, b] ∧ ys.length = k := by
  refine ⟨xs.take k, xs.getD k 0, xs.getD (k + 1) 0, ?_, by rw [List.length_take]; omega⟩
  conv_lhs => rw [← List.take_append_drop k xs]
  congr 1
  rw [List.drop_eq_getElem_cons (by omega), List.drop_eq_getElem_cons (by omega),
    List.drop_of_length_le (by omega)]
  rw [List.getD_eq_getElem?_getD, List.getD_eq_getElem?_getD, List.getElem?_eq_getElem (by omega),
    List.getElem?_eq_getElem (by omega)]
  rfl

/-- One turn of the loop divides the window. -/
theorem pi1Step_spec {h u : Nat} {dl : List Nat} {d0 d1 v : Nat} (hu : h ≤ u) (hb2 : 2 ≤ base h)
    (D : Divisor h dl d0 d1 v) {n1 x : Nat} {rest : List Nat} (hn1 : n1 < base h)
    (hx : x < base h) (hr : Limbs h rest) (hlen : rest.length = dl.length + 1)
    (hlt : n1 * base h ^ (dl.length + 1) + value h rest < value h (dl ++ [d0, d1])) :
    (pi1Step h u (dl ++ [d0, d1]) v n1 (x :: rest)).1 < base h
    ∧ Limbs h (pi1Step h u (dl ++ [d0, d1]) v n1 (x :: rest)).2
    ∧ (pi1Step h u (dl ++ [d0, d1]) v n1 (x :: rest)).2.length = dl.length + 1
    ∧ (pi1Step h u (dl ++ [d0, d1]) v n1 (x :: rest)).1 * base h ^ (dl.length + 1)
        + value h (pi1Step h u (dl ++ [d0, d1]) v n1 (x :: rest)).2
        = ((n1 * base h ^ (dl.length + 1) + value h rest) * base h + x) % value h (dl ++ [d0, d1]) := by
  have hB := base_pos h
  have hwin : Limbs h (x :: rest) := limbs_cons.2 ⟨hx, hr⟩
  have hwl : (x :: rest).length = dl.length + 2 := by rw [List.length_cons, hlen]
  have hN : (n1 * base h ^ (dl.length + 1) + value h rest) * base h + x
      = n1 * base h ^ (dl.length + 2) + value h (x :: rest) := by
    rw [value_cons, Nat.pow_succ (base h) (dl.length + 1)]; ring
  rw [hN]
  obtain ⟨wl, w0, n0, hsplit, hwll⟩ := split_top hwl
  -- the rest seen from the top
  have hrest : value h rest = value h (wl ++ [w0, n0]) / base h := by
    rw [← hsplit, value_cons, Nat.add_mul_div_left _ _ hB, Nat.div_eq_of_lt hx, Nat.zero_add]
  have hvx : x + base h * value h rest = value h (wl ++ [w0, n0]) := by rw [← hsplit, value_cons]
  have ldw : Limbs h (wl ++ [w0, n0]) := by rw [← hsplit]; exact hwin
  obtain ⟨lw, lw2⟩ := limbs_append.1 ldw
  obtain ⟨lw0, lw3⟩ := limbs_cons.1 lw2
  obtain ⟨ln0, _⟩ := limbs_cons.1 lw3
  have vwl := value_lt lw
  rw [hwll] at vwl
  have vT := value_top h wl w0 n0
  rw [hwll] at vT
  have vD := value_top h dl d0 d1
  have vdl := value_lt D.limbs
  have hpos : 0 < base h ^ dl.length := Nat.pow_pos hB
  have hpk : base h ^ (dl.length + 1) = base h ^ dl.length * base h := Nat.pow_succ _ _
  rw [hsplit]
  unfold pi1Step
  dsimp only
  have g1 : (wl ++ [w0, n0]).getD ((dl ++ [d0, d1]).length - 1) 0 = n0 := by
    have := getD_top wl w0 n0
    rw [List.length_append, hwll] at this
    rw [List.length_append]; exact this
  have g2 : (wl ++ [w0, n0]).getD ((dl ++ [d0, d1]).length - 2) 0 = w0 := by
    have := getD_next wl w0 n0
    rw [List.length_append, hwll] at this
    rw [List.length_append]; exact this
  rw [getD_top, getD_next, g1, g2]
  -- the top limbs of the part already divided are at most those of the divisor
  have hcmp : base h * (n1 * base h ^ (dl.length + 1) + value h rest) + x
      = base h ^ dl.length * ((n1 * base h + n0) * base h + w0) + value h wl := by
    have : base h * (n1 * base h ^ (dl.length + 1) + value h rest) + x
      = n1 * base h ^ (dl.length + 1) * base h + (x + base h * value h rest) := by ring
    rw [this, hvx, vT, hpk]; ring
  by_cases hmax : n1 = d1 ∧ n0 = d0
  · rw [if_pos hmax]
    obtain ⟨m1, m2⟩ := hmax
    subst m1 m2
    have hV : n1 * base h ^ (dl.length + 2) + value h (wl ++ [w0, n0])
        = base h * (n1 * base h ^ (dl.length + 1) + value h rest) + x := by
      rw [← hsplit, ← hN]; ring
    have hup : base h * (n1 * base h ^ (dl.length + 1) + value h rest) + x
        < base h * value h (dl ++ [n0, n1]) := by
      have : base h * (n1 * base h ^ (dl.length + 1) + value h rest + 1) ≤ base h * value h (dl ++ [n0, n1]) :=
        Nat.mul_le_mul_left _ hlt
      rw [Nat.mul_add] at this; omega
    have hq : (base h - 1) * value h (dl ++ [n0, n1]) + value h (dl ++ [n0, n1])
        = base h * value h (dl ++ [n0, n1]) := by
      have : (base h - 1) * value h (dl ++ [n0, n1]) + 1 * value h (dl ++ [n0, n1])
        = base h * value h (dl ++ [n0, n1]) := by rw [← Nat.add_mul]; congr 1; omega
      omega
    have lo : (base h - 1) * value h (dl ++ [n0, n1])
        ≤ n1 * base h ^ (dl.length + 2) + value h (wl ++ [w0, n0]) := by
      rw [hV, hcmp]
      have k1 : base h * value h (dl ++ [n0, n1])
          = base h ^ dl.length * ((n1 * base h + n0) * base h) + base h * value h dl := by
        rw [vD]; ring
      have k2 : base h * value h dl < base h * base h ^ dl.length := Nat.mul_lt_mul_of_pos_left vdl hB
      have k3 : base h * base h ^ dl.length ≤ value h (dl ++ [n0, n1]) := by
        rw [vD]
        have : 1 * base h ≤ n1 * base h := Nat.mul_le_mul_right _ (by have := D.norm; omega)
        have : base h ^ dl.length * base h ≤ base h ^ dl.length * (n1 * base h + n0) :=
          Nat.mul_le_mul_left _ (by omega)
        rw [Nat.mul_comm (base h)]; omega
      have k4 : base h ^ dl.length * ((n1 * base h + n0) * base h)
          ≤ base h ^ dl.length * ((n1 * base h + n0) * base h + w0) := Nat.mul_le_mul_left _ (by omega)
      omega
    obtain ⟨p1, p2, p3, p4⟩ := pi1Max_spec hu D (win := wl ++ [w0, n0]) ldw
      (by rw [List.length_append, hwll]; rfl) lo (by rw [hq, hV]; exact hup)
    refine ⟨p1, p2, p3, ?_⟩
    rw [← p4]
    have hlt' : (pi1Max h u (dl ++ [n0, n1]) (wl ++ [w0, n0])).1 * base h ^ (dl.length + 1)
        + value h (pi1Max h u (dl ++ [n0, n1]) (wl ++ [w0, n0])).2 < value h (dl ++ [n0, n1]) := by
      omega
    rw [Nat.add_mul_mod_self_right, Nat.mod_eq_of_lt hlt']
  · rw [if_neg hmax]
    have hnd : n1 * base h + n0 < d1 * base h + d0 := by
      by_contra hx'
      have hge : d1 * base h + d0 ≤ n1 * base h + n0 := by omega
      rcases Nat.eq_or_lt_of_le hge with heq | hgt
      · apply hmax
        have a1 : (d1 * base h + d0) / base h = (n1 * base h + n0) / base h := by rw [heq]
        have a2 : (d1 * base h + d0) % base h = (n1 * base h + n0) % base h := by rw [heq]
        rw [Nat.add_comm, Nat.add_mul_div_right _ _ hB, Nat.div_eq_of_lt D.l0,
          Nat.add_comm (n1 * base h), Nat.add_mul_div_right _ _ hB, Nat.div_eq_of_lt ln0] at a1
        rw [Nat.add_comm, Nat.add_mul_mod_self_right, Nat.add_comm (n1 * base h),
          Nat.add_mul_mod_self_right, Nat.mod_eq_of_lt D.l0, Nat.mod_eq_of_lt ln0] at a2
        exact ⟨by omega, a2.symm⟩
      · -- then the part already divided would exceed the divisor
        have b1 : base h ^ dl.length * ((d1 * base h + d0 + 1) * base h)
            ≤ base h ^ dl.length * ((n1 * base h + n0) * base h + w0) :=
          Nat.mul_le_mul_left _ (by
            have : (d1 * base h + d0 + 1) * base h ≤ (n1 * base h + n0) * base h :=
              Nat.mul_le_mul_right _ hgt
            omega)
        have b2 : base h ^ dl.length * ((d1 * base h + d0 + 1) * base h)
            = base h * (base h ^ dl.length * (d1 * base h + d0)) + base h * base h ^ dl.length := by ring
        have b3 : base h * value h dl ≤ base h * base h ^ dl.length := Nat.mul_le_mul_left _ vdl.le
        have b4 : base h * (n1 * base h ^ (dl.length + 1) + value h rest + 1)
            ≤ base h * value h (dl ++ [d0, d1]) := Nat.mul_le_mul_left _ hlt
        rw [vD, Nat.mul_succ, Nat.mul_add (base h) (value h dl)] at b4
        omega
    obtain ⟨u1, u2, u3, u4, u5⟩ := udiv3by2_eq hu hn1 ln0 lw0 D.l1 D.l0 D.norm D.vl D.inv hnd
    generalize udiv3by2 h u n1 n0 w0 d1 d0 v = s at *
    obtain ⟨q, r1, r0⟩ := s
    obtain ⟨p1, p2, p3, q', p4, p5⟩ := pi1Sub_spec hu hb2 D lw hwll u3 u4 u5 u1 u2
    refine ⟨p1, p2, p3, ?_⟩
    rw [← p4, Nat.add_mul_mod_self_right, Nat.mod_eq_of_lt p5]

/-- The loop divides. -/
theorem pi1Loop_spec {h u : Nat} {dl : List Nat} {d0 d1 v : Nat} (hu : h ≤ u) (hb2 : 2 ≤ base h)
    (D : Divisor h dl d0 d1 v) : ∀ (xs : List Nat) (n1 : Nat) (rest : List Nat), Limbs h xs →
    n1 < base h → Limbs h rest → rest.length = dl.length + 1 →
    n1 * base h ^ (dl.length + 1) + value h rest < value h (dl ++ [d0, d1]) →
    (pi1Loop h u (dl ++ [d0, d1]) v xs (n1, rest)).1 < base h
    ∧ Limbs h (pi1Loop h u (dl ++ [d0, d1]) v xs (n1, rest)).2
    ∧ (pi1Loop h u (dl ++ [d0, d1]) v xs (n1, rest)).2.length = dl.length + 1
    ∧ (pi1Loop h u (dl ++ [d0, d1]) v xs (n1, rest)).1 * base h ^ (dl.length + 1)
        + value h (pi1Loop h u (dl ++ [d0, d1]) v xs (n1, rest)).2
        = ((n1 * base h ^ (dl.length + 1) + value h rest) * base h ^ xs.length + value h xs.reverse)
          % value h (dl ++ [d0, d1])
  | [], n1, rest, _, hn1, hr, hl, hlt => by
    refine ⟨hn1, hr, hl, ?_⟩
    show n1 * _ + value h rest = _
    have e : (n1 * base h ^ (dl.length + 1) + value h rest) * base h ^ ([] : List Nat).length
        + value h ([] : List Nat).reverse = n1 * base h ^ (dl.length + 1) + value h rest := by
      simp [value_nil]
    rw [e, Nat.mod_eq_of_lt hlt]
  | x :: xs, n1, rest, hx, hn1, hr, hl, hlt => by
    obtain ⟨hx1, hx2⟩ := limbs_cons.1 hx
    obtain ⟨s1, s2, s3, s4⟩ := pi1Step_spec hu hb2 D hn1 hx1 hr hl hlt
    unfold pi1Loop
    have hpos : 0 < value h (dl ++ [d0, d1]) := by omega
    generalize pi1Step h u (dl ++ [d0, d1]) v n1 (x :: rest) = s at *
    obtain ⟨m1, rs⟩ := s
    dsimp only at *
    obtain ⟨i1, i2, i3, i4⟩ := pi1Loop_spec hu hb2 D xs m1 rs hx2 s1 s2 s3
      (by rw [s4]; exact Nat.mod_lt _ hpos)
    refine ⟨i1, i2, i3, ?_⟩
    rw [i4, s4, List.reverse_cons, value_append h xs.reverse, List.length_reverse, value_cons h x [], value_nil,
      List.length_cons, Nat.pow_succ (base h) xs.length]
    rw [Nat.add_mod, Nat.mod_mul_mod, ← Nat.add_mod]
    congr 1
    ring

/-- mpn_div_qr_pi1 leaves the remainder. -/
theorem divPi1_spec {h u : Nat} {dl : List Nat} {d0 d1 v : Nat} (hu : h ≤ u) (hb2 : 2 ≤ base h)
    (D : Divisor h dl d0 d1 v) {np : List Nat} {n1 : Nat} (hn : Limbs h np)
    (hl : dl.length + 2 ≤ np.length) (hn1 : n1 + 1 ≤ d1) :
    ∃ r, divPi1 h u np n1 (dl ++ [d0, d1]) v = some r ∧ Limbs h r ∧ r.length = dl.length + 2
      ∧ value h r = (n1 * base h ^ np.length + value h np) % value h (dl ++ [d0, d1]) := by
  have hB := base_pos h
  have hdl : dl.length ≠ 0 := fun hh => D.low (List.length_eq_zero_iff.1 hh)
  unfold divPi1
  rw [getD_top]
  have hlen : (dl ++ [d0, d1]).length = dl.length + 2 := by simp
  rw [hlen]
  rw [if_neg (by have := D.norm; omega)]
  dsimp only
  generalize hk : np.length - (dl.length + 2) + 1 = k
  have hdrop : (np.drop k).length = dl.length + 1 := by rw [List.length_drop]; omega
  have htake : (np.take k).length = k := by rw [List.length_take]; omega
  have vd := value_lt (limbs_drop k hn)
  rw [hdrop] at vd
  have hlt : n1 * base h ^ (dl.length + 1) + value h (np.drop k) < value h (dl ++ [d0, d1]) := by
    rw [value_top]
    have a1 : (n1 + 1) * base h ^ (dl.length + 1) ≤ d1 * base h ^ (dl.length + 1) :=
      Nat.mul_le_mul_right _ hn1
    rw [Nat.add_mul, Nat.one_mul] at a1
    have a2 : d1 * base h ^ (dl.length + 1) + base h ^ dl.length * d0 = base h ^ dl.length * (d1 * base h + d0) := by
      rw [Nat.pow_succ]; ring
    omega
  obtain ⟨p1, p2, p3, p4⟩ := pi1Loop_spec hu hb2 D (np.take k).reverse n1 (np.drop k)
    (fun x hx => hn x (List.mem_of_mem_take (List.mem_reverse.1 hx))) (by have := D.l1; omega)
    (limbs_drop k hn) hdrop hlt
  refine ⟨_, rfl, limbs_append.2 ⟨p2, limbs_one p1⟩, by rw [List.length_append, p3]; rfl, ?_⟩
  rw [List.length_reverse, htake, List.reverse_reverse] at p4
  generalize pi1Loop h u (dl ++ [d0, d1]) v (np.take k).reverse (n1, np.drop k) = z at *
  have e0 : value h (z.2 ++ [z.1]) = z.1 * base h ^ (dl.length + 1) + value h z.2 := by
    rw [value_append, p3, value_cons, value_nil]; ring
  rw [e0, p4]
  congr 1
  have e : value h np = value h (np.take k) + base h ^ k * value h (np.drop k) := by
    conv_lhs => rw [← List.take_append_drop k np]
    rw [value_append, htake]
  have e2 : base h ^ np.length = base h ^ (dl.length + 1) * base h ^ k := by
    rw [← Nat.pow_add]; congr 1; omega
  rw [e, e2]; ring

/-- mpn_div_qr_preinv with a divisor already normalised. -/
theorem divPreinv_zero {h u : Nat} {dl : List Nat} {d0 d1 v : Nat} (hu : h ≤ u)
    (hb2 : 2 ≤ base h) (D : Divisor h dl d0 d1 v) {np : List Nat} (hn : Limbs h np)
    (hl : dl.length + 2 ≤ np.length) :
    ∃ r, divPreinv h u np (dl ++ [d0, d1]) ⟨0, d1, d0, v⟩ = some r ∧ Limbs h r
      ∧ r.length = dl.length + 2 ∧ value h r = value h np % value h (dl ++ [d0, d1]) := by
  have hdl : dl.length ≠ 0 := fun hh => D.low (List.length_eq_zero_iff.1 hh)
  have hlen : (dl ++ [d0, d1]).length = dl.length + 2 := by simp
  unfold divPreinv
  rw [getD_top, getD_next, if_neg (by rw [hlen]; intro hc; rcases hc with hc | hc | hc | hc <;> first | omega | exact hc rfl), if_neg (by simp)]
  obtain ⟨r, e1, e2, e3, e4⟩ := divPi1_spec hu hb2 D (n1 := 0) hn hl (by have := D.norm; omega)
  exact ⟨r, e1, e2, e3, by rw [e4, Nat.zero_mul, Nat.zero_add]⟩

/-- mpn_div_qr_preinv with the normalisation undone at the end. -/
theorem divPreinv_shift {h u s m : Nat} {dl : List Nat} {d0 d1 v : Nat} (hu : h ≤ u)
    (hb2 : 2 ≤ base h) (D : Divisor h dl d0 d1 v) {np : List Nat} (hn : Limbs h np)
    (hl : dl.length + 2 ≤ np.length) (hs : 0 < s) (hs2 : s < 2 * h)
    (hm : value h (dl ++ [d0, d1]) = m * 2 ^ s) :
    ∃ r, divPreinv h u np (dl ++ [d0, d1]) ⟨s, d1, d0, v⟩ = some r ∧ Limbs h r
      ∧ r.length = dl.length + 2 ∧ value h r = value h np % m := by
  have hdl : dl.length ≠ 0 := fun hh => D.low (List.length_eq_zero_iff.1 hh)
  have hlen : (dl ++ [d0, d1]).length = dl.length + 2 := by simp
  obtain ⟨l1, l2, l3, l4⟩ := lshift_eq (h := h) (c := s) hs2.le hn
  unfold divPreinv
  rw [getD_top, getD_next, if_neg (by rw [hlen]; intro hc; rcases hc with hc | hc | hc | hc <;> first | omega | exact hc rfl), if_pos hs]
  have hsB : 2 ^ s + 2 ^ s ≤ base h := by
    rw [base_eq, ← Nat.two_mul, ← Nat.pow_succ']; exact Nat.pow_le_pow_right (by decide) hs2
  obtain ⟨r, e1, e2, e3, e4⟩ := divPi1_spec hu hb2 D (n1 := (lshift h s np).2) l2
    (by rw [l3]; exact hl) (by have := D.norm; omega)
  rw [l3] at e4
  rw [e1, Option.bind_some]
  have hv : value h r = (value h np % m) * 2 ^ s := by
    rw [e4, hm, ← Nat.mul_mod_mul_right, ← l1]
    congr 1
    ring
  have hz : (rshift h s r).2 = 0 := by
    rw [rshift_carry hs2.le, hv, Nat.mul_mod_left]
  rw [if_pos hz]
  obtain ⟨g1, g2, g3⟩ := rshiftGo_eq hs2.le r e2
  refine ⟨_, rfl, g2, g3.trans e3, ?_⟩
  show value h (rshiftGo h s r) = _
  rw [g1, hv, Nat.mul_div_cancel _ (Nat.two_pow_pos s)]

end Verif.Gmp
