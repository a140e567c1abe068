/-
mpn_div_qr_invert and mpz_powm.
-/
import Verif.Gmp.Divide
import Mathlib.Data.Nat.ModEq

namespace Verif.Gmp

theorem clzOctets_spec {h : Nat} (hh : 4 ≤ h) : ∀ (n c y : Nat), 0 < y → y < base h →
    2 ^ (2 * h - 8) ≤ y * 256 ^ n →
    ∃ k, clzOctets h (n + 1) c y = some (c + k, y * 2 ^ k) ∧ 2 ^ (2 * h - 8) ≤ y * 2 ^ k
      ∧ y * 2 ^ k < base h := by
  have hb : base h = 2 ^ (2 * h - 8) * 256 := by
    rw [base_eq, show (256 : Nat) = 2 ^ 8 by decide, ← Nat.pow_add]; congr 1; omega
  intro n
  induction n with
  | zero =>
    intro c y h0 hy hn
    refine ⟨0, ?_, by omega, by omega⟩
    rw [Nat.pow_zero, Nat.mul_one] at hn
    unfold clzOctets
    rw [if_neg (by
      have := Nat.div_pos hn (Nat.two_pow_pos _)
      omega), Nat.pow_zero, Nat.mul_one, Nat.add_zero]
  | succ n ih =>
    intro c y h0 hy hn
    unfold clzOctets
    by_cases hz : y / 2 ^ (2 * h - 8) = 0
    · rw [if_pos hz]
      have hlt : y < 2 ^ (2 * h - 8) := by
        rcases Nat.div_eq_zero_iff.1 hz with h1 | h1
        · have := Nat.two_pow_pos (2 * h - 8); omega
        · exact h1
      have hw : wmul h y 256 = y * 256 := wmul_exact (by omega)
      rw [hw]
      obtain ⟨k, e1, e2, e3⟩ := ih (c + 8) (y * 256) (by omega) (by omega)
        (by rw [Nat.mul_assoc, ← Nat.pow_succ']; exact hn)
      have hp : y * 256 * 2 ^ k = y * 2 ^ (k + 8) := by
        rw [Nat.pow_add]; ring
      rw [hp] at e1 e2 e3
      exact ⟨k + 8, by rw [e1]; congr 2; omega, e2, e3⟩
    · rw [if_neg hz]
      refine ⟨0, by rw [Nat.pow_zero, Nat.mul_one, Nat.add_zero], ?_, by omega⟩
      rw [Nat.pow_zero, Nat.mul_one]
      by_contra hx
      exact hz (Nat.div_eq_of_lt (by omega))

theorem clzBits_spec {h : Nat} (hh : 4 ≤ h) : ∀ (n c y : Nat), 0 < y → y < base h →
    2 ^ (2 * h - 1) ≤ y * 2 ^ n →
    ∃ k, clzBits h (n + 1) c y = some (c + k) ∧ 2 ^ (2 * h - 1) ≤ y * 2 ^ k
      ∧ y * 2 ^ k < base h := by
  have hb : base h = 2 ^ (2 * h - 1) * 2 := by
    rw [base_eq, ← Nat.pow_succ]; congr 1; omega
  intro n
  induction n with
  | zero =>
    intro c y h0 hy hn
    refine ⟨0, ?_, by omega, by omega⟩
    rw [Nat.pow_zero, Nat.mul_one] at hn
    unfold clzBits
    rw [if_neg (by
      have := Nat.div_pos hn (Nat.two_pow_pos _)
      omega), Nat.add_zero]
  | succ n ih =>
    intro c y h0 hy hn
    unfold clzBits
    by_cases hz : y / 2 ^ (2 * h - 1) = 0
    · rw [if_pos hz]
      have hlt : y < 2 ^ (2 * h - 1) := by
        rcases Nat.div_eq_zero_iff.1 hz with h1 | h1
        · have := Nat.two_pow_pos (2 * h - 1); omega
        · exact h1
      have hw : wmul h y 2 = y * 2 := wmul_exact (by omega)
      rw [hw]
      obtain ⟨k, e1, e2, e3⟩ := ih (c + 1) (y * 2) (by omega) (by omega)
        (by rw [Nat.mul_assoc, ← Nat.pow_succ']; exact hn)
      have hp : y * 2 * 2 ^ k = y * 2 ^ (k + 1) := by
        rw [Nat.pow_succ]; ring
      rw [hp] at e2 e3
      exact ⟨k + 1, by rw [e1]; congr 1; omega, e2, e3⟩
    · rw [if_neg hz]
      refine ⟨0, by rw [Nat.add_zero], ?_, by omega⟩
      rw [Nat.pow_zero, Nat.mul_one]
      by_contra hx
      exact hz (Nat.div_eq_of_lt (by omega))

/-- The shift brings the highest one to the top of the limb. -/
theorem clz_spec {h x : Nat} (hh : 4 ≤ h) (h0 : 0 < x) (hx : x < base h) :
    ∃ c, clz h x = some c ∧ base h ≤ 2 * (x * 2 ^ c) ∧ x * 2 ^ c < base h ∧ c < 2 * h := by
  have hb : base h = 2 ^ (2 * h - 1) * 2 := by
    rw [base_eq, ← Nat.pow_succ]; congr 1; omega
  obtain ⟨k, e1, e2, e3⟩ := clzOctets_spec hh (2 * h) 0 x h0 hx (by
    calc 2 ^ (2 * h - 8) ≤ 2 ^ (2 * h) := Nat.pow_le_pow_right (by decide) (by omega)
      _ ≤ 256 ^ (2 * h) := Nat.pow_le_pow_left (by decide) _
      _ ≤ x * 256 ^ (2 * h) := Nat.le_mul_of_pos_left _ h0)
  have hpos : 0 < x * 2 ^ k := Nat.mul_pos h0 (Nat.two_pow_pos k)
  obtain ⟨j, f1, f2, f3⟩ := clzBits_spec hh (2 * h) (0 + k) (x * 2 ^ k) hpos e3 (by
    calc 2 ^ (2 * h - 1) ≤ 2 ^ (2 * h) := Nat.pow_le_pow_right (by decide) (by omega)
      _ ≤ x * 2 ^ k * 2 ^ (2 * h) := Nat.le_mul_of_pos_left _ hpos)
  have hp : x * 2 ^ k * 2 ^ j = x * 2 ^ (0 + k + j) := by
    rw [Nat.mul_assoc, ← Nat.pow_add, Nat.zero_add]
  rw [hp] at f2 f3
  refine ⟨0 + k + j, ?_, by omega, f3, ?_⟩
  · unfold clz; rw [e1]; exact f1
  · rw [base_eq] at f3
    have : 2 ^ (0 + k + j) ≤ x * 2 ^ (0 + k + j) := Nat.le_mul_of_pos_left _ h0
    exact (Nat.pow_lt_pow_iff_right (by decide)).1 (this.trans_lt f3)

theorem lshiftGo_snoc (h c : Nat) (a : Nat) : ∀ (xs : List Nat) (low : Nat),
    lshiftGo h c low (xs ++ [a])
      = ((lshiftGo h c low xs).1 ++ [wmul h a (2 ^ c) ||| xs.getLastD low / 2 ^ (2 * h - c)],
        a / 2 ^ (2 * h - c))
  | [], low => rfl
  | x :: xs, low => by
    rw [List.cons_append, lshiftGo, lshiftGo_snoc h c a xs x]
    have : (x :: xs).getLastD low = xs.getLastD x := by
      cases xs <;> rfl
    rw [this]
    rfl

/-- The modulus and its inverse as mpz_powm keeps them. -/
structure Prepared (h : Nat) (m mp : List Nat) (s : Nat) (dl : List Nat) (d0 d1 v : Nat) : Prop where
  div : Divisor h dl d0 d1 v
  eq : mp = dl ++ [d0, d1]
  len : mp.length = m.length
  val : value h mp = value h m * 2 ^ s
  shift : s < 2 * h

theorem divInvert_spec {h u : Nat} {m : List Nat} (hh : 4 ≤ h) (hu : h < u) (hm : Number h m)
    (hlen : 3 ≤ m.length) :
    ∃ s dl d0 d1 v, divInvert h u m = some ⟨s, d1, d0, v⟩
      ∧ ¬ (0 < s ∧ (lshift h s m).2 ≠ 0)
      ∧ Prepared h m (if 0 < s then (lshift h s m).1 else m) s dl d0 d1 v := by
  obtain ⟨ml, y, x, hsp, hml⟩ := split_top (xs := m) (k := m.length - 2) (by omega)
  have hne : ml ≠ [] := by intro hc; rw [hc] at hml; simp at hml; omega
  have e := List.dropLast_concat_getLast hne
  generalize ml.getLast hne = z at e
  generalize hmm : ml.dropLast = mk at e
  subst e
  have hm3 : m = ((mk ++ [z]) ++ [y]) ++ [x] := by rw [hsp]; simp
  have hrev : m.reverse = x :: y :: z :: mk.reverse := by rw [hm3]; simp
  have hl := hm.1
  rw [hm3] at hl
  obtain ⟨hl1, hlx⟩ := limbs_append.1 hl
  obtain ⟨hl2, hly⟩ := limbs_append.1 hl1
  obtain ⟨hl3, hlz⟩ := limbs_append.1 hl2
  have hx := (limbs_cons.1 hlx).1
  have hy := (limbs_cons.1 hly).1
  have hz := (limbs_cons.1 hlz).1
  have hx0 : 0 < x := by
    rcases Nat.eq_zero_or_pos x with h0 | h0
    · exfalso; apply hm.2; rw [hm3, h0]; simp
    · exact h0
  obtain ⟨s, c1, c2, c3, c4⟩ := clz_spec hh hx0 hx
  have jl : ∀ a b, a < base h → b < base h → joinShift h s a b < base h := by
    intro a b ha hb
    unfold joinShift
    by_cases hs : 0 < s
    · rw [if_pos hs]; exact (shift_limb c4.le hb).2
    · rw [if_neg hs]; exact ha
  have jn : base h ≤ 2 * joinShift h s x y := by
    unfold joinShift
    by_cases hs : 0 < s
    · rw [if_pos hs]
      have h1 := (shift_limb (x := x) c4.le hy).1
      have h2 : x / 2 ^ (2 * h - s) = 0 := by
        apply Nat.div_eq_of_lt
        rw [base_split c4.le] at c3
        exact Nat.lt_of_mul_lt_mul_right c3
      rw [h2, Nat.mul_zero, Nat.add_zero] at h1
      rw [h1]
      generalize y / 2 ^ (2 * h - s) = k
      omega
    · rw [if_neg hs]
      have : s = 0 := by omega
      rw [this, Nat.pow_zero, Nat.mul_one] at c2
      exact c2
  obtain ⟨v, i1, i2, i3⟩ := invert3by2_spec (by omega) hu (jl x y hx hy) (jl y z hy hz) jn
  have hx2 : x / 2 ^ (2 * h - s) = 0 := by
    apply Nat.div_eq_of_lt
    rw [base_split c4.le] at c3
    exact Nat.lt_of_mul_lt_mul_right c3
  have hret : (lshift h s m).2 = 0 := by
    unfold lshift; rw [hm3, lshiftGo_snoc]; exact hx2
  obtain ⟨s1, s2, s3, s4⟩ := lshift_eq c4.le hm.1
  by_cases hs : 0 < s
  · have jx : joinShift h s x y = wmul h x (2 ^ s) ||| y / 2 ^ (2 * h - s) := if_pos hs
    have jy : joinShift h s y z = wmul h y (2 ^ s) ||| z / 2 ^ (2 * h - s) := if_pos hs
    have hmp : (lshift h s m).1 = (lshift h s (mk ++ [z])).1 ++ [joinShift h s y z, joinShift h s x y] := by
      unfold lshift
      rw [hm3, lshiftGo_snoc, lshiftGo_snoc h s y (mk ++ [z]), jx, jy]
      simp
    rw [hmp] at s2
    refine ⟨s, (lshift h s (mk ++ [z])).1, joinShift h s y z, joinShift h s x y, v, ?_, ?_, ?_⟩
    · unfold divInvert
      rw [hrev]
      dsimp only
      rw [if_neg (by omega), c1, Option.bind_some, i1, Option.map_some]
    · exact fun hc => hc.2 hret
    · rw [if_pos hs]
      refine ⟨⟨?_, (limbs_append.1 s2).1, jl y z hy hz, jl x y hx hy, jn, i2, i3⟩, hmp, s3, ?_, c4⟩
      · intro hc
        have := (lshift_eq c4.le hl2).2.2.1
        rw [hc] at this
        simp at this
      · rw [hret] at s1; omega
  · have hs0 : s = 0 := by omega
    have jx : joinShift h s x y = x := if_neg hs
    have jy : joinShift h s y z = y := if_neg hs
    rw [jx, jy] at i1 i3
    rw [jx] at jn
    refine ⟨s, mk ++ [z], y, x, v, ?_, fun hc => hs hc.1, ?_⟩
    · unfold divInvert
      rw [hrev]
      dsimp only
      rw [if_neg (by omega), c1, Option.bind_some, jx, jy, i1, Option.map_some]
    · rw [if_neg hs]
      refine ⟨⟨by simp, hl2, hy, hx, jn, i2, i3⟩, by rw [hm3]; simp, rfl, ?_, c4⟩
      rw [hs0, Nat.pow_zero, Nat.mul_one]

/-- Reduction by the shifted modulus keeps the residue. -/
theorem reduce_spec {h u : Nat} {m mp dl : List Nat} {s d0 d1 v : Nat} (hu : h ≤ u)
    (hb2 : 2 ≤ base h) (P : Prepared h m mp s dl d0 d1 v) {t : List Nat} (ht : Limbs h t)
    (hl : mp.length ≤ t.length) :
    ∃ r, (divPreinv h u t mp ⟨0, d1, d0, v⟩).map normalized = some r ∧ Number h r
      ∧ value h r % value h m = value h t % value h m := by
  rw [P.eq] at hl ⊢
  obtain ⟨r, e1, e2, e3, e4⟩ := divPreinv_zero hu hb2 P.div ht (by simpa using hl)
  obtain ⟨n1, n2, _⟩ := normalized_spec r e2
  rw [e1]
  refine ⟨normalized r, rfl, n2, ?_⟩
  have hv := P.val
  rw [P.eq] at hv
  rw [n1, e4, hv, Nat.mod_mul_right_mod]

theorem powStep_spec {h u : Nat} {m mp dl : List Nat} {s d0 d1 v : Nat} (hu : h ≤ u)
    (hb2 : 2 ≤ base h) (P : Prepared h m mp s dl d0 d1 v) {b tr : List Nat} (hb : Number h b)
    (ht : Number h tr) (bit : Bool) :
    ∃ r, powStep h u mp ⟨0, d1, d0, v⟩ b bit tr = some r ∧ Number h r
      ∧ value h r ≡ value h tr ^ 2 * value h b ^ (if bit then 1 else 0) [MOD value h m] := by
  obtain ⟨q1, q2⟩ := mulZ_eq hu ht ht
  have hX : ∃ X, (if bit then mulZ h u (mulZ h u tr tr) b else mulZ h u tr tr) = X ∧ Number h X
      ∧ value h X = value h tr ^ 2 * value h b ^ (if bit then 1 else 0) := by
    cases bit
    · exact ⟨_, rfl, q2, by simp [q1, Nat.pow_two]⟩
    · obtain ⟨p1, p2⟩ := mulZ_eq hu q2 hb
      exact ⟨_, rfl, p2, by simp [p1, q1, Nat.pow_two]⟩
  obtain ⟨X, x1, x2, x3⟩ := hX
  unfold powStep
  dsimp only
  rw [x1, ← x3]
  by_cases hlt : mp.length < X.length
  · rw [if_pos hlt]
    obtain ⟨r, r1, r2, r3⟩ := reduce_spec hu hb2 P x2.1 hlt.le
    exact ⟨r, r1, r2, r3⟩
  · rw [if_neg hlt]
    exact ⟨X, rfl, x2, Nat.ModEq.refl _⟩

theorem powBits_spec {h u : Nat} {m mp dl : List Nat} {s d0 d1 v : Nat} (hu : h ≤ u)
    (hb2 : 2 ≤ base h) (P : Prepared h m mp s dl d0 d1 v) {b : List Nat} (hb : Number h b)
    (w : Nat) : ∀ (n : Nat) (tr : List Nat), Number h tr →
    ∃ r, powBits h u mp ⟨0, d1, d0, v⟩ b w n tr = some r ∧ Number h r
      ∧ value h r ≡ value h tr ^ 2 ^ n * value h b ^ (w % 2 ^ n) [MOD value h m]
  | 0, tr, ht => ⟨tr, rfl, ht, by simp [Nat.mod_one, Nat.ModEq.refl]⟩
  | n + 1, tr, ht => by
    obtain ⟨t, t1, t2, t3⟩ := powStep_spec hu hb2 P hb ht (decide (w / 2 ^ n % 2 = 1))
    obtain ⟨r, r1, r2, r3⟩ := powBits_spec hu hb2 P hb w n t t2
    refine ⟨r, by unfold powBits; rw [t1]; exact r1, r2, r3.trans ?_⟩
    have h1 := (t3.pow (2 ^ n)).mul_right (value h b ^ (w % 2 ^ n))
    refine h1.trans ?_
    have hbit : (if decide (w / 2 ^ n % 2 = 1) then 1 else 0) = w / 2 ^ n % 2 := by
      rcases Nat.mod_two_eq_zero_or_one (w / 2 ^ n) with hc | hc <;> simp [hc]
    rw [hbit]
    have he : w % 2 ^ (n + 1) = w % 2 ^ n + 2 ^ n * (w / 2 ^ n % 2) := by
      rw [Nat.pow_succ, Nat.mod_mul]
    rw [he, Nat.mul_pow, ← Nat.pow_mul, ← Nat.pow_mul, Nat.pow_add (value h b), Nat.pow_succ 2 n,
      Nat.mul_comm (2 ^ n) 2, Nat.mul_comm (w / 2 ^ n % 2)]
    have : ∀ a b c : Nat, a * b * c = a * (c * b) := by intro a b c; ring
    rw [this]

theorem powLimbs_spec {h u : Nat} {m mp dl : List Nat} {s d0 d1 v : Nat} (hu : h ≤ u)
    (hb2 : 2 ≤ base h) (P : Prepared h m mp s dl d0 d1 v) {b : List Nat} (hb : Number h b) :
    ∀ (es : List Nat) (tr : List Nat), Limbs h es → Number h tr →
    ∃ r, powLimbs h u mp ⟨0, d1, d0, v⟩ b es tr = some r ∧ Number h r
      ∧ value h r ≡ value h tr ^ base h ^ es.length * value h b ^ value h es.reverse [MOD value h m]
  | [], tr, _, ht => ⟨tr, rfl, ht, by simp [value_nil, Nat.ModEq.refl]⟩
  | w :: ws, tr, he, ht => by
    obtain ⟨hw, hws⟩ := limbs_cons.1 he
    obtain ⟨t, t1, t2, t3⟩ := powBits_spec hu hb2 P hb w (2 * h) tr ht
    obtain ⟨r, r1, r2, r3⟩ := powLimbs_spec hu hb2 P hb ws t hws t2
    refine ⟨r, by unfold powLimbs; rw [t1]; exact r1, r2, r3.trans ?_⟩
    rw [base_eq] at hw
    rw [Nat.mod_eq_of_lt hw, ← base_eq] at t3
    have h1 := (t3.pow (base h ^ ws.length)).mul_right (value h b ^ value h ws.reverse)
    refine h1.trans ?_
    rw [List.reverse_cons, value_append h ws.reverse [w], List.length_reverse, value_cons h w [],
      value_nil, Nat.mul_zero, Nat.add_zero, List.length_cons, Nat.pow_succ (base h), Nat.mul_pow,
      ← Nat.pow_mul, ← Nat.pow_mul, Nat.pow_add, Nat.mul_comm (base h) (base h ^ ws.length),
      Nat.mul_comm w (base h ^ ws.length)]
    have : ∀ a b c : Nat, a * b * c = a * (c * b) := by intro a b c; ring
    rw [this]

/-- mpz_powm computes the power. -/
theorem powm_spec {h u : Nat} {b e m : List Nat} (hh : 4 ≤ h) (hu : h < u) (hb : Number h b)
    (he : Number h e) (hm : Number h m) (hlen : 3 ≤ m.length) :
    ∃ r, powm h u b e m = some r ∧ Number h r
      ∧ value h r = value h b ^ value h e % value h m := by
  have hb2 : 2 ≤ base h := by
    rw [base_eq]
    calc 2 = 2 ^ 1 := rfl
      _ ≤ 2 ^ (2 * h) := Nat.pow_le_pow_right (by decide) (by omega)
  have hone : Number h [1] := ⟨limbs_one (by omega), by simp [Normal]⟩
  have hm1 : 1 < value h m := by
    have h1 := normal_lower (h := h) hm.2 (by intro hc; rw [hc] at hlen; simp at hlen)
    have : base h ^ 1 ≤ base h ^ (m.length - 1) := Nat.pow_le_pow_right (by omega) (by omega)
    rw [Nat.pow_one] at this
    omega
  unfold powm
  rw [if_neg (by omega)]
  by_cases h0 : e.length = 0
  · rw [if_pos h0]
    have : e = [] := List.length_eq_zero_iff.1 h0
    refine ⟨[1], rfl, hone, ?_⟩
    rw [this, value_nil, Nat.pow_zero, Nat.mod_eq_of_lt hm1, value_cons, value_nil, Nat.mul_zero]
  · rw [if_neg h0]
    obtain ⟨s, dl, d0, d1, v, i1, i2, P⟩ := divInvert_spec hh hu hm hlen
    rw [i1, Option.bind_some]
    unfold powWith
    dsimp only
    rw [if_neg i2]
    generalize (if 0 < s then (lshift h s m).1 else m) = mp at *
    -- the base
    have hbase : ∃ bb, powBase h u b mp ⟨0, d1, d0, v⟩ = some bb ∧ Number h bb
        ∧ value h bb ≡ value h b [MOD value h m] := by
      unfold powBase
      by_cases hl : mp.length ≤ b.length
      · rw [if_pos hl]; exact reduce_spec hu.le hb2 P hb.1 hl
      · rw [if_neg hl]
        obtain ⟨n1, n2, _⟩ := normalized_spec b hb.1
        exact ⟨_, rfl, n2, by rw [n1]⟩
    obtain ⟨bb, b1, b2, b3⟩ := hbase
    rw [b1, Option.bind_some]
    obtain ⟨t, t1, t2, t3⟩ := powLimbs_spec hu.le hb2 P b2 e.reverse [1]
      (fun x hx => he.1 x (List.mem_reverse.1 hx)) hone
    rw [t1, Option.bind_some]
    rw [List.reverse_reverse, value_cons h 1 [], value_nil, Nat.mul_zero, Nat.add_zero, Nat.one_pow,
      Nat.one_mul] at t3
    have tot : value h t % value h m = value h b ^ value h e % value h m := t3.trans (b3.pow _)
    rw [← tot]
    unfold powLast
    by_cases hl : mp.length ≤ t.length
    · rw [if_pos hl]
      have hv := P.val
      rw [P.eq] at hl hv ⊢
      have hl' : dl.length + 2 ≤ t.length := by simpa using hl
      rcases Nat.eq_zero_or_pos s with hs | hs
      · subst hs
        obtain ⟨r, e1, e2, e3, e4⟩ := divPreinv_zero hu.le hb2 P.div t2.1 hl'
        obtain ⟨n1, n2, _⟩ := normalized_spec r e2
        rw [e1]
        refine ⟨normalized r, rfl, n2, ?_⟩
        rw [n1, e4, hv, Nat.pow_zero, Nat.mul_one]
      · obtain ⟨r, e1, e2, e3, e4⟩ := divPreinv_shift hu.le hb2 P.div t2.1 hl' hs P.shift hv
        obtain ⟨n1, n2, _⟩ := normalized_spec r e2
        rw [e1]
        exact ⟨normalized r, rfl, n2, by rw [n1, e4]⟩
    · rw [if_neg hl]
      refine ⟨t, rfl, t2, (Nat.mod_eq_of_lt ?_).symm⟩
      have := P.len
      exact value_lt_of_length t2 hm (by omega)

end Verif.Gmp
