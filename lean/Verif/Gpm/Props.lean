import Verif.Gpm.Model
import Mathlib.Tactic.Linarith
import Mathlib.Tactic.Ring
import Mathlib.Tactic.FieldSimp
import Mathlib.Tactic.NormNum
import Mathlib.Tactic.Positivity
/-
C92: what a general purpose meter or measurement shows.
-/
namespace Verif.Gpm

/-! ### The value shown -/

/-- `t` is within `k` roundings of 1. -/
def close (k : Nat) (t : ℚ) : Prop := (1 - 1 / 2 ^ 53) ^ k ≤ t ∧ t * (1 - 1 / 2 ^ 53) ^ k ≤ 1

theorem base_pos : (0 : ℚ) < 1 - 1 / 2 ^ 53 := by norm_num
theorem base_le : (1 : ℚ) - 1 / 2 ^ 53 ≤ 1 := by norm_num
theorem pow_pos' (k : Nat) : (0 : ℚ) < (1 - 1 / 2 ^ 53) ^ k := pow_pos base_pos k

theorem close_one (k : Nat) : close k 1 := by
  have : ((1 : ℚ) - 1 / 2 ^ 53) ^ k ≤ 1 := pow_le_one₀ base_pos.le base_le
  exact ⟨this, by rw [one_mul]; exact this⟩

theorem close_pos {k : Nat} {t : ℚ} (h : close k t) : 0 < t := lt_of_lt_of_le (pow_pos' k) h.1

theorem close_mul {k l : Nat} {s t : ℚ} (h : close k s) (g : close l t) : close (k + l) (s * t) := by
  have hs := close_pos h
  have ht := close_pos g
  obtain ⟨h1, h2⟩ := h
  obtain ⟨g1, g2⟩ := g
  constructor
  · rw [pow_add]
    exact mul_le_mul h1 g1 (pow_pos' l).le hs.le
  · rw [pow_add]
    have e : s * t * ((1 - 1 / 2 ^ 53) ^ k * (1 - 1 / 2 ^ 53) ^ l)
        = (s * (1 - 1 / 2 ^ 53) ^ k) * (t * (1 - 1 / 2 ^ 53) ^ l) := by ring
    rw [e]
    exact mul_le_one₀ h2 (mul_pos ht (pow_pos' l)).le g2

theorem close_inv {k : Nat} {t : ℚ} (h : close k t) : close k t⁻¹ := by
  have ht := close_pos h
  obtain ⟨h1, h2⟩ := h
  constructor
  · rw [← one_div, le_div_iff₀ ht, mul_comm]
    exact h2
  · rw [inv_mul_le_one₀ ht]
    exact h1

theorem close_mono {k l : Nat} {t : ℚ} (h : close k t) (hl : k ≤ l) : close l t := by
  obtain ⟨m, rfl⟩ := Nat.exists_eq_add_of_le hl
  have := close_mul h (close_one m)
  rwa [mul_one] at this

theorem close_seven {t : ℚ} (h : close 7 t) : |t - 1| ≤ 1 / 2 ^ 50 := by
  obtain ⟨h1, h2⟩ := h
  rw [abs_le]
  constructor
  · have : (1 : ℚ) - 1 / 2 ^ 50 ≤ (1 - 1 / 2 ^ 53) ^ 7 := by norm_num
    linarith
  · have e : (1 : ℚ) ≤ (1 + 1 / 2 ^ 50) * (1 - 1 / 2 ^ 53) ^ 7 := by norm_num
    have : t * (1 - 1 / 2 ^ 53) ^ 7 ≤ (1 + 1 / 2 ^ 50) * (1 - 1 / 2 ^ 53) ^ 7 := le_trans h2 e
    have := le_of_mul_le_mul_right this (pow_pos' 7)
    linarith

theorem rounding_factor {rnd : ℚ → ℚ} (h : Rounding rnd) (x : ℚ) :
    ∃ t, close 1 t ∧ rnd x = x * t := by
  by_cases hx : x = 0
  · refine ⟨1, close_one 1, ?_⟩
    have := h.near x
    rw [hx, abs_zero, zero_div, sub_zero] at this
    rw [hx, zero_mul]
    exact abs_eq_zero.mp (le_antisymm this (abs_nonneg _))
  · refine ⟨rnd x / x, ?_, by field_simp⟩
    have h1 := h.near x
    have h2 : |rnd x / x - 1| ≤ 1 / 2 ^ 53 := by
      have e : rnd x / x - 1 = (rnd x - x) / x := by field_simp
      rw [e, abs_div, div_le_iff₀ (abs_pos.mpr hx)]
      calc |rnd x - x| ≤ |x| / 2 ^ 53 := h1
        _ = 1 / 2 ^ 53 * |x| := by ring
    rw [abs_le] at h2
    unfold close
    rw [pow_one]
    constructor
    · linarith
    · have hb : rnd x / x ≤ 1 + 1 / 2 ^ 53 := by linarith
      calc rnd x / x * (1 - 1 / 2 ^ 53) ≤ (1 + 1 / 2 ^ 53) * (1 - 1 / 2 ^ 53) :=
            mul_le_mul_of_nonneg_right hb base_pos.le
        _ ≤ 1 := by norm_num

/-- **The value shown is the configured formula**, to fifteen digits of its two terms, for every raw
value and every configuration. -/
theorem calculated_accurate (rnd : ℚ → ℚ) (h : Rounding rnd) (raw : ℚ) (m d a : ℤ) :
    ∃ v, calculated rnd (some raw) m d a = some v ∧
      |v - formula raw m d a| ≤ (|formula raw m d 0| + |(a : ℚ) / 1000|) / 2 ^ 50 := by
  have hm : ∃ t, close 1 t ∧ (if m ≠ 0 then rnd ((m : ℚ) / 1000) else 1)
      = (if m = 0 then 1 else (m : ℚ) / 1000) * t := by
    by_cases e : m = 0
    · exact ⟨1, close_one 1, by simp [e]⟩
    · obtain ⟨t, h1, h2⟩ := rounding_factor h ((m : ℚ) / 1000)
      exact ⟨t, h1, by rw [if_pos e, if_neg e, h2]⟩
  have hd : ∃ t, close 1 t ∧ (if d ≠ 0 then rnd ((d : ℚ) / 1000) else 1)
      = (if d = 0 then 1 else (d : ℚ) / 1000) * t := by
    by_cases e : d = 0
    · exact ⟨1, close_one 1, by simp [e]⟩
    · obtain ⟨t, h1, h2⟩ := rounding_factor h ((d : ℚ) / 1000)
      exact ⟨t, h1, by rw [if_pos e, if_neg e, h2]⟩
  refine ⟨_, rfl, ?_⟩
  dsimp only
  obtain ⟨t1, c1, e1⟩ := hm
  obtain ⟨t3, c3, e3⟩ := hd
  rw [e1, e3]
  unfold formula
  generalize (if m = 0 then (1 : ℚ) else (m : ℚ) / 1000) = M
  generalize (if d = 0 then (1 : ℚ) else (d : ℚ) / 1000) = D
  obtain ⟨t2, c2, e2⟩ := rounding_factor h (raw * (M * t1))
  obtain ⟨t4, c4, e4⟩ := rounding_factor h (rnd (raw * (M * t1)) / (D * t3))
  obtain ⟨t5, c5, e5⟩ := rounding_factor h (a : ℚ)
  obtain ⟨t6, c6, e6⟩ := rounding_factor h (rnd (a : ℚ) / 1000)
  obtain ⟨t7, c7, e7⟩ := rounding_factor h
    (rnd (rnd (raw * (M * t1)) / (D * t3)) + rnd (rnd (a : ℚ) / 1000))
  rw [e7, e6, e5, e4, e2]
  have hX : close 7 (t1 * t2 * t3⁻¹ * t4 * t7) :=
    close_mono (close_mul (close_mul (close_mul (close_mul c1 c2) (close_inv c3)) c4) c7) (by norm_num)
  have hY : close 7 (t5 * t6 * t7) := close_mono (close_mul (close_mul c5 c6) c7) (by norm_num)
  have e : (raw * (M * t1) * t2 / (D * t3) * t4 + (a : ℚ) * t5 / 1000 * t6) * t7
      - (raw * M / D + (a : ℚ) / 1000)
      = raw * M / D * (t1 * t2 * t3⁻¹ * t4 * t7 - 1) + (a : ℚ) / 1000 * (t5 * t6 * t7 - 1) := by
    rw [div_eq_mul_inv _ (D * t3), mul_inv, div_eq_mul_inv _ D]
    ring
  have z : raw * M / D + ((0 : ℤ) : ℚ) / 1000 = raw * M / D := by simp
  rw [e, z]
  calc |raw * M / D * (t1 * t2 * t3⁻¹ * t4 * t7 - 1) + (a : ℚ) / 1000 * (t5 * t6 * t7 - 1)|
      ≤ |raw * M / D * (t1 * t2 * t3⁻¹ * t4 * t7 - 1)| + |(a : ℚ) / 1000 * (t5 * t6 * t7 - 1)| :=
        abs_add_le _ _
    _ = |raw * M / D| * |t1 * t2 * t3⁻¹ * t4 * t7 - 1| + |(a : ℚ) / 1000| * |t5 * t6 * t7 - 1| := by
        rw [abs_mul, abs_mul]
    _ ≤ |raw * M / D| * (1 / 2 ^ 50) + |(a : ℚ) / 1000| * (1 / 2 ^ 50) :=
        add_le_add (mul_le_mul_of_nonneg_left (close_seven hX) (abs_nonneg _))
          (mul_le_mul_of_nonneg_left (close_seven hY) (abs_nonneg _))
    _ = _ := by ring

/-- Without a reading there is no value. -/
theorem calculated_nan (rnd : ℚ → ℚ) (m d a : ℤ) : calculated rnd none m d a = none := rfl

theorem rounding_id : Rounding id := ⟨fun _ _ => rfl, fun x => by simp; positivity⟩

example : calculated id (some 250) 2000 4000 500 = some (251 / 2) := by
  simp [calculated]; norm_num

example : formula 250 2000 4000 500 = 251 / 2 := by norm_num [formula]
example : formula 7 0 0 0 = 7 := by norm_num [formula]

/-- **The text shown** is the number between its units, with a space where there is a unit and no
space was ruled out, and dashes without a value; the buffer is never exceeded. -/
theorem formatted_text (print : Nat → ℚ → List Char) (value : Option ℚ) (before after : List Char)
    (nb na precision maxSize : Nat) (h : 0 < maxSize) :
    formatted print value before after nb na precision maxSize = some
      ((shown before after (value.elim "---".toList (print precision)) (nb != 0) (na != 0)).take
        (maxSize - 1)) ∧
    ∀ t, formatted print value before after nb na precision maxSize = some t → t.length < maxSize := by
  have e : formatted print value before after nb na precision maxSize = some
      ((shown before after (value.elim "---".toList (print precision)) (nb != 0) (na != 0)).take
        (maxSize - 1)) := by
    unfold formatted shown
    dsimp only
    rw [if_neg (by omega)]
    congr 2
    cases value <;> by_cases hb : before = [] <;> by_cases ha : after = [] <;>
      by_cases h1 : nb = 0 <;> by_cases h2 : na = 0 <;> simp [hb, ha, h1, h2]
  refine ⟨e, fun t ht => ?_⟩
  rw [e] at ht
  rw [← Option.some.inj ht, List.length_take]
  omega

example : shown "$".toList "kg".toList "12.5".toList true false = "$12.5 kg".toList := by decide
example : shown [] "%".toList "---".toList false false = "--- %".toList := by decide

/-! ### How often the value is read -/

/-- **The time between readings** is the one configured, for every number a caller may give. -/
theorem interval_configured (ms : ℤ) :
    effective (stored ms) = interval (min 65535 ms.toNat) ∧ 200 ≤ effective (stored ms) ∧
      effective (stored ms) ≤ 65535 := by
  have hs : stored ms = min 65535 ms.toNat := by
    unfold stored
    split
    · omega
    · split <;> omega
  rw [hs]
  have hn : min 65535 ms.toNat ≤ 65535 := by omega
  generalize min 65535 ms.toNat = n at hn
  unfold effective interval
  by_cases h0 : n = 0
  · rw [if_pos h0, if_pos h0]; omega
  · rw [if_neg h0, if_neg h0]
    split <;> omega

/-- The channel was last read at true time `s`, no longer ago than the interval. -/
structure Read {V : Type} (r : Reader V) (s t : Nat) : Prop where
  last : r.lastRead = s % 2 ^ 32
  past : s ≤ t
  recent : t - s ≤ r.refresh
  bound : r.refresh ≤ 65535

/-- Passes at true times with the value the source has then, with the gaps bounded. -/
def spaced (t : Nat) : List (Nat × V) → Prop
  | [] => True
  | (s, _) :: l => t ≤ s ∧ s - t < 2 ^ 32 - 65536 ∧ spaced s l

/-- A history of passes. -/
def Reader.passes {V : Type} (r : Reader V) : List (Nat × V) → Reader V
  | [] => r
  | (t, v) :: l => (r.pass t v).passes l

theorem pass_read {V : Type} (r : Reader V) (s t u : Nat) (v : V) (h : Read r s t) (h1 : t ≤ u)
    (h2 : u - t < 2 ^ 32 - 65536) :
    (u - s ≤ r.refresh ∧ r.pass u v = r ∧ Read (r.pass u v) s u) ∨
    (u - s > r.refresh ∧ (r.pass u v).value = v ∧ (r.pass u v).refresh = r.refresh ∧
      Read (r.pass u v) u u) := by
  obtain ⟨a, b, c, d⟩ := h
  have hd : (u % 2 ^ 32 + 2 ^ 32 - r.lastRead) % 2 ^ 32 = u - s := by
    rw [a]; omega
  unfold Reader.pass
  rw [hd]
  by_cases hc : u - s > r.refresh
  · right
    rw [if_pos hc]
    exact ⟨hc, rfl, rfl, ⟨rfl, le_refl _, by simp, d⟩⟩
  · left
    rw [if_neg hc]
    exact ⟨by omega, rfl, ⟨a, by omega, by omega, d⟩⟩

/-- **What is shown is recent**: at every pass of every schedule with gaps below 49 days, across
wraps of the clock, the value published was read at most one interval before that pass. -/
theorem value_recent {V : Type} (r : Reader V) (s t : Nat) (h : Read r s t) (l : List (Nat × V))
    (u : Nat) (v : V) (hu : spaced t (l ++ [(u, v)])) :
    ∃ s', u - s' ≤ r.refresh ∧
      ((s' = s ∧ (r.passes (l ++ [(u, v)])).value = r.value) ∨
        ∃ w, (s', w) ∈ l ++ [(u, v)] ∧ (r.passes (l ++ [(u, v)])).value = w) := by
  induction l generalizing r s t with
  | nil =>
    obtain ⟨h1, h2, _⟩ := hu
    show ∃ s', _ ∧ ((_ ∧ (r.pass u v).value = _) ∨ ∃ w, _ ∧ (r.pass u v).value = w)
    rcases pass_read r s t u v h h1 h2 with ⟨a, b, _⟩ | ⟨_, b, _⟩
    · exact ⟨s, a, Or.inl ⟨rfl, by rw [b]⟩⟩
    · exact ⟨u, by omega, Or.inr ⟨v, by simp, b⟩⟩
  | cons p l ih =>
    obtain ⟨q, w⟩ := p
    obtain ⟨h1, h2, h3⟩ := hu
    show ∃ s', _ ∧ ((_ ∧ ((r.pass q w).passes (l ++ [(u, v)])).value = _) ∨ _)
    rcases pass_read r s t q w h h1 h2 with ⟨_, b, hr⟩ | ⟨_, b, c, hr⟩
    · rw [b] at hr
      obtain ⟨s', e1, e2⟩ := ih r s q hr h3
      refine ⟨s', e1, ?_⟩
      show (_ ∧ ((r.pass q w).passes (l ++ [(u, v)])).value = _) ∨
        ∃ x, _ ∧ ((r.pass q w).passes (l ++ [(u, v)])).value = x
      rw [b]
      rcases e2 with e2 | ⟨x, e2, e3⟩
      · exact Or.inl e2
      · exact Or.inr ⟨x, List.mem_cons_of_mem _ e2, e3⟩
    · obtain ⟨s', e1, e2⟩ := ih (r.pass q w) q q hr h3
      rw [c] at e1
      refine ⟨s', e1, Or.inr ?_⟩
      show ∃ x, _ ∧ ((r.pass q w).passes (l ++ [(u, v)])).value = x
      rcases e2 with ⟨rfl, e2⟩ | ⟨x, e2, e3⟩
      · exact ⟨w, by simp, by rw [e2, b]⟩
      · exact ⟨x, List.mem_cons_of_mem _ e2, e3⟩

/-- **The source is not read more often** than once per interval. -/
theorem reads_apart {V : Type} (r : Reader V) (s t u : Nat) (v : V) (h : Read r s t) (h1 : t ≤ u)
    (h2 : u - t < 2 ^ 32 - 65536) (hn : r.pass u v ≠ r) : u - s > r.refresh := by
  rcases pass_read r s t u v h h1 h2 with ⟨_, b, _⟩ | ⟨a, _⟩
  · exact absurd b hn
  · exact a

example : Read (⟨5000, 0, ()⟩ : Reader Unit) 0 0 := ⟨rfl, le_refl _, by simp, by simp⟩
example : ((⟨5000, 4294967000, 1⟩ : Reader Nat).pass 4294972000 2).value = 1 ∧
    ((⟨5000, 4294967000, 1⟩ : Reader Nat).pass 4294972001 2).value = 2 := by decide

/-! ### Counting -/

theorem run_steps (rnd : ℚ → ℚ) (m : Meter) (os : List Op) :
    (m.run rnd os).step = m.step ∧ (m.run rnd os).resetTo = m.resetTo ∧
      (m.run rnd os).keep = m.keep := by
  induction os generalizing m with
  | nil => exact ⟨rfl, rfl, rfl⟩
  | cons o os ih =>
    have key : (m.step1 rnd o).step = m.step ∧ (m.step1 rnd o).resetTo = m.resetTo ∧
        (m.step1 rnd o).keep = m.keep := by
      cases o with
      | set | inc | dec | reset => exact ⟨rfl, rfl, rfl⟩
      | save => simp only [Meter.step1]; split <;> exact ⟨rfl, rfl, rfl⟩
      | restart => simp only [Meter.step1]; split <;> [split; skip] <;> exact ⟨rfl, rfl, rfl⟩
    obtain ⟨a, b, c⟩ := ih (m.step1 rnd o)
    exact ⟨a.trans key.1, b.trans key.2.1, c.trans key.2.2⟩

/-- **Counting is exact**: from a known value, after any number of increments and decrements (and
saves), the value is the exact total, as long as the totals have room in a double. -/
theorem count_exact (rnd : ℚ → ℚ) (h : Rounding rnd) (m : Meter) (v step : ℤ)
    (hv : m.value = some (v : ℚ)) (hs : m.step = (step : ℚ)) (os : List Op)
    (ho : ∀ o ∈ os, o.counts = true) (hd : ∀ o ∈ os, small (o.delta step))
    (hr : inRange step v os) :
    (m.run rnd os).value = some ((v + (os.map (Op.delta step)).sum : ℤ) : ℚ) := by
  induction os generalizing m v with
  | nil => simpa [Meter.run] using hv
  | cons o os ih =>
    obtain ⟨_, hr⟩ := hr
    have hsm : small (v + o.delta step) := by
      cases os with
      | nil => exact hr
      | cons => exact hr.1
    have hdo := hd o (by simp)
    have key : (m.step1 rnd o).value = some ((v + o.delta step : ℤ) : ℚ) ∧
        (m.step1 rnd o).step = m.step := by
      have ho := ho o (by simp)
      cases o with
      | set => simp [Op.counts] at ho
      | reset => simp [Op.counts] at ho
      | restart => simp [Op.counts] at ho
      | save =>
        simp only [Meter.step1, Op.delta, add_zero]
        split
        · exact ⟨hv, rfl⟩
        · exact ⟨hv, rfl⟩
      | inc d =>
        refine ⟨?_, rfl⟩
        simp only [Meter.step1, Op.delta, hv, hs, Option.map_some, Option.some.injEq] at hsm hdo ⊢
        by_cases hz : d = 0
        · simp only [hz, if_true] at hsm ⊢
          rw [← Int.cast_add, h.exact _ hsm]
        · simp only [hz, if_false] at hsm hdo ⊢
          rw [h.exact d hdo, ← Int.cast_add, h.exact _ hsm]
      | dec d =>
        refine ⟨?_, rfl⟩
        simp only [Meter.step1, Op.delta, hv, hs, Option.map_some, Option.some.injEq] at hsm hdo ⊢
        by_cases hz : d = 0
        · simp only [hz, if_true] at hsm ⊢
          rw [← Int.cast_sub, sub_eq_add_neg, h.exact _ hsm]
        · simp only [hz, if_false] at hsm hdo ⊢
          have hdd : small d := by unfold small at *; omega
          rw [h.exact d hdd, ← Int.cast_sub, sub_eq_add_neg, h.exact _ hsm]
    have := ih (m.step1 rnd o) (v + o.delta step) key.1 (key.2.trans hs)
      (fun x hx => ho x (by simp [hx])) (fun x hx => hd x (by simp [hx])) hr
    show ((m.step1 rnd o).run rnd os).value = _
    rw [this, List.map_cons, List.sum_cons, add_assoc]

example : inRange 1 5 [.inc 0, .inc 0, .dec 3, .save, .inc 0] := by
  simp [inRange, small, Op.delta]

example : ((⟨some 5, 1, 0, true, none⟩ : Meter).run id [.inc 0, .inc 0, .dec 3, .save, .inc 0]).value
    = some 5 := by
  simp [Meter.run, Meter.step1]; norm_num

/-- **Reset** and **set** take effect whatever happened before. -/
theorem reset_value (rnd : ℚ → ℚ) (m : Meter) (os : List Op) :
    (m.run rnd (os ++ [.reset])).value = some m.resetTo := by
  induction os generalizing m with
  | nil => rfl
  | cons o os ih =>
    show ((m.step1 rnd o).run rnd (os ++ [.reset])).value = _
    rw [ih, show (m.step1 rnd o).resetTo = m.resetTo from (run_steps rnd m [o]).2.1]

theorem set_value (rnd : ℚ → ℚ) (h : Rounding rnd) (m : Meter) (os : List Op) (v : ℤ) (hv : small v) :
    (m.run rnd (os ++ [.set v])).value = some (v : ℚ) := by
  induction os generalizing m with
  | nil => simp [Meter.run, Meter.step1, h.exact v hv]
  | cons o os ih => exact ih (m.step1 rnd o)

/-- **A restart brings back the saved value**: whatever happened before the save, and whatever was
counted (but not saved) after it. -/
theorem restart_value (rnd : ℚ → ℚ) (m : Meter) (hk : m.keep = true) (before after : List Op)
    (ha : ∀ o ∈ after, o ≠ .save ∧ o ≠ .restart) :
    (m.run rnd (before ++ .save :: (after ++ [.restart]))).value = (m.run rnd before).value := by
  induction before generalizing m with
  | cons o os ih =>
    exact ih (m.step1 rnd o) ((run_steps rnd m [o]).2.2.trans hk)
  | nil =>
    show ((m.step1 rnd .save).run rnd (after ++ [.restart])).value = m.value
    have e : m.step1 rnd .save = { m with saved := some m.value } := by
      simp only [Meter.step1, hk, if_true]
    rw [e]
    have key : ∀ (after : List Op) (n : Meter), (∀ o ∈ after, o ≠ .save ∧ o ≠ .restart) →
        n.keep = true → n.saved = some m.value →
        (n.run rnd (after ++ [.restart])).value = m.value := by
      intro after
      induction after with
      | nil =>
        intro n _ h1 h2
        simp only [List.nil_append, Meter.run, Meter.step1, h1, h2, if_true]
      | cons o os ih =>
        intro n h0 h1 h2
        have hs : (n.step1 rnd o).saved = n.saved := by
          have := h0 o (by simp)
          cases o with
          | save => exact absurd rfl this.1
          | restart => exact absurd rfl this.2
          | _ => rfl
        exact ih (n.step1 rnd o) (fun x hx => h0 x (by simp [hx]))
          ((run_steps rnd n [o]).2.2.trans h1) (hs.trans h2)
    exact key after _ ha hk rfl

example : ((Meter.fresh 1 0 true).run id [.set 7, .inc 0, .save, .inc 0, .restart]).value = some 8 := by
  simp [Meter.run, Meter.step1, Meter.fresh]; norm_num

/-- A meter of a new device counts from its reset value. -/
def CountsFromNew : Prop :=
  ∀ (rnd : ℚ → ℚ), Rounding rnd → ∀ n : Nat, n ≤ 1000 →
    ((Meter.fresh 1 0 true).run rnd (List.replicate n (.inc 0))).value = some (n : ℚ)

/-- A meter that never had a value never gets one by counting, saving and restarting. -/
theorem new_meter_stays_unknown (rnd : ℚ → ℚ) (step resetTo : ℚ) (keep : Bool) (os : List Op)
    (ho : ∀ o ∈ os, o ≠ .reset ∧ ∀ v, o ≠ .set v) :
    ((Meter.fresh step resetTo keep).run rnd os).value = none := by
  have key : ∀ (os : List Op) (m : Meter), (∀ o ∈ os, o ≠ .reset ∧ ∀ v, o ≠ .set v) →
      m.value = none → (m.saved = none ∨ m.saved = some none) → (m.run rnd os).value = none := by
    intro os
    induction os with
    | nil => intro m _ h _; exact h
    | cons o os ih =>
      intro m h0 h1 h2
      refine ih (m.step1 rnd o) (fun x hx => h0 x (by simp [hx])) ?_ ?_
      · have := h0 o (by simp)
        cases o with
        | set v => exact absurd rfl (this.2 v)
        | reset => exact absurd rfl this.1
        | inc | dec => simp [Meter.step1, h1]
        | save => simp only [Meter.step1]; split <;> exact h1
        | restart =>
          rcases h2 with h2 | h2 <;> simp only [Meter.step1, h2] <;> split <;> rfl
      · have := h0 o (by simp)
        cases o with
        | set v => exact absurd rfl (this.2 v)
        | reset => exact absurd rfl this.1
        | inc | dec => exact h2
        | save =>
          simp only [Meter.step1]
          split
          · exact Or.inr (by rw [← h1])
          · exact h2
        | restart =>
          rcases h2 with h2 | h2 <;> simp only [Meter.step1, h2] <;> split <;> simp
  exact key os _ ho rfl (Or.inl rfl)

/-- **False**: the memory variable starts as NaN, and NaN plus one is NaN.  No pulse of a new meter is
ever counted before somebody resets it. -/
theorem counts_from_new_violation : ¬ CountsFromNew := by
  intro h
  have h1 := h id rounding_id 1 (by omega)
  have h2 := new_meter_stays_unknown id 1 0 true (List.replicate 1 (.inc 0)) (by simp)
  rw [h2] at h1
  simp at h1

/-- What remains: after a reset it counts. -/
theorem counts_from_new_partial (rnd : ℚ → ℚ) (h : Rounding rnd) (n : Nat) (hn : n ≤ 1000) :
    ((Meter.fresh 1 0 true).run rnd (.reset :: List.replicate n (.inc 0))).value = some (n : ℚ) := by
  have := count_exact rnd h ((Meter.fresh 1 0 true).step1 rnd .reset) 0 1
    (by simp [Meter.step1, Meter.fresh]) (by simp [Meter.step1, Meter.fresh])
    (List.replicate n (.inc 0)) (by simp +contextual [List.mem_replicate, Op.counts])
    (by simp +contextual [List.mem_replicate, Op.delta, small])
    (by
      have : ∀ (k : Nat) (v : ℤ), 0 ≤ v → v + k ≤ 1000 →
          inRange 1 v (List.replicate k (.inc 0)) := by
        intro k
        induction k with
        | zero => intro v h1 h2; simp only [List.replicate, inRange, small]; omega
        | succ k ih =>
          intro v h1 h2
          refine ⟨by unfold small; omega, ?_⟩
          simp only [Op.delta, if_true]
          exact ih (v + 1) (by omega) (by push_cast at h2; omega)
      exact this n 0 (le_refl _) (by omega))
  show (((Meter.fresh 1 0 true).step1 rnd .reset).run rnd (List.replicate n (.inc 0))).value = _
  rw [this]
  simp [Op.delta]

/-- Only an authorised request resets, and it always does. -/
theorem remote_reset (m : Meter) (supported : Bool) (superUser : Nat) :
    (superUser = 0 → (m.calcfgReset supported superUser).1 = m ∧
      (m.calcfgReset supported superUser).2 = 104) ∧
    (superUser ≠ 0 → (m.calcfgReset supported superUser).1.value = some m.resetTo ∧
      (m.calcfgReset supported superUser).2 = 2) := by
  unfold Meter.calcfgReset
  constructor
  · intro h; rw [if_pos h]; exact ⟨rfl, rfl⟩
  · intro h; rw [if_neg h]; exact ⟨rfl, rfl⟩

/-- A meter declared not to support resetting is not reset by the server. -/
def ResetOnlyIfSupported : Prop :=
  ∀ (m : Meter) (superUser : Nat), (m.calcfgReset false superUser).1 = m

/-- **False**: the declaration is only told to the server. -/
theorem reset_only_if_supported_violation : ¬ ResetOnlyIfSupported := by
  intro h
  have := congrArg Meter.value (h ⟨some 5, 1, 0, true, none⟩ 1)
  simp [Meter.calcfgReset] at this

end Verif.Gpm
