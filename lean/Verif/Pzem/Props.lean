import Verif.Pzem.Model
import Verif.Pzem.Spec
import Mathlib.Algebra.Order.AbsoluteValue.Basic
import Mathlib.Tactic.Linarith
import Mathlib.Tactic.Ring
import Mathlib.Tactic.FieldSimp
import Mathlib.Tactic.NormNum
import Mathlib.Tactic.Positivity

/-! # PZEM meters: proofs -/

namespace Verif.Pzem

theorem close_nonneg {F : Rat → Rat} (hF : Close F) {x : Rat} (hx : 0 ≤ x) : 0 ≤ F x := by
  have h := abs_le.mp (hF x)
  rw [abs_of_nonneg hx] at h
  linarith [h.1]

theorem close_le {F : Rat → Rat} (hF : Close F) {x : Rat} (hx : 0 ≤ x) : F x ≤ x + x / 2 ^ 24 := by
  have h := abs_le.mp (hF x)
  rw [abs_of_nonneg hx] at h
  linarith [h.2]

theorem trunc_bounds {y : Rat} (hy : 0 ≤ y) : y - 1 < (trunc y : Rat) ∧ (trunc y : Rat) ≤ y ∧ 0 ≤ trunc y := by
  unfold trunc
  rw [if_pos hy]
  exact ⟨Rat.lt_floor, Rat.floor_le y, Rat.le_floor_iff.mpr (by simpa using hy)⟩

/-- What is shown after a truncation is near, if the value before it is. -/
theorem near_of {k : Nat} (hk : 0 < k) {x y : Rat} (hx : 0 ≤ x) (hy : 0 ≤ y) (h : |y - x * k| ≤ x * k / 2 ^ 22) :
    Near (1 / k) x (trunc y : Rat) := by
  obtain ⟨h1, h2, -⟩ := trunc_bounds hy
  have hk' : (0 : Rat) < k := by exact_mod_cast hk
  have hh := abs_le.mp h
  unfold Near
  rw [abs_of_nonneg hx]
  have e : (trunc y : Rat) * (1 / k) - x = ((trunc y : Rat) - x * k) / k := by field_simp
  have e2 : 1 / (k : Rat) + x / 2 ^ 22 = (1 + x * k / 2 ^ 22) / k := by field_simp
  rw [e, e2, abs_lt]
  refine ⟨?_, ?_⟩
  · rw [← neg_div]
    exact div_lt_div_of_pos_right (by linarith [hh.1]) hk'
  · exact div_lt_div_of_pos_right (by linarith [hh.2]) hk'

theorem near_scaled {F : Rat → Rat} (hF : Close F) {k : Nat} (hk : 0 < k) {x : Rat} (hx : 0 ≤ x) :
    Near (1 / k) x (trunc (F (x * k)) : Rat) := by
  have hk' : (0 : Rat) < k := by exact_mod_cast hk
  have hxk : 0 ≤ x * k := by positivity
  refine near_of hk hx (close_nonneg hF hxk) (le_trans (hF _) ?_)
  rw [abs_of_nonneg hxk]
  linarith

theorem near_twice {F : Rat → Rat} (hF : Close F) {k : Nat} (hk : 0 < k) {x : Rat} (hx : 0 ≤ x) :
    Near (1 / k) x (trunc (F (F x * k)) : Rat) := by
  have hk' : (0 : Rat) < k := by exact_mod_cast hk
  have h0 := close_nonneg hF hx
  have hxk : 0 ≤ F x * k := by positivity
  have hx' : 0 ≤ x * k := by positivity
  refine near_of hk hx (close_nonneg hF hxk) ?_
  have h1 := hF (F x * k)
  rw [abs_of_nonneg hxk] at h1
  have h2 := hF x
  rw [abs_of_nonneg hx] at h2
  have h1 := abs_le.mp h1
  have h2 := abs_le.mp h2
  have h3 : (F x - x) * k ≤ x / 2 ^ 24 * k := mul_le_mul_of_nonneg_right h2.2 hk'.le
  have h4 : -(x / 2 ^ 24) * k ≤ (F x - x) * k := mul_le_mul_of_nonneg_right h2.1 hk'.le
  rw [abs_le]
  generalize hA : F x * k = A at *
  generalize hB : x * k = B at *
  have e3 : (F x - x) * k = A - B := by rw [← hA, ← hB]; ring
  have e4 : x / 2 ^ 24 * k = B / 2 ^ 24 := by rw [← hB]; ring
  have e5 : -(x / 2 ^ 24) * k = -(B / 2 ^ 24) := by rw [← hB]; ring
  rw [e3, e4] at h3
  rw [e3, e5] at h4
  constructor <;> linarith [h1.1, h1.2]

/-- The numbers of a module that answered, within the limits of the fields. -/
structure Fits (d : Driver) (r : Reading) (v i p e f c : Rat) : Prop where
  voltage : r.voltage = some v
  current : r.current = some i
  power : r.power = some p
  energy : r.energy = some e
  freq : d.two = false → r.freq = some f
  pf : d.two = false → r.pf = some c
  v0 : 0 ≤ v
  v1 : v ≤ 600
  i0 : 0 ≤ i
  i1 : i ≤ 1000
  p0 : 0 ≤ p
  p1 : p ≤ 1000000
  e0 : 0 ≤ e
  e1 : e ≤ 10000000000
  f0 : 0 ≤ f
  f1 : f ≤ 600
  c0 : 0 ≤ c
  c1 : c ≤ 1

theorem toU_nonneg {m : Nat} {x : Rat} (hx : 0 ≤ x) (hm : x < m) : toU m (some x) = some (trunc x).toNat := by
  show (if _ then _ else _) = _
  rw [if_pos ⟨by linarith, hm⟩]

theorem toS_nonneg {m : Nat} {x : Rat} (hx : 0 ≤ x) (hm : x < m) : toS m (some x) = some (trunc x) := by
  show (if _ then _ else _) = _
  have : (0 : Rat) ≤ m := Nat.cast_nonneg m
  rw [if_pos ⟨by linarith, hm⟩]

theorem toU_scaled {F : Rat → Rat} (hF : Close F) {m k : Nat} {x b : Rat} (hx : 0 ≤ x) (hb : x ≤ b) (hm : b * k + b * k / 1000 < m) :
    toU m (scaled F k (some x)) = some (trunc (F (x * k))).toNat := by
  have hk : (0 : Rat) ≤ k := Nat.cast_nonneg k
  have hxk : 0 ≤ x * k := by positivity
  have h2 := close_le hF hxk
  have h3 : x * k ≤ b * k := mul_le_mul_of_nonneg_right hb hk
  exact toU_nonneg (close_nonneg hF hxk) (by linarith)

theorem toS_scaled {F : Rat → Rat} (hF : Close F) {m k : Nat} {x b : Rat} (hx : 0 ≤ x) (hb : x ≤ b) (hm : b * k + b * k / 1000 < m) :
    toS m (scaled F k (some x)) = some (trunc (F (x * k))) := by
  have hk : (0 : Rat) ≤ k := Nat.cast_nonneg k
  have hxk : 0 ≤ x * k := by positivity
  have h2 := close_le hF hxk
  have h3 : x * k ≤ b * k := mul_le_mul_of_nonneg_right hb hk
  exact toS_nonneg (close_nonneg hF hxk) (by linarith)

theorem toNat_trunc {y : Rat} (hy : 0 ≤ y) : (((trunc y).toNat : Nat) : Rat) = (trunc y : Rat) := by
  have := Int.toNat_of_nonneg (trunc_bounds hy).2.2
  exact_mod_cast this

/-! ## One module -/

/-- What a phase shows when its module read `v` volts, `i` amperes, `p` watts, `kwh` kWh, and (version 3) the power
factor `c`. -/
structure Shown (d : Driver) (v i p kwh c : Rat) (ph : Phase) : Prop where
  voltage : Near (1 / 100) v ph.voltage
  current : Near (1 / 1000) i ph.current
  active : Near (1 / 100000) p ph.active
  apparent : Near (1 / 100000) (v * i) ph.apparent
  energy : Near (1 / 100000) kwh ph.energy
  pf : d.two = false → Near (1 / 1000) c ph.pf

/-- The energy that the module means: version 2 gives Wh. -/
def kwh (d : Driver) (e : Rat) : Rat := if d.two then e / 1000 else e

/-- One of the four drivers. -/
def Known (d : Driver) : Prop := d = v3 ∨ d = threePhase ∨ d = threePhaseAddr ∨ d = v2

theorem near_energy {d : Driver} (hd : Known d) {F : Rat → Rat} (hF : Close F) {e : Rat} (he : 0 ≤ e) :
    Near (1 / 100000) (kwh d e) (trunc (F (e * d.energyFactor)) : Rat) := by
  rcases hd with h | h | h | h <;> subst h
  · exact near_scaled hF (k := 100000) (by norm_num) he
  · exact near_scaled hF (k := 100000) (by norm_num) he
  · exact near_scaled hF (k := 100000) (by norm_num) he
  · have h := near_scaled hF (k := 100) (by norm_num) he
    show Near (1 / 100000) (e / 1000) (trunc (F (e * (100 : Nat))) : Rat)
    unfold Near at *
    generalize (trunc (F (e * (100 : Nat))) : Rat) = n at *
    rw [abs_of_nonneg he, abs_lt] at h
    rw [abs_of_nonneg (by linarith : 0 ≤ e / 1000), abs_lt]
    push_cast at h
    constructor <;> linarith [h.1, h.2]

theorem toI16_id {x : Int} (h1 : -32768 ≤ x) (h2 : x < 32768) : toI16 x = x := by unfold toI16; omega

theorem factor_bounds {F : Rat → Rat} (hF : Close F) {c : Rat} (h0 : 0 ≤ c) (h1 : c ≤ 1) :
    0 ≤ F (c * (1000 : Nat)) ∧ F (c * (1000 : Nat)) < 2000 := by
  have hx : 0 ≤ c * (1000 : Nat) := by positivity
  refine ⟨close_nonneg hF hx, ?_⟩
  have := close_le hF hx
  push_cast at *
  linarith

theorem trunc_lt {y : Rat} {n : Int} (h0 : 0 ≤ y) (h : y < n) : trunc y < n := by
  have := (trunc_bounds h0).2.1
  have h2 : (trunc y : Rat) < n := lt_of_le_of_lt this h
  exact_mod_cast h2

/-- The power factor that goes to the setter: at most 2 000 thousandths. -/
theorem pf_set {d : Driver} {F : Rat → Rat} (hF : Close F) {r : Reading} {v i p e f c : Rat} (h : Fits d r v i p e f c) :
    ∃ q : Rat, (if d.two then powerFactor F (apparent F r) r.power else r.pf) = some q ∧ 0 ≤ q ∧ q ≤ 2 ∧
      (d.two = false → q = c) := by
  cases hd : d.two with
  | false =>
    rw [if_neg Bool.false_ne_true]
    exact ⟨c, h.pf hd, h.c0, by linarith [h.c1], fun _ => rfl⟩
  | true =>
    rw [if_pos rfl]
    have ha : apparent F r = some (F (v * i)) := by unfold apparent; rw [h.voltage, h.current]
    have h0 : 0 ≤ F (v * i) := close_nonneg hF (mul_nonneg h.v0 h.i0)
    rw [ha, h.power]
    show ∃ q, (if p > F (v * i) then some (1 : Rat) else if F (v * i) = 0 then some 0 else some (F (p / F (v * i)))) = some q ∧ _
    generalize F (v * i) = a at *
    by_cases h1 : p > a
    · rw [if_pos h1]; exact ⟨1, rfl, by norm_num, by norm_num, fun h => by cases h⟩
    · rw [if_neg h1]
      by_cases h2 : a = 0
      · rw [if_pos h2]; exact ⟨0, rfl, le_refl _, by norm_num, fun h => by cases h⟩
      · rw [if_neg h2]
        have hq : 0 ≤ p / a := div_nonneg h.p0 h0
        have hq1 : p / a ≤ 1 := (div_le_one (lt_of_le_of_ne h0 (Ne.symm h2))).mpr (not_lt.mp h1)
        exact ⟨_, rfl, close_nonneg hF hq, by linarith [close_le hF hq], fun h => by cases h⟩

/-- A module that answers: nothing undefined, and its phase shows what it read. -/
theorem setPhase_shown {d : Driver} (hd : Known d) {F : Rat → Rat} (hF : Close F) {r : Reading} {v i p e f c : Rat}
    (h : Fits d r v i p e f c) : ∃ ph, setPhase F d r = some ph ∧ Shown d v i p (kwh d e) c ph ∧
      ph.reactive = reactive F d.reactFactor (some (F (v * i))) (some p) ∧
      ∃ q, (if d.two then powerFactor F (some (F (v * i))) (some p) else r.pf) = some q ∧ 0 ≤ q ∧
        ph.pf = trunc (F (q * (1000 : Nat))) := by
  have hvi : 0 ≤ v * i := mul_nonneg h.v0 h.i0
  have ha0 := close_nonneg hF hvi
  have ha1 : F (v * i) ≤ 1200000 := by
    have h1 : v * i ≤ 600 * 1000 := mul_le_mul h.v1 h.i1 h.i0 (by norm_num)
    linarith [close_le hF hvi]
  have ha : apparent F r = some (F (v * i)) := by unfold apparent; rw [h.voltage, h.current]
  obtain ⟨q, hq, hq0, hq2, hqc⟩ := pf_set hF h
  have e1 := toU_scaled hF (m := 65536) (k := 100) h.v0 h.v1 (by norm_num)
  have e2 := toU_scaled hF (m := 4294967296) (k := 1000) h.i0 h.i1 (by norm_num)
  have e3 := toS_scaled hF (m := 9223372036854775808) (k := 100000) h.p0 h.p1 (by norm_num)
  have hef : d.energyFactor = 100 ∨ d.energyFactor = 100000 := by
    rcases hd with h | h | h | h <;> subst h <;> simp [v3, threePhase, threePhaseAddr, v2]
  have e4 := toU_scaled hF (m := 18446744073709551616) (k := d.energyFactor) h.e0 h.e1 (by
    rcases hef with h | h <;> rw [h] <;> norm_num)
  have e5 := toS_scaled hF (m := 2147483648) (k := 1000) hq0 hq2 (by norm_num)
  have e6 := toS_scaled hF (m := 9223372036854775808) (k := 100000) ha0 ha1 (by norm_num)
  have hq' : 0 ≤ q * (1000 : Nat) := by positivity
  have hqt : toI16 (trunc (F (q * (1000 : Nat)))) = trunc (F (q * (1000 : Nat))) := by
    have t0 := close_nonneg hF hq'
    have t1 := close_le hF hq'
    refine toI16_id (by have := (trunc_bounds t0).2.2; omega) (trunc_lt t0 ?_)
    push_cast at *
    linarith
  have hset : setPhase F d r = some { voltage := (trunc (F (v * (100 : Nat)))).toNat, current := (trunc (F (i * (1000 : Nat)))).toNat, active := trunc (F (p * (100000 : Nat))), reactive := reactive F d.reactFactor (some (F (v * i))) (some p), apparent := trunc (F (F (v * i) * (100000 : Nat))), pf := trunc (F (q * (1000 : Nat))), energy := (trunc (F (e * d.energyFactor))).toNat } := by
    unfold setPhase
    rw [hq, ha, h.voltage, h.current, h.power, h.energy, e1, e2, e3, e4, e5, e6]
    simp only [bind, Option.bind, pure]
    rw [hqt]
  refine ⟨_, hset, ⟨?_, ?_, ?_, ?_, ?_, ?_⟩, rfl, q, ?_, hq0, rfl⟩
  · rw [toNat_trunc (close_nonneg hF (by have := h.v0; positivity))]
    exact near_scaled hF (k := 100) (by norm_num) h.v0
  · rw [toNat_trunc (close_nonneg hF (by have := h.i0; positivity))]
    exact near_scaled hF (k := 1000) (by norm_num) h.i0
  · exact near_scaled hF (k := 100000) (by norm_num) h.p0
  · exact near_twice hF (k := 100000) (by norm_num) hvi
  · rw [toNat_trunc (close_nonneg hF (by have := h.e0; positivity))]
    exact near_energy hd hF h.e0
  · intro h2
    rw [hqc h2]
    exact near_scaled hF (k := 1000) (by norm_num) h.c0
  · rw [← hq, ha, h.power]

/-! ## All modules, and histories -/

/-- The module gave no answer: no number for the current, for version 2 the number −1. -/
def Silent (d : Driver) (r : Reading) : Prop := r.current = if d.two then some (-1) else none

/-- A module either gives no answer or numbers within the limits. -/
def Ok (d : Driver) (r : Reading) : Prop := Silent d r ∨ ∃ v i p e f c, Fits d r v i p e f c

theorem silent_answered {d : Driver} {r : Reading} (h : Silent d r) : answered d r = false := by
  unfold Silent at h
  unfold answered
  cases hd : d.two <;> rw [hd] at h <;> simp only [Bool.false_eq_true, if_true, if_false] at h ⊢ <;> rw [h] <;> rfl

theorem fits_answered {d : Driver} {r : Reading} {v i p e f c : Rat} (h : Fits d r v i p e f c) : answered d r = true := by
  unfold answered
  rw [h.current]
  cases hd : d.two
  · rfl
  · simp only [if_true]
    have h0 := h.i0
    exact decide_eq_true fun h => by
      have h := Option.some.inj h
      rw [h] at h0
      revert h0
      decide

theorem setFreq_ok {d : Driver} {F : Rat → Rat} (hF : Close F) {r : Reading} {v i p e f c : Rat} (h : Fits d r v i p e f c)
    (old : Nat) : ∃ n, setFreq F d r old = some n ∧ (d.two = false → Near (1 / 100) f n) := by
  unfold setFreq
  cases hd : d.two
  · rw [if_neg Bool.false_ne_true, h.freq hd]
    refine ⟨_, toU_scaled hF (m := 65536) (k := 100) h.f0 h.f1 (by norm_num), fun _ => ?_⟩
    rw [toNat_trunc (close_nonneg hF (by have := h.f0; positivity))]
    exact near_scaled hF (k := 100) (by norm_num) h.f0
  · exact ⟨old, rfl, fun h => by cases h⟩

/-- What one round over modules `i`, …, `i + n - 1` does. -/
structure Round (F : Rat → Rat) (d : Driver) (rs : Nat → Reading) (i n : Nat) (s t : S) : Prop where
  out : ∀ j, j < i ∨ i + n ≤ j → t.ph j = s.ph j
  got : ∀ j, i ≤ j → j < i + n → answered d (rs j) = true → setPhase F d (rs j) = some (t.ph j)
  lost : ∀ j, i ≤ j → j < i + n → answered d (rs j) = false → t.ph j = resetPhase (s.ph j)
  some' : (∃ j, i ≤ j ∧ j < i + n ∧ answered d (rs j) = true) → t.count = 1 ∧ t.measured = true ∧ (d.two = false →
    ∃ j, i ≤ j ∧ j < i + n ∧ ∃ v a p e f c, Fits d (rs j) v a p e f c ∧ Near (1 / 100) f t.freq)
  none' : (∀ j, i ≤ j → j < i + n → answered d (rs j) = false) → t.count = s.count ∧ t.measured = s.measured ∧ t.freq = s.freq

theorem readFrom_round {d : Driver} (hd : Known d) {F : Rat → Rat} (hF : Close F) (rs : Nat → Reading) (n : Nat) :
    ∀ i s, (∀ j, i ≤ j → j < i + n → Ok d (rs j)) → ∃ t, readFrom F d rs n i s = some t ∧ Round F d rs i n s t := by
  induction n with
  | zero =>
    intro i s _
    exact ⟨s, rfl, fun _ _ => rfl, fun j h1 h2 => by omega, fun j h1 h2 => by omega, fun ⟨j, h1, h2, _⟩ => by omega,
      fun _ => ⟨rfl, rfl, rfl⟩⟩
  | succ n ih =>
    intro i s hok
    have hi := hok i (le_refl _) (by omega)
    have hok' : ∀ j, i + 1 ≤ j → j < i + 1 + n → Ok d (rs j) := fun j h1 h2 => hok j (by omega) (by omega)
    show ∃ t, (readPhase F d i (rs i) s).bind (readFrom F d rs n (i + 1)) = some t ∧ _
    rcases hi with hs | ⟨v, a, p, e, f, c, hf⟩
    · have ha := silent_answered hs
      have h1 : readPhase F d i (rs i) s = some { s with ph := fun j => if j = i then resetPhase (s.ph j) else s.ph j } := by
        unfold readPhase
        rw [ha, if_neg Bool.false_ne_true]
      rw [h1]
      obtain ⟨t, ht, r⟩ := ih (i + 1) { s with ph := fun j => if j = i then resetPhase (s.ph j) else s.ph j } hok'
      refine ⟨t, ht, ?_, ?_, ?_, ?_, ?_⟩
      · intro j hj
        rw [r.out j (by omega)]
        exact if_neg (by omega)
      · intro j h1 h2 h3
        by_cases hj : j = i
        · rw [hj, ha] at h3; cases h3
        · exact r.got j (by omega) (by omega) h3
      · intro j h1 h2 h3
        by_cases hj : j = i
        · rw [r.out j (by omega)]
          exact if_pos hj
        · rw [r.lost j (by omega) (by omega) h3]
          exact congrArg resetPhase (if_neg hj)
      · rintro ⟨j, h1, h2, h3⟩
        by_cases hj : j = i
        · rw [hj, ha] at h3; cases h3
        · obtain ⟨c1, c2, c3⟩ := r.some' ⟨j, by omega, by omega, h3⟩
          refine ⟨c1, c2, fun h => ?_⟩
          obtain ⟨k, k1, k2, k3⟩ := c3 h
          exact ⟨k, by omega, by omega, k3⟩
      · intro h
        exact r.none' fun j h1 h2 => h j (by omega) (by omega)
    · have ha := fits_answered hf
      obtain ⟨ph, hph, -, -⟩ := setPhase_shown hd hF hf
      obtain ⟨fr, hfr, hnear⟩ := setFreq_ok hF hf s.freq
      have h1 : readPhase F d i (rs i) s = some { ph := fun j => if j = i then ph else s.ph j, freq := fr, count := 1, measured := true } := by
        unfold readPhase
        rw [ha, if_pos rfl, hph, hfr]
        rfl
      rw [h1]
      obtain ⟨t, ht, r⟩ := ih (i + 1) { ph := fun j => if j = i then ph else s.ph j, freq := fr, count := 1, measured := true } hok'
      refine ⟨t, ht, ?_, ?_, ?_, ?_, ?_⟩
      · intro j hj
        rw [r.out j (by omega)]
        exact if_neg (by omega)
      · intro j h1 h2 h3
        by_cases hj : j = i
        · rw [r.out j (by omega), hj, hph]
          exact congrArg some (if_pos rfl).symm
        · exact r.got j (by omega) (by omega) h3
      · intro j h1 h2 h3
        by_cases hj : j = i
        · rw [hj, ha] at h3; cases h3
        · rw [r.lost j (by omega) (by omega) h3]
          exact congrArg resetPhase (if_neg hj)
      · intro _
        by_cases hany : ∃ j, i + 1 ≤ j ∧ j < i + 1 + n ∧ answered d (rs j) = true
        · obtain ⟨c1, c2, c3⟩ := r.some' hany
          refine ⟨c1, c2, fun h => ?_⟩
          obtain ⟨k, k1, k2, k3⟩ := c3 h
          exact ⟨k, by omega, by omega, k3⟩
        · obtain ⟨c1, c2, c3⟩ := r.none' fun j h1 h2 => by
            cases hh : answered d (rs j)
            · rfl
            · exact absurd ⟨j, h1, h2, hh⟩ hany
          refine ⟨c1, c2, fun h => ⟨i, le_refl _, by omega, v, a, p, e, f, c, hf, ?_⟩⟩
          rw [c3]
          exact hnear h
      · intro h
        rw [h i (le_refl _) (by omega)] at ha
        cases ha

/-- As long as nothing was measured, all is zero. -/
def Inv (s : S) : Prop := s.measured = false → (∀ j, s.ph j = {}) ∧ s.freq = 0

/-- What a reading of all modules leaves. -/
structure After (F : Rat → Rat) (d : Driver) (rs : Nat → Reading) (s t : S) : Prop where
  got : ∀ j, j < d.phases → answered d (rs j) = true → setPhase F d (rs j) = some (t.ph j)
  lost : ∀ j, j < d.phases → answered d (rs j) = false → t.ph j = { energy := (s.ph j).energy }
  some' : (∃ j, j < d.phases ∧ answered d (rs j) = true) → t.count = 1 ∧ (d.two = false →
    ∃ j, j < d.phases ∧ ∃ v a p e f c, Fits d (rs j) v a p e f c ∧ Near (1 / 100) f t.freq)
  none' : (∀ j, j < d.phases → answered d (rs j) = false) → t.count = 0 ∧ t.freq = 0

theorem read_after {d : Driver} (hd : Known d) {F : Rat → Rat} (hF : Close F) (rs : Nat → Reading) (s : S) (hi : Inv s)
    (hok : ∀ j, j < d.phases → Ok d (rs j)) : ∃ t, read F d rs s = some t ∧ Inv t ∧ After F d rs s t := by
  obtain ⟨t, ht, r⟩ := readFrom_round hd hF rs d.phases 0 s (fun j _ h2 => hok j (by omega))
  have hread : read F d rs s = some (if (List.range d.phases).any (fun i => answered d (rs i)) then t else reset t) := by
    unfold read
    rw [ht]
    rfl
  rw [hread]
  by_cases hany : ∃ j, j < d.phases ∧ answered d (rs j) = true
  · have h1 : ((List.range d.phases).any fun i => answered d (rs i)) = true := by
      obtain ⟨j, h1, h2⟩ := hany
      exact List.any_eq_true.mpr ⟨j, List.mem_range.mpr h1, h2⟩
    rw [h1, if_pos rfl]
    obtain ⟨j, h1, h2⟩ := hany
    obtain ⟨c1, c2, c3⟩ := r.some' ⟨j, Nat.zero_le _, by omega, h2⟩
    refine ⟨t, rfl, (fun h => by rw [c2] at h; cases h), ?_, ?_, ?_, ?_⟩
    · exact fun j h1 => r.got j (Nat.zero_le _) (by omega)
    · exact fun j h1 => r.lost j (Nat.zero_le _) (by omega)
    · refine fun _ => ⟨c1, fun h => ?_⟩
      obtain ⟨k, _, k2, k3⟩ := c3 h
      exact ⟨k, by omega, k3⟩
    · intro h
      rw [h j h1] at h2
      cases h2
  · have hnone : ∀ j, j < d.phases → answered d (rs j) = false := fun j h => by
      cases hh : answered d (rs j)
      · rfl
      · exact absurd ⟨j, h, hh⟩ hany
    have h1 : ((List.range d.phases).any fun i => answered d (rs i)) = false := by
      rw [List.any_eq_false]
      intro j hj
      rw [hnone j (List.mem_range.mp hj)]
      exact Bool.false_ne_true
    rw [h1, if_neg Bool.false_ne_true]
    obtain ⟨c1, c2, c3⟩ := r.none' fun j _ h2 => hnone j (by omega)
    cases hm : t.measured
    · have hs := hi (by rw [← c2]; exact hm)
      have e : reset t = { t with count := 0 } := by unfold reset; rw [hm]; rfl
      have hz : ∀ j, t.ph j = {} := fun j => by
        by_cases hj : j < d.phases
        · rw [r.lost j (Nat.zero_le _) (by omega) (hnone j hj), hs.1 j]; rfl
        · rw [r.out j (Or.inr (by omega)), hs.1 j]
      rw [e]
      refine ⟨_, rfl, fun _ => ⟨hz, by show t.freq = 0; rw [c3]; exact hs.2⟩, ?_, ?_, ?_, ?_⟩
      · exact fun j h h' => absurd h' (by rw [hnone j h]; exact Bool.false_ne_true)
      · intro j _ _
        show t.ph j = _
        rw [hz j, hs.1 j]
      · exact fun h => absurd h hany
      · exact fun _ => ⟨rfl, by show t.freq = 0; rw [c3]; exact hs.2⟩
    · have e : reset t = { ph := fun i => resetPhase (t.ph i), freq := 0, count := 0, measured := true } := by
        unfold reset; rw [hm]; rfl
      rw [e]
      refine ⟨_, rfl, (fun h => by cases h), ?_, ?_, ?_, ?_⟩
      · exact fun j h h' => absurd h' (by rw [hnone j h]; exact Bool.false_ne_true)
      · intro j h _
        show resetPhase (t.ph j) = _
        rw [r.lost j (Nat.zero_le _) (by omega) (hnone j h)]
        rfl
      · exact fun h => absurd h hany
      · exact fun _ => ⟨rfl, rfl⟩

theorem run_inv {d : Driver} (hd : Known d) {F : Rat → Rat} (hF : Close F) (h : List (Nat → Reading)) : ∀ s, Inv s →
    (∀ x ∈ h, ∀ j, j < d.phases → Ok d (x j)) → ∃ t, run F d h s = some t ∧ Inv t := by
  induction h with
  | nil => exact fun s hi _ => ⟨s, rfl, hi⟩
  | cons x xs ih =>
    intro s hi hok
    obtain ⟨t, ht, hit, -⟩ := read_after hd hF x s hi (hok x List.mem_cons_self)
    obtain ⟨u, hu, hiu⟩ := ih t hit fun y hy => hok y (List.mem_cons_of_mem _ hy)
    refine ⟨u, ?_, hiu⟩
    unfold run at hu ⊢
    rw [List.foldlM_cons, ht]
    exact hu

theorem run_snoc (F : Rat → Rat) (d : Driver) (h : List (Nat → Reading)) (rs : Nat → Reading) (s t : S)
    (ht : run F d h s = some t) : run F d (h ++ [rs]) s = read F d rs t := by
  unfold run at ht ⊢
  rw [List.foldlM_append, ht]
  show (read F d rs t).bind (fun x => some x) = _
  cases hr : read F d rs t <;> rfl

/-- For each driver and any history of readings, each of which is either no answer or within the limits: nothing is
undefined; every phase whose module answered shows its voltage, current, active and apparent power, energy and power
factor; a phase whose module did not answer shows zeros and its last energy; the meter has a measurement just when
some module answered, with the frequency of one of them. -/
theorem read_shown_partial {d : Driver} (hd : Known d) {F : Rat → Rat} (hF : Close F) (h : List (Nat → Reading))
    (rs : Nat → Reading) (hok : ∀ x ∈ h ++ [rs], ∀ j, j < d.phases → Ok d (x j)) :
    ∃ s t, run F d h {} = some s ∧ run F d (h ++ [rs]) {} = some t ∧
      (∀ j, j < d.phases → ∀ v i p e f c, Fits d (rs j) v i p e f c → Shown d v i p (kwh d e) c (t.ph j)) ∧
      (∀ j, j < d.phases → Silent d (rs j) → t.ph j = { energy := (s.ph j).energy }) ∧
      ((∃ j, j < d.phases ∧ ¬ Silent d (rs j)) → t.count = 1 ∧ (d.two = false →
        ∃ j, j < d.phases ∧ ∃ v i p e f c, Fits d (rs j) v i p e f c ∧ Near (1 / 100) f t.freq)) ∧
      ((∀ j, j < d.phases → Silent d (rs j)) → t.count = 0 ∧ t.freq = 0) := by
  obtain ⟨s, hs, hi⟩ := run_inv hd hF h {} (fun _ => ⟨fun _ => rfl, rfl⟩) fun x hx =>
    hok x (List.mem_append_left _ hx)
  have hrs := hok rs (List.mem_append_right _ List.mem_cons_self)
  obtain ⟨t, ht, -, a⟩ := read_after hd hF rs s hi hrs
  refine ⟨s, t, hs, by rw [run_snoc F d h rs _ s hs]; exact ht, ?_, ?_, ?_, ?_⟩
  · intro j hj v i p e f c hf
    obtain ⟨ph, hph, hsh, -⟩ := setPhase_shown hd hF hf
    have := a.got j hj (fits_answered hf)
    rw [hph] at this
    rw [← Option.some.inj this]
    exact hsh
  · exact fun j hj h => a.lost j hj (silent_answered h)
  · rintro ⟨j, hj, hn⟩
    refine a.some' ⟨j, hj, ?_⟩
    rcases hrs j hj with h | ⟨v, i, p, e, f, c, hf⟩
    · exact absurd h hn
    · exact fits_answered hf
  · exact fun h => a.none' fun j hj => silent_answered (h j hj)

/-! ## Reactive power -/

theorem close_id : Close id := fun x => by
  show |x - x| ≤ _
  rw [sub_self, abs_zero]
  positivity

theorem truncSqrt_spec {k : Nat} (hk : 0 < k) {q : Rat} (hq : 0 ≤ q) :
    0 ≤ (truncSqrt k q : Rat) ∧ ((truncSqrt k q : Rat) * (1 / k)) ^ 2 ≤ q ∧ q < (((truncSqrt k q : Rat) + 1) * (1 / k)) ^ 2 := by
  have hk' : (0 : Rat) < k := by exact_mod_cast hk
  have hx : 0 ≤ q * ((k : Rat) * k) := by positivity
  have hf0 : 0 ≤ (q * ((k : Rat) * k)).floor := Rat.le_floor_iff.mpr (by simpa using hx)
  have e : (((q * ((k : Rat) * k)).floor.toNat : Nat) : Rat) = ((q * ((k : Rat) * k)).floor : Rat) := by
    exact_mod_cast Int.toNat_of_nonneg hf0
  have hlt : q * ((k : Rat) * k) - 1 < ((q * ((k : Rat) * k)).floor : Rat) := Rat.lt_floor
  have hle : ((q * ((k : Rat) * k)).floor : Rat) ≤ q * ((k : Rat) * k) := Rat.floor_le _
  unfold truncSqrt
  rw [← e] at hlt hle
  generalize (q * ((k : Rat) * k)).floor.toNat = N at *
  have s1 : Nat.sqrt N * Nat.sqrt N ≤ N := Nat.sqrt_le N
  have s2 : N < (Nat.sqrt N + 1) * (Nat.sqrt N + 1) := Nat.lt_succ_sqrt N
  generalize Nat.sqrt N = m at *
  have s1' : (m : Rat) * m ≤ N := by exact_mod_cast s1
  have s2' : (N : Rat) + 1 ≤ (m + 1) * (m + 1) := by exact_mod_cast s2
  have hkk : (0 : Rat) < (k : Rat) * k := by positivity
  refine ⟨by positivity, ?_, ?_⟩
  · have e1 : (((m : Int) : Rat) * (1 / (k : Rat))) ^ 2 = (m : Rat) * m / (k * k) := by push_cast; field_simp
    rw [e1, div_le_iff₀ hkk]
    linarith
  · have e2 : ((((m : Int) : Rat) + 1) * (1 / (k : Rat))) ^ 2 = ((m : Rat) + 1) * (m + 1) / (k * k) := by push_cast; field_simp
    rw [e2, lt_div_iff₀ hkk]
    linarith

/-- The power factor of active power `p` in apparent power `a`. -/
def factor (a p : Rat) : Rat := if a < p then 1 else if a = 0 then 0 else p / a

/-- The full claim for a driver, with exact arithmetic: reactive power and, for version 2, the power factor too. -/
def AllShown (d : Driver) : Prop := ∀ (h : List (Nat → Reading)) (rs : Nat → Reading),
  (∀ x ∈ h ++ [rs], ∀ j, j < d.phases → Ok d (x j)) → ∃ t, run id d (h ++ [rs]) {} = some t ∧
    ∀ j, j < d.phases → ∀ v i p e f c, Fits d (rs j) v i p e f c →
      Shown d v i p (kwh d e) c (t.ph j) ∧ Side (1 / 100000) (v * i) p (t.ph j).reactive ∧
      (d.two = true → Near (1 / 1000) (factor (v * i) p) (t.ph j).pf)

theorem factor_nonneg {a p : Rat} (ha : 0 ≤ a) (hp : 0 ≤ p) : 0 ≤ factor a p := by
  unfold factor
  by_cases h1 : a < p
  · rw [if_pos h1]; norm_num
  · rw [if_neg h1]
    by_cases h2 : a = 0
    · rw [if_pos h2]
    · rw [if_neg h2]; exact div_nonneg hp ha

/-- Everything except reactive power, in exact arithmetic. -/
theorem exact_shown {d : Driver} (hd : Known d) (h : List (Nat → Reading)) (rs : Nat → Reading)
    (hok : ∀ x ∈ h ++ [rs], ∀ j, j < d.phases → Ok d (x j)) : ∃ t, run id d (h ++ [rs]) {} = some t ∧
    ∀ j, j < d.phases → ∀ v i p e f c, Fits d (rs j) v i p e f c →
      Shown d v i p (kwh d e) c (t.ph j) ∧ (t.ph j).reactive = reactive id d.reactFactor (some (v * i)) (some p) ∧
      (d.two = true → Near (1 / 1000) (factor (v * i) p) (t.ph j).pf) := by
  obtain ⟨s, hs, hi⟩ := run_inv hd close_id h {} (fun _ => ⟨fun _ => rfl, rfl⟩) fun x hx =>
    hok x (List.mem_append_left _ hx)
  have hrs := hok rs (List.mem_append_right _ List.mem_cons_self)
  obtain ⟨t, ht, -, a⟩ := read_after hd close_id rs s hi hrs
  refine ⟨t, by rw [run_snoc id d h rs _ s hs]; exact ht, ?_⟩
  intro j hj v i p e f c hf
  obtain ⟨ph, hph, hsh, hre, q, hq, hq0, hpf⟩ := setPhase_shown hd close_id hf
  have := a.got j hj (fits_answered hf)
  rw [hph] at this
  rw [← Option.some.inj this]
  refine ⟨hsh, hre, fun h2 => ?_⟩
  rw [h2, if_pos rfl] at hq
  have hqf : q = factor (v * i) p := by
    refine (Option.some.inj (hq.symm.trans ?_))
    show (if p > v * i then some (1 : Rat) else if v * i = 0 then some 0 else some (p / (v * i))) = _
    unfold factor
    by_cases h1 : v * i < p
    · rw [if_pos h1, if_pos h1]
    · rw [if_neg h1, if_neg h1]
      by_cases h3 : v * i = 0
      · rw [if_pos h3, if_pos h3]
      · rw [if_neg h3, if_neg h3]
  rw [hpf, hqf]
  exact near_scaled close_id (k := 1000) (by norm_num) (factor_nonneg (mul_nonneg hf.v0 hf.i0) hf.p0)

/-- The drivers with the right factor show everything. -/
theorem all_shown_partial {d : Driver} (hd : d = v3 ∨ d = threePhaseAddr) : AllShown d := by
  have hk : Known d := by
    rcases hd with h | h
    · exact Or.inl h
    · exact Or.inr (Or.inr (Or.inl h))
  have hf : d.reactFactor = 100000 := by rcases hd with h | h <;> rw [h] <;> rfl
  intro h rs hok
  obtain ⟨t, ht, hall⟩ := exact_shown hk h rs hok
  refine ⟨t, ht, fun j hj v i p e f c hfit => ?_⟩
  obtain ⟨h1, h2, h3⟩ := hall j hj v i p e f c hfit
  refine ⟨h1, ?_, h3⟩
  rw [h2, hf]
  unfold Side
  show if p < v * i then 0 ≤ ((if v * i > p then truncSqrt 100000 (v * i * (v * i) - p * p) else 0 : Int) : Rat) ∧ _ else _
  by_cases hlt : p < v * i
  · rw [if_pos hlt]
    show 0 ≤ ((if v * i > p then truncSqrt 100000 (v * i * (v * i) - p * p) else 0 : Int) : Rat) ∧
      (((if v * i > p then truncSqrt 100000 (v * i * (v * i) - p * p) else 0 : Int) : Rat) * (1 / 100000)) ^ 2 ≤ _ ∧
      _ < ((((if v * i > p then truncSqrt 100000 (v * i * (v * i) - p * p) else 0 : Int) : Rat) + 1) * (1 / 100000)) ^ 2
    rw [if_pos hlt]
    have hq : 0 ≤ v * i * (v * i) - p * p := by
      have := mul_le_mul hlt.le hlt.le hfit.p0 (mul_nonneg hfit.v0 hfit.i0)
      linarith
    have := truncSqrt_spec (k := 100000) (by norm_num) hq
    rw [pow_two (v * i), pow_two p]
    exact_mod_cast this
  · rw [if_neg hlt]
    show ((if v * i > p then truncSqrt 100000 (v * i * (v * i) - p * p) else 0 : Int) : Rat) = 0
    rw [if_neg hlt]
    rfl

/-- A reading of 230 V, 1 A, no active power, as of a capacitor. -/
def capacitor : Reading := ⟨some 1, some 230, some 0, some 5, some 50, some 0⟩

theorem capacitor_fits (d : Driver) : Fits d capacitor 230 1 0 5 50 0 := by
  constructor <;> first | rfl | (intro _; rfl)

/-- The driver of three modules and the one of version 2 show a tenth of the reactive power: 230 var are shown as
23 var. -/
theorem reactive_violation : ¬ AllShown threePhase ∧ ¬ AllShown v2 := by
  constructor
  · intro h
    obtain ⟨t, ht, hall⟩ := h [] (fun _ => capacitor) fun x hx j _ => by
      rw [List.mem_singleton.mp hx]
      exact Or.inr ⟨_, _, _, _, _, _, capacitor_fits _⟩
    obtain ⟨t', ht', hall'⟩ := exact_shown (d := threePhase) (Or.inr (Or.inl rfl)) [] (fun _ => capacitor) fun x hx j _ => by
      rw [List.mem_singleton.mp hx]
      exact Or.inr ⟨_, _, _, _, _, _, capacitor_fits _⟩
    rw [ht] at ht'
    cases ht'
    have h1 := (hall 0 (by decide) _ _ _ _ _ _ (capacitor_fits _)).2.1
    have h2 := (hall' 0 (by decide) _ _ _ _ _ _ (capacitor_fits _)).2.1
    have e : reactive id threePhase.reactFactor (some (230 * 1)) (some 0) = 2300000 := by decide +kernel
    rw [h2, e] at h1
    unfold Side at h1
    revert h1
    norm_num
  · intro h
    obtain ⟨t, ht, hall⟩ := h [] (fun _ => capacitor) fun x hx j _ => by
      rw [List.mem_singleton.mp hx]
      exact Or.inr ⟨_, _, _, _, _, _, capacitor_fits _⟩
    obtain ⟨t', ht', hall'⟩ := exact_shown (d := v2) (Or.inr (Or.inr (Or.inr rfl))) [] (fun _ => capacitor) fun x hx j _ => by
      rw [List.mem_singleton.mp hx]
      exact Or.inr ⟨_, _, _, _, _, _, capacitor_fits _⟩
    rw [ht] at ht'
    cases ht'
    have h1 := (hall 0 (by decide) _ _ _ _ _ _ (capacitor_fits _)).2.1
    have h2 := (hall' 0 (by decide) _ _ _ _ _ _ (capacitor_fits _)).2.1
    have e : reactive id v2.reactFactor (some (230 * 1)) (some 0) = 2300000 := by decide +kernel
    rw [h2, e] at h1
    unfold Side at h1
    revert h1
    norm_num

/-- Full claim about the link: whatever the module answers, nothing undefined happens. -/
def AlwaysDefined (d : Driver) : Prop := ∀ F, Close F → ∀ rs, (read F d rs {}).isSome

/-- The link breaks after the current was read: the NaN (or −1) of the voltage is converted to an unsigned number. -/
theorem broken_reading_violation : ¬ AlwaysDefined v3 ∧ ¬ AlwaysDefined v2 := by
  constructor
  · intro h
    have := h id close_id fun _ => ⟨some 1, none, none, none, none, none⟩
    revert this
    decide +kernel
  · intro h
    have := h id close_id fun _ => ⟨some 1, some (-1), some (-1), some (-1), none, none⟩
    revert this
    decide +kernel

/-- Non-vacuity: three modules, of which the second does not answer. -/
example : (run id threePhaseAddr [fun j => if j = 1 then ⟨none, none, none, none, none, none⟩ else capacitor] {}).map
    (fun t => (t.ph 0, t.ph 1, t.count, t.freq)) =
    some ({ voltage := 23000, current := 1000, reactive := 23000000, apparent := 23000000, energy := 500000 }, {}, 1, 5000) := by
  decide +kernel

end Verif.Pzem
