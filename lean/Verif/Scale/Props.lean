import Verif.Scale.Model
import Mathlib.Tactic.Ring
import Mathlib.Tactic.FieldSimp
import Mathlib.Tactic.NormNum
import Mathlib.Tactic.Linarith

/-! # HX711 scales: proofs -/

namespace Verif.Scale

/-! ## Specification -/

/-- `w` shows the weight `v`: one decimal, less than 0.1 off and not beyond it, or 0 for a weight between −1 and 0. -/
def Near (v w : Rat) : Prop :=
  (∃ k : Int, w = (k : Rat) / 10) ∧ ((-1 < v ∧ v < 0 ∧ w = 0) ∨ (0 ≤ w ∧ w ≤ v ∧ v < w + 1 / 10) ∨ (w ≤ 0 ∧ v ≤ w ∧ w < v + 1 / 10))

/-- The weight at reading `raw`, when the empty scales gave `r0` and the mass `m` gave `r1`. -/
def weight (r0 r1 raw : Nat) (m : Rat) : Rat := m * ((raw : Rat) - r0) / ((r1 : Rat) - r0)

/-- Fits the number displayed. -/
def Small (v : Rat) : Prop := -214748364 < v ∧ v < 214748364

/-! ## Display -/

theorem toInt_spec (x : Rat) : (0 ≤ x → (toInt x : Rat) ≤ x ∧ x < toInt x + 1 ∧ 0 ≤ (toInt x : Rat)) ∧
    (x < 0 → x ≤ (toInt x : Rat) ∧ (toInt x : Rat) < x + 1 ∧ (toInt x : Rat) ≤ 0) := by
  unfold toInt
  constructor
  · intro h
    rw [if_pos h]
    exact ⟨Int.floor_le x, Int.lt_floor_add_one x, by exact_mod_cast Int.floor_nonneg.2 h⟩
  · intro h
    rw [if_neg (not_le.2 h)]
    have h1 := Int.floor_le (-x)
    have h2 := Int.lt_floor_add_one (-x)
    have h3 : (0 : Rat) ≤ (⌊-x⌋ : Rat) := by exact_mod_cast Int.floor_nonneg.2 (show 0 ≤ -x by linarith)
    generalize ⌊-x⌋ = k at *
    push_cast
    refine ⟨by linarith, by linarith, by linarith⟩

/-- The value displayed shows the weight. -/
theorem decimal_near {v : Rat} (h : Small v) : ∃ w, decimal (nearZero v) = some w ∧ Near v w := by
  obtain ⟨h1, h2⟩ := h
  unfold nearZero
  by_cases hz : v < 0 ∧ v > -1
  · rw [if_pos hz]
    refine ⟨0, by decide +kernel, ⟨0, by norm_num⟩, Or.inl ⟨hz.2, hz.1, rfl⟩⟩
  · rw [if_neg hz]
    unfold decimal
    rw [if_pos ⟨by linarith, by linarith⟩]
    refine ⟨_, rfl, ⟨toInt (v * 10), rfl⟩, Or.inr ?_⟩
    obtain ⟨a, b⟩ := toInt_spec (v * 10)
    by_cases hv : 0 ≤ v
    · obtain ⟨a1, a2, a3⟩ := a (by linarith)
      generalize (toInt (v * 10) : Rat) = k at *
      exact Or.inl ⟨by linarith, by linarith, by linarith⟩
    · obtain ⟨a1, a2, a3⟩ := b (by linarith)
      generalize (toInt (v * 10) : Rat) = k at *
      exact Or.inr ⟨by linarith, by linarith, by linarith⟩

theorem run_cons {d : Rat} (op : Op) (ops : List Op) (s : S) : run d (op :: ops) s = (step d s op).bind (run d ops) := by
  unfold run; rw [List.foldlM_cons]; rfl

theorem run_append {d : Rat} (a b : List Op) (s : S) : run d (a ++ b) s = (run d a s).bind (run d b) := by
  unfold run; rw [List.foldlM_append]; rfl

/-- A sample and its display: the weight is shown. -/
theorem shows {d : Rat} {s : S} {raw : Nat} {v : Rat} (hv : getData s raw = some v) (hs : Small v) :
    ∃ s', run d [.sample raw, .display true] s = some s' ∧ Near v s'.shown := by
  obtain ⟨w, hw, hn⟩ := decimal_near hs
  refine ⟨{ s with value := some w, shown := w }, ?_, hn⟩
  rw [run_cons]
  show run d [.display true] (sample s raw) = _
  rw [run_cons]
  have : step d (sample s raw) (.display true) = some { s with value := some w, shown := w } := by
    show display true (sample s raw) = _
    unfold display sample
    rw [if_pos rfl, hv]
    show (decimal (nearZero v)).map _ = _
    rw [hw]
    rfl
  rw [this]
  rfl

/-- With an abnormal sampling rate (sensor not connected) "not available" is shown, in every state, and it stays until the
next sample. -/
theorem abnormal_shown (d : Rat) (s : S) : ∃ s', run d [.display false] s = some s' ∧ s'.shown = -1 ∧
    ∃ s'', run d [.display true] s' = some s'' ∧ s''.shown = -1 := by
  refine ⟨{ s with value := some (-1), shown := -1 }, by rw [run_cons]; rfl, rfl, { s with value := some (-1), shown := -1 }, ?_, rfl⟩
  rw [run_cons]
  have h0 : decimal (nearZero (-1)) = some (-1) := by decide +kernel
  show ((decimal (nearZero (-1))).map _).bind (run d []) = _
  rw [h0]
  rfl

/-! ## Calibration -/

theorem getData_eq {s : S} {r0 r1 : Nat} {m : Rat} (h0 : s.libTare = r0) (hm : m > 0) (hr : r1 ≠ r0)
    (hc : s.libCal = ((r1 : Rat) - r0) / m) (raw : Nat) : getData s raw = some (weight r0 r1 raw m) := by
  have hne : (r1 : Rat) - r0 ≠ 0 := fun h => hr (by have : (r1 : Rat) = r0 := by linarith
                                                    exact_mod_cast this)
  have hm' : m ≠ 0 := ne_of_gt hm
  unfold getData weight
  rw [hc, h0, if_neg (div_ne_zero hne hm')]
  congr 1
  field_simp

/-- Full claim: after taring and calibration with a known mass the scales show the weight, also after a restart. -/
def Weighs : Prop := ∀ d s r0 r1 raw m (again : Bool), d > 0 → m > 0 → r1 ≠ r0 → r0 < 2 ^ 24 → r1 < 2 ^ 24 → raw < 2 ^ 24 → Small (weight r0 r1 raw m) →
  ∃ s', run d ([.tare r0, .calibrate r1 m] ++ (if again then [.save, .restart false] else []) ++ [.sample raw, .display true]) s = some s' ∧
    Near (weight r0 r1 raw m) s'.shown

/-- Without a restart, or if the mass raises the reading. -/
theorem weighs_partial (d : Rat) (s : S) (r0 r1 raw : Nat) (m : Rat) (again : Bool) (hm : m > 0) (hr : r1 ≠ r0)
    (h0 : r0 < 2 ^ 24) (ha : again = true → r0 < r1) (hs : Small (weight r0 r1 raw m)) :
    ∃ s', run d ([.tare r0, .calibrate r1 m] ++ (if again then [.save, .restart false] else []) ++ [.sample raw, .display true]) s = some s' ∧
      Near (weight r0 r1 raw m) s'.shown := by
  have hcal : calibrate (tare s r0) r1 m = { tare s r0 with cal := newCal (tare s r0) r1 m, libCal := newCal (tare s r0) r1 m, ready := false } := by
    unfold calibrate
    rw [if_pos (show (tare s r0).ready = true from rfl), if_pos hm]
  have e1 : run d [.tare r0, .calibrate r1 m] s = some (calibrate (tare s r0) r1 m) := by rw [run_cons]; rfl
  rw [run_append, run_append, e1]
  cases again
  · show ∃ s', run d [.sample raw, .display true] (calibrate (tare s r0) r1 m) = some s' ∧ _
    refine shows (getData_eq ?_ hm hr ?_ raw) hs <;> rw [hcal] <;> rfl
  · have hpos : newCal (tare s r0) r1 m > 0 := by
      have : (r0 : Rat) < r1 := by exact_mod_cast ha rfl
      exact div_pos (show (0 : Rat) < (r1 : Rat) - r0 by linarith) hm
    have e2 : run d [.save, .restart false] (calibrate (tare s r0) r1 m) = some (restart d false (save (calibrate (tare s r0) r1 m))) := by
      rw [run_cons]; rfl
    show ∃ s', ((run d [.save, .restart false] (calibrate (tare s r0) r1 m)).bind (run d [.sample raw, .display true])) = some s' ∧ _
    rw [e2]
    refine shows (getData_eq ?_ hm hr ?_ raw) hs
    · rw [hcal]
      show r0 % 2 ^ 32 = r0
      omega
    · rw [hcal]
      show (if false = true then (1 : Rat) else if newCal (tare s r0) r1 m > 0 then newCal (tare s r0) r1 m else d) = _
      rw [if_neg Bool.false_ne_true, if_pos hpos]
      rfl

/-- Without a tare before it a calibration changes nothing but the permission to calibrate; one tare allows one
calibration; a mass that is not positive is refused. -/
theorem calibrate_needs_tare (s : S) (raw : Nat) (mass : Rat) (h : s.ready = false ∨ mass ≤ 0) :
    calibrate s raw mass = { s with ready := false } := by
  unfold calibrate
  by_cases hr : s.ready = true
  · rcases h with h | h
    · rw [h] at hr; cases hr
    · rw [if_pos hr, if_neg (not_lt.2 h)]
  · rw [if_neg hr]

/-- After a calibration a second one needs a new tare. -/
theorem calibrate_once (s : S) (r1 r2 : Nat) (m1 m2 : Rat) : calibrate (calibrate s r1 m1) r2 m2 = calibrate s r1 m1 := by
  have h : (calibrate s r1 m1).ready = false := by
    unfold calibrate
    split
    · split <;> rfl
    · rfl
  rw [calibrate_needs_tare _ _ _ (Or.inl h)]
  generalize calibrate s r1 m1 = t at *
  cases t
  dsimp only at h
  rw [h]

/-- Tare and calibration are kept over a restart if they were saved. -/
theorem saved_kept (d : Rat) (s : S) (t : Bool) : (restart d t (save s)).tare = s.tare ∧ (restart d t (save s)).cal = s.cal ∧
    (restart d t (save s)).libTare = s.tare := ⟨rfl, rfl, rfl⟩

/-! ## Violations -/

/-- A load cell mounted the other way round (the mass lowers the reading): the calibration is lost with a restart. -/
theorem reversed_cell_violation : ¬ Weighs := by
  intro h
  have h1 : Small (weight 1000 500 500 100) := by unfold Small weight; norm_num
  obtain ⟨s', h2, h3, h4⟩ := h 696 {} 1000 500 500 100 true (by norm_num) (by norm_num) (by decide) (by decide) (by decide) (by decide) h1
  have h5 : (run 696 ([.tare 1000, .calibrate 500 100] ++ (if true then [.save, .restart false] else []) ++ [.sample 500, .display true]) {}).map S.shown = some 0 := by
    decide +kernel
  rw [h2] at h5
  have h6 : s'.shown = 0 := Option.some.inj h5
  have h7 : weight 1000 500 500 100 = 100 := by unfold weight; norm_num
  rw [h6, h7] at h4
  rcases h4 with ⟨-, h8, -⟩ | ⟨-, -, h8⟩ | ⟨-, h8, -⟩ <;> norm_num at h8

/-- Calibration with nothing on the scales: the factor is 0 and the next display is undefined, for every mass and every
reading. -/
theorem calibrate_empty_violation (d : Rat) (s : S) (r0 raw : Nat) (m : Rat) (hm : m > 0) :
    run d [.tare r0, .calibrate r0 m, .sample raw, .display true] s = none := by
  have hcal : (calibrate (tare s r0) r0 m).libCal = 0 := by
    unfold calibrate
    rw [if_pos (show (tare s r0).ready = true from rfl), if_pos hm]
    show ((r0 : Rat) - r0) / m = 0
    rw [sub_self, zero_div]
  have e : run d [.tare r0, .calibrate r0 m, .sample raw, .display true] s = display true (sample (calibrate (tare s r0) r0 m) raw) := by
    rw [run_cons]
    show run d [.calibrate r0 m, .sample raw, .display true] (tare s r0) = _
    rw [run_cons]
    show run d [.sample raw, .display true] (calibrate (tare s r0) r0 m) = _
    rw [run_cons]
    show run d [.display true] (sample (calibrate (tare s r0) r0 m) raw) = _
    rw [run_cons]
    show (display true (sample (calibrate (tare s r0) r0 m) raw)).bind (run d []) = _
    cases display true (sample (calibrate (tare s r0) r0 m) raw) <;> rfl
  rw [e]
  unfold display sample getData
  rw [if_pos rfl, hcal]
  rfl

/-- A weight between −1.1 and −1 is shown as "not available". -/
theorem minus_one_violation (v : Rat) (h1 : -11 / 10 < v) (h2 : v ≤ -1) : decimal (nearZero v) = some (-1) := by
  have hs : Small v := ⟨by linarith, by linarith⟩
  obtain ⟨w, hw, ⟨k, hk⟩, hn⟩ := decimal_near hs
  rw [hw]
  congr 1
  have h3 : -11 / 10 < w ∧ w < -9 / 10 := by
    rcases hn with ⟨h, -, -⟩ | ⟨a, b, -⟩ | ⟨-, b, c⟩
    · linarith
    · linarith
    · exact ⟨by linarith, by linarith⟩
  rw [hk] at h3 ⊢
  have h4 : (-11 : Rat) < k := by linarith [h3.1]
  have h5 : (k : Rat) < -9 := by linarith [h3.2]
  have h6 : -11 < k := by exact_mod_cast h4
  have h7 : k < -9 := by exact_mod_cast h5
  have : k = -10 := by omega
  rw [this]
  norm_num

/-- Before any sample the scales show 0, whatever lies on them, after every start. -/
theorem zero_at_start_violation (d : Rat) (t : Bool) (s : S) :
    ∃ s', run d [.restart t, .display true] s = some s' ∧ s'.shown = 0 := by
  have e : display true (restart d t s) = some { restart d t s with value := some 0, shown := 0 } := by
    have h0 : decimal (nearZero 0) = some 0 := by decide +kernel
    show (decimal (nearZero 0)).map _ = _
    rw [h0]
    rfl
  refine ⟨{ restart d t s with value := some 0, shown := 0 }, ?_, rfl⟩
  rw [run_cons]
  show run d [.display true] (restart d t s) = _
  rw [run_cons]
  show (display true (restart d t s)).bind (run d []) = _
  rw [e]
  rfl

/-- Non-vacuity. -/
example : (run 696 [.tare 1000, .calibrate 2000 1000, .sample 2235, .display true] {}).map S.shown = some 1235 ∧
    Near (123456 / 100) (12345 / 10) := by
  refine ⟨by decide +kernel, ⟨12345, by norm_num⟩, Or.inr (Or.inl ⟨by norm_num, by norm_num, by norm_num⟩)⟩

end Verif.Scale
