import Verif.Hvac.ControlProps
/-!
# Thermostat control: off means off, failed thermometers, frost and overheat protection
-/
namespace Verif.Hvac
open Verif

/-- Asking for 0 leaves nothing on, unless the minimum on time still runs. -/
theorem set_zero_active (c : Cfg) (hg : Good c) (now : Nat) (o : Out) (hs : Shown c.hw c.kind o)
    (ha : active c.hw c.kind (c.set now 0 false o) = true) :
    since (clk now) o.stamp < c.minOn * 1000 := by
  have hs' : Shown c.hw c.kind (c.set now 0 false o) :=
    set_shown c hg _ _ _ _ (Or.inl ⟨by decide, by decide⟩) hs
  have A := (active_shown _ _ _ hs').1 ha
  have z := set_zero c.hw c.kind hg.1 c.minOn c.minOff now false o
  unfold Cfg.set at A
  rcases z with z | z
  · rcases A with q | q
    · omega
    · omega
  · exact z.2.1

/-! ### Off means off -/

/-- The full claim: a pass in OFF mode leaves everything off, unless the minimum on time still runs
or a frost or overheat protection is enabled. -/
def OffMeansOff (c : Cfg) : Prop :=
  ∀ (xs : List Tick) (x : Tick), x.mode = .off → x.startup = false →
    let o := xs.foldl (tick c) Out.init
    active c.hw c.kind (tick c o x) = true → since (clk x.now) o.stamp < c.minOn * 1000

/-- True when no thermometer that OFF mode looks at has failed: the function is not differential and
the auxiliary protection is disabled or has its thermometer. -/
theorem off_means_off_partial (c : Cfg) (hg : Good c) (hi : c.internal = true)
    (hp : c.protect = false) (hd : c.differential = false) (xs : List Tick) (x : Tick)
    (hm : x.mode = .off) (ha : c.auxActive = false ∨ validT x.t2 = true) :
    let o := xs.foldl (tick c) Out.init
    active c.hw c.kind (tick c o x) = true → since (clk x.now) o.stamp < c.minOn * 1000 := by
  intro o h
  have hs : Shown c.hw c.kind o := ticks_shown c hg xs
  have e : tick c o x = c.set x.now 0 false o := by
    unfold tick pass
    have : sensorsOk c x = true := by
      unfold sensorsOk
      rcases ha with z | z <;> simp [hm, hd, z]
    rw [this, if_neg (by decide)]
    dsimp only
    unfold decideOut regulate
    cases x.forcedOff <;> simp [hp, hi, hm]
  rw [e] at h
  exact set_zero_active c hg _ o hs h

/-- A heating thermostat with a floor thermometer (auxiliary maximum 30.0) and the error value 100. -/
def exAux : Cfg := { exHeat with onError := 100, auxOn := true, auxMax := 3000 }

example : Good exAux := ⟨⟨rfl, by decide, by decide⟩, by decide, by decide⟩

/-- The heater was on, OFF switches it off. -/
example :
    let o := [(⟨40000, .heat, 2100, noTemp, 1900, 2000, false, false⟩ : Tick)].foldl (tick exAux) Out.init
    active exAux.hw exAux.kind o = true ∧
    active exAux.hw exAux.kind (tick exAux o ⟨41000, .off, 2100, noTemp, 1900, 2000, false, false⟩) = false := by
  decide +kernel

/-- False when the auxiliary thermometer has failed: lines 717-720 drive the output with the error
value before the mode is looked at, so a thermostat that is switched OFF heats. -/
theorem off_aux_sensor_violation : ¬ OffMeansOff exAux := by
  intro h
  have := h [] ⟨40000, .off, 2100, noTemp, 2500, noTemp, false, false⟩ rfl rfl
  revert this
  decide +kernel

/-- The same for the differential function when one of its thermometers has failed. -/
theorem off_differential_violation :
    ¬ OffMeansOff { exHeat with onError := 100, differential := true } := by
  intro h
  have := h [] ⟨40000, .off, 500, noTemp, 2500, noTemp, false, false⟩ rfl rfl
  revert this
  decide +kernel

/-! ### The forced-off sensor -/

/-- The full claim: while the sensor asks for it, a pass leaves everything off, unless the minimum on
time still runs or a protection is enabled. -/
def ForcedOffObeyed (c : Cfg) : Prop :=
  ∀ (xs : List Tick) (x : Tick), x.forcedOff = true → x.startup = false →
    let o := xs.foldl (tick c) Out.init
    active c.hw c.kind (tick c o x) = true → since (clk x.now) o.stamp < c.minOn * 1000

/-- True while the thermometers work. -/
theorem forced_off_partial (c : Cfg) (hg : Good c) (hi : c.internal = true)
    (hp : c.protect = false) (xs : List Tick) (x : Tick) (hf : x.forcedOff = true)
    (hk : sensorsOk c x = true) :
    let o := xs.foldl (tick c) Out.init
    active c.hw c.kind (tick c o x) = true → since (clk x.now) o.stamp < c.minOn * 1000 := by
  intro o h
  have hs : Shown c.hw c.kind o := ticks_shown c hg xs
  have e : tick c o x = c.set x.now 0 false o := by
    unfold tick pass
    rw [hk, if_neg (by decide)]
    dsimp only
    unfold decideOut
    simp [hp, hi, hf]
  rw [e] at h
  exact set_zero_active c hg _ o hs h

example : sensorsOk exHeat ⟨41000, .heat, 2100, noTemp, 1900, noTemp, true, false⟩ = true ∧
    (let o := [(⟨40000, .heat, 2100, noTemp, 1900, noTemp, false, false⟩ : Tick)].foldl (tick exHeat) Out.init
     active exHeat.hw exHeat.kind o = true ∧
     active exHeat.hw exHeat.kind (tick exHeat o ⟨41000, .heat, 2100, noTemp, 1900, noTemp, true, false⟩) = false) := by
  decide +kernel

/-- False when the main thermometer fails: the error value goes out although the sensor (an open
window, a flood) asks for off. -/
theorem forced_off_violation : ¬ ForcedOffObeyed { exHeat with onError := 100 } := by
  intro h
  have := h [] ⟨40000, .heat, 2100, noTemp, noTemp, noTemp, true, false⟩ rfl rfl
  revert this
  decide +kernel

/-! ### Failed thermometer -/

/-- A forced call: from on, one step to off; otherwise straight to the value. -/
theorem set_forced (h : Hw) (k : Kind) (hw : Wired h k) (a b now : Nat) (v : Int) (o : Out) :
    let o' := setOutput h k a b now v true o
    (o'.last = v ∨ o'.last = 0) ∧ (o.last = 0 → o'.last = v) ∧ (o.last = v → o'.last = v) := by
  intro o'
  show (o'.last = v ∨ o'.last = 0) ∧ _
  have : o' = setOutput h k a b now v true o := rfl
  unfold setOutput choose at this
  rw [if_neg (by simp [hw.1])] at this
  dsimp only at this
  by_cases h2 : o.last = v
  · rw [if_pos h2] at this
    rw [this, h2]
    exact ⟨Or.inl rfl, fun _ => rfl, fun _ => rfl⟩
  · rw [if_neg h2, if_neg h2] at this
    generalize hl : (if o.last < -100 then (0 : Int) else o.last) = l at this
    have c1 : (!true && decide (since (clk now) o.stamp < a * 1000)) = false := rfl
    have c2 : (!true && decide (since (clk now) o.stamp < b * 1000)) = false := rfl
    rw [c1, c2] at this
    simp only [Bool.false_eq_true, if_false] at this
    by_cases p1 : l > 0 ∧ v ≤ 0
    · rw [if_pos p1] at this
      have e : o'.last = 0 := by rw [this]; exact write_last ..
      refine ⟨Or.inr e, fun q => ?_, fun q => absurd q h2⟩
      rw [q] at hl
      simp at hl
      omega
    · rw [if_neg p1] at this
      by_cases p2 : l = 0 ∧ v ≠ 0
      · rw [if_pos p2] at this
        have e : o'.last = v := by rw [this]; exact write_last ..
        exact ⟨Or.inl e, fun _ => e, fun _ => e⟩
      · rw [if_neg p2] at this
        by_cases p3 : l < 0 ∧ v ≥ 0
        · rw [if_pos p3] at this
          have e : o'.last = 0 := by rw [this]; exact write_last ..
          refine ⟨Or.inr e, fun q => ?_, fun q => absurd q h2⟩
          rw [q] at hl
          simp at hl
          omega
        · rw [if_neg p3] at this
          have e : o'.last = v := by rw [this]; exact write_last ..
          exact ⟨Or.inl e, fun _ => e, fun _ => e⟩

/-- When the room thermometer fails in an active mode, the second pass at the latest drives the
output with the configured error value, whatever happened before and whatever minimum times are
configured; and it stays there as long as the thermometer does not work. -/
theorem sensor_failure (c : Cfg) (hg : Good c) (xs ys : List Tick) (y1 y2 : Tick)
    (hy : ∀ y ∈ y1 :: y2 :: ys, (y.mode = .heat ∨ y.mode = .cool ∨ y.mode = .heatCool) ∧
      y.t1 = noTemp ∧ y.startup = false) :
    let o := (xs ++ y1 :: y2 :: ys).foldl (tick c) Out.init
    (heatingOn c.kind o = true ↔ c.onError > 0 ∧ c.kind ≠ .cool) ∧
    (coolingOn c.hw c.kind o = true ↔ c.onError < 0 ∧ c.kind ≠ .heat) := by
  have step : ∀ (y : Tick) (o : Out),
      ((y.mode = .heat ∨ y.mode = .cool ∨ y.mode = .heatCool) ∧ y.t1 = noTemp ∧ y.startup = false) →
      tick c o y = setOutput c.hw c.kind c.minOn c.minOff y.now c.onError true o := by
    intro y o ⟨h1, h2, h3⟩
    unfold tick pass
    have : sensorsOk c y = false := by
      unfold sensorsOk
      have : validT y.t1 = false := by rw [h2]; decide
      rcases h1 with z | z | z <;> simp [z, this]
    rw [this, if_pos (by decide), h3, if_neg (by decide)]
    rfl
  have stay : ∀ (ys : List Tick) (o : Out), (∀ y ∈ ys, (y.mode = .heat ∨ y.mode = .cool ∨ y.mode = .heatCool) ∧
      y.t1 = noTemp ∧ y.startup = false) → o.last = c.onError → (ys.foldl (tick c) o).last = c.onError := by
    intro ys
    induction ys with
    | nil => intro o _ h; exact h
    | cons y ys ih =>
      intro o hy ho
      refine ih _ (fun z hz => hy z (List.mem_cons_of_mem _ hz)) ?_
      rw [step y o (hy y (List.mem_cons_self ..))]
      exact (set_forced _ _ hg.1 _ _ _ _ o).2.2 ho
  intro o
  have hs : Shown c.hw c.kind o := ticks_shown c hg _
  have hl : o.last = c.onError := by
    show ((xs ++ y1 :: y2 :: ys).foldl (tick c) Out.init).last = _
    rw [List.foldl_append]
    generalize xs.foldl (tick c) Out.init = o0
    show (ys.foldl (tick c) (tick c (tick c o0 y1) y2)).last = _
    apply stay _ _ (fun z hz => hy z (List.mem_cons_of_mem _ (List.mem_cons_of_mem _ hz)))
    rw [step y2 _ (hy y2 (List.mem_cons_of_mem _ (List.mem_cons_self ..))),
      step y1 _ (hy y1 (List.mem_cons_self ..))]
    have f1 := set_forced c.hw c.kind hg.1 c.minOn c.minOff y1.now c.onError o0
    dsimp only at f1
    generalize setOutput c.hw c.kind c.minOn c.minOff y1.now c.onError true o0 = o1 at *
    have f2 := set_forced c.hw c.kind hg.1 c.minOn c.minOff y2.now c.onError o1
    dsimp only at f2
    rcases f1.1 with q | q
    · exact f2.2.2 q
    · exact f2.2.1 q
  rcases hs.2 with ⟨z, _⟩ | ⟨_, z1, z2, _⟩
  · have := hg.2.1
    omega
  · rw [hl] at z1 z2
    exact ⟨z1, z2⟩

example :
    let c : Cfg := { exHeat with minOn := 60, minOff := 60, onError := 0 }
    let o := [(⟨100000, .heat, 2100, noTemp, 1900, noTemp, false, false⟩ : Tick)].foldl (tick c) Out.init
    heatingOn c.kind o = true ∧
    heatingOn c.kind (tick c (tick c o ⟨101000, .heat, 2100, noTemp, noTemp, noTemp, false, false⟩)
      ⟨102000, .heat, 2100, noTemp, noTemp, noTemp, false, false⟩) = false := by
  decide +kernel

/-! ### Frost protection -/

/-- With frost protection enabled, a heating-only thermostat (no auxiliary thermometer, error value
not negative) that finds the room below the frost limit by the lower distance has its heater on
after the pass, in every mode including OFF and with the forced-off sensor active, unless the
minimum off time still runs. -/
theorem frost_protection (c : Cfg) (hg : Good c) (hk : c.kind = .heat) (hi : c.internal = true)
    (ha : c.algo ≠ .notSet) (hh : 0 ≤ c.histeresis) (hd : c.differential = false)
    (hx : c.auxActive = false) (he : 0 ≤ c.onError) (hp : c.protect = true)
    (hf : validT c.tFreeze = true) (xs : List Tick)
    (hm : ∀ y ∈ xs, y.mode ≠ .cool ∧ y.mode ≠ .heatCool) (x : Tick) (h1 : validT x.t1 = true)
    (hc : x.t1 < c.tFreeze - c.band.1) :
    let o := xs.foldl (tick c) Out.init
    heatingOn c.kind (tick c o x) = true ∨ since (clk x.now) o.stamp < c.minOff * 1000 := by
  have hb := band_nonneg c hh
  have ck : c.cools = false := by unfold Cfg.cools; rw [hk]
  have ch : c.heats = true := by unfold Cfg.heats; rw [hk]
  -- the value is never one of cooling
  have nn : ∀ (o : Out) (y : Tick), (y.mode ≠ .cool ∧ y.mode ≠ .heatCool) →
      (o.last ≥ 0 ∨ o.last = -111) →
      ((tick c o y).last ≥ 0 ∨ (tick c o y).last = -111) := by
    intro o y hy ho
    have key : ∀ (now : Nat) (v : Int) (f : Bool), (v ≥ 0 ∨ v = -111 ∧ o.last = -111) →
        ((c.set now v f o).last ≥ 0 ∨ (c.set now v f o).last = -111) := by
      intro now v f hv
      have eff := setOutput_eff c.hw c.kind hg.1 c.minOn c.minOff now v f o
      dsimp only at eff
      have e' : setOutput c.hw c.kind c.minOn c.minOff now v f o = c.set now v f o := rfl
      rw [e'] at eff
      rcases hv with hv | ⟨hv, hv'⟩
      · omega
      · right
        rw [hv, ← hv']
        unfold Cfg.set
        rw [set_same]
    have eh : ∀ tM tT : Int, (evalHeat c o.last tM tT ≥ 0 ∨ evalHeat c o.last tM tT = -111 ∧ o.last = -111) := by
      intro tM tT
      unfold evalHeat
      repeat' split
      all_goals omega
    have z0 : (0 : Int) ≥ 0 := Int.le_refl _
    unfold tick pass
    by_cases so : (!sensorsOk c y) = true
    · rw [if_pos so]
      by_cases st : y.startup = true
      · rw [if_pos st]; exact ho
      · rw [if_neg st]; exact key _ _ _ (Or.inl he)
    · rw [if_neg so]
      dsimp only
      generalize (if c.differential then wrap16 (y.t1 - y.t2) else y.t1) = t1
      generalize (if c.differential then noTemp else y.t2) = t2
      have f0 := eh t1 c.tFreeze
      unfold decideOut
      simp only [ck, Bool.and_false, Bool.false_and, Bool.false_eq_true, if_false, hi, if_true]
      repeat' split
      · exact key _ _ _ f0
      · exact key _ _ _ (Or.inl z0)
      · unfold regulate
        simp only [hx, Bool.false_and, Bool.false_eq_true, if_false]
        have f1 := eh t1 y.spHeat
        generalize evalHeat c o.last t1 y.spHeat = h at *
        cases hmode : y.mode
        · exact ho
        · exact key _ _ _ (Or.inl z0)
        · dsimp only
          split
          · exact key _ _ _ (Or.inl z0)
          · exact key _ _ _ f1
        · exact absurd hmode hy.1
        · exact absurd hmode hy.2
        · exact ho
  have nns : ∀ (xs : List Tick) (o : Out), (∀ y ∈ xs, y.mode ≠ .cool ∧ y.mode ≠ .heatCool) →
      (o.last ≥ 0 ∨ o.last = -111) →
      ((xs.foldl (tick c) o).last ≥ 0 ∨ (xs.foldl (tick c) o).last = -111) := by
    intro xs
    induction xs with
    | nil => intro o _ h; exact h
    | cons y ys ih =>
      intro o hy h
      exact ih _ (fun z hz => hy z (List.mem_cons_of_mem _ hz)) (nn o y (hy y (List.mem_cons_self ..)) h)
  intro o
  have hs : Shown c.hw c.kind o := ticks_shown c hg xs
  have hs' : Shown c.hw c.kind (tick c o x) := pass_shown c hg false o x hs
  have hl : o.last ≥ 0 ∨ o.last = -111 := nns xs _ hm (Or.inr rfl)
  have ev := evalHeat_eq c hi ha (validT_of_nonneg hh) o.last x.t1 c.tFreeze h1 hf
  have pos : evalHeat c o.last x.t1 c.tFreeze > 0 ∧
      (o.last ≤ 0 → evalHeat c o.last x.t1 c.tFreeze = 100) ∧
      (o.last > 0 → evalHeat c o.last x.t1 c.tFreeze = o.last) := by
    rw [ev]
    by_cases q : o.last ≤ 0
    · rw [if_pos q, if_pos hc]; omega
    · rw [if_neg q, if_neg (by omega)]; omega
  have e : tick c o x = c.set x.now (evalHeat c o.last x.t1 c.tFreeze) false o := by
    unfold tick pass
    have : sensorsOk c x = true := by
      unfold sensorsOk
      simp [h1, hd, hx]
    rw [this, if_neg (by decide)]
    dsimp only
    rw [hd]
    unfold decideOut
    simp [ck, ch, hp, hf, pos.1]
  rw [e] at hs'
  rw [e]
  by_cases q : o.last ≤ 0
  · rw [pos.2.1 q] at hs' ⊢
    have z := set_from_off c.hw c.kind hg.1 c.minOn c.minOff x.now 100 ⟨by decide, by decide⟩ (by decide) false o (by omega)
    rcases z with z | z
    · left
      rcases hs'.2 with ⟨y, _⟩ | ⟨_, y, _⟩
      · unfold Cfg.set at y; omega
      · apply y.2
        unfold Cfg.set
        rw [hk] at z ⊢
        exact ⟨by omega, by decide⟩
    · exact Or.inr z.2.1
  · rw [pos.2.2 (by omega)]
    unfold Cfg.set
    rw [set_same]
    left
    rcases hs.2 with ⟨y, _⟩ | ⟨_, y, _⟩
    · omega
    · apply y.2
      rw [hk]
      exact ⟨by omega, by decide⟩

/-- Switched OFF, 3.0 degrees, limit 5.0: the heater runs. -/
example :
    let c : Cfg := { exHeat with protect := true, tFreeze := 500 }
    heatingOn c.kind (tick c Out.init ⟨40000, .off, 2100, noTemp, 300, noTemp, false, false⟩) = true := by
  decide +kernel

/-! ### Overheat protection -/

/-- The full claim: in COOL mode, without minimum times and with working thermometers, a pass that
finds the room warmer than the set point plus the upper distance leaves the cooler on. -/
def CoolingStarts (c : Cfg) : Prop :=
  ∀ (xs : List Tick) (x : Tick), sensorsOk c x = true → x.mode = .cool → x.forcedOff = false →
    validT x.t1 = true → validT x.spCool = true → x.t1 > x.spCool + c.band.1 →
    coolingOn c.hw c.kind (tick c (xs.foldl (tick c) Out.init) x) = true

/-- With overheat protection enabled the thermostat is dead for as long as the room stays within the
hysteresis around the overheat limit after power on: the value -111 ("never set") is negative, so
`checkOverheatProtection` takes it for cooling in progress (lines 3240-3244), asks for -111 again,
and ends the pass.  Whatever the mode and the set points are. -/
theorem overheat_lock (c : Cfg) (hk : c.cools = true) (hi : c.internal = true)
    (ha : c.algo ≠ .notSet) (hh : 0 ≤ c.histeresis) (hd : c.differential = false)
    (hp : c.protect = true) (hf : validT c.tOverheat = true) (xs : List Tick)
    (hx : ∀ x ∈ xs, sensorsOk c x = true ∧ validT x.t1 = true ∧
      c.tOverheat - c.band.2 ≤ x.t1 ∧ x.t1 ≤ c.tOverheat + c.band.1) :
    xs.foldl (tick c) Out.init = Out.init := by
  induction xs with
  | nil => rfl
  | cons x xs ih =>
    obtain ⟨s, v, l, u⟩ := hx x (List.mem_cons_self ..)
    have ev := evalCool_eq c hi ha (validT_of_nonneg hh) Out.init.last x.t1 c.tOverheat v hf
    rw [if_neg (by omega), if_neg (by omega)] at ev
    have e : tick c Out.init x = c.set x.now Out.init.last false Out.init := by
      unfold tick pass
      rw [s, if_neg (by decide)]
      dsimp only
      rw [hd]
      unfold decideOut
      simp only [hp, hk, hf, Bool.true_and, Bool.false_eq_true, if_false]
      rw [ev, if_pos (by decide)]
    have e2 : tick c Out.init x = Out.init := by
      rw [e]; exact set_same ..
    rw [List.foldl_cons, e2]
    exact ih (fun y hy => hx y (List.mem_cons_of_mem _ hy))

/-- A cooling thermostat with an overheat limit of 30.0 degrees. -/
def exCool : Cfg := { exHeat with kind := .cool, protect := true, tOverheat := 3000 }

/-- It is 30.1 degrees, the set point is 20.0, and after any number of passes the cooler is off. -/
theorem overheat_lock_violation : ¬ CoolingStarts exCool ∧
    ∀ n, coolingOn exCool.hw exCool.kind
      ((List.replicate n (⟨40000, .cool, noTemp, 2000, 3010, noTemp, false, false⟩ : Tick)).foldl (tick exCool) Out.init) = false := by
  constructor
  · intro h
    have := h [] ⟨40000, .cool, noTemp, 2000, 3010, noTemp, false, false⟩ (by decide) rfl rfl (by decide) (by decide) (by decide)
    revert this
    decide +kernel
  · intro n
    rw [overheat_lock exCool (by decide) rfl (by decide) (by decide) rfl rfl (by decide)]
    · decide
    · intro x hx
      have := List.eq_of_mem_replicate hx
      subst this
      decide

/-- Away from the limit the same thermostat cools. -/
example : coolingOn exCool.hw exCool.kind
    (tick exCool Out.init ⟨40000, .cool, noTemp, 2000, 2900, noTemp, false, false⟩) = true := by
  decide +kernel

/-! ### The auxiliary protection ignores the mode -/

/-- The full claim: COOL mode never switches the heater on (frost protection off). -/
def CoolNeverHeats (c : Cfg) : Prop :=
  ∀ (xs : List Tick) (x : Tick), sensorsOk c x = true → x.mode = .cool →
    let o := xs.foldl (tick c) Out.init
    heatingOn c.kind o = false → heatingOn c.kind (tick c o x) = false

/-- `mode_respected` (without the auxiliary protection) is the part that holds.  With a floor minimum
of 20.0 degrees a HEAT_COOL thermostat in COOL mode heats when the floor is cold (lines 782-790,
3265-3279). -/
theorem aux_wrong_mode_violation : ¬ CoolNeverHeats { exHeat with kind := .both, hw := ⟨true, true, true, true⟩, auxOn := true, auxMin := 2000 } := by
  intro h
  have := h [] ⟨40000, .cool, noTemp, 2500, 2300, 1900, false, false⟩ (by decide) rfl
  revert this
  decide +kernel

/-- The differential function: the difference of the two thermometers wraps at 16 bits (line 736). -/
theorem differential_wrap_violation : ∃ t1 t2 : Int, -27300 ≤ t1 ∧ t1 ≤ 32767 ∧ -27300 ≤ t2 ∧ t2 ≤ 32767 ∧
    t1 > t2 ∧ wrap16 (t1 - t2) < 0 := ⟨20000, -15000, by decide, by decide, by decide, by decide, by decide, by decide⟩

end Verif.Hvac
