import Verif.Hvac.ControlSafety
/-!
# Thermostat control: HEAT_COOL mode over whole histories

The third mode of `HvacBase::iterateAlways` (src/supla/control/hvac_base.cpp, 788-817): one set point
to heat to, another to cool to.  `ControlProps` shows that HEAT and COOL are two-point controllers;
here HEAT_COOL is shown to be a three-state controller.
-/
namespace Verif.Hvac
open Verif

/-! ### Specification -/

/-- What the room gets.  No code of its own: this is the specification. -/
inductive Phase | rest | heating | cooling
deriving DecidableEq, Repr

/-- A three-state controller with hysteresis.  At rest it starts to heat below `spH - lo` and to cool
above `spC + lo`; heating goes on up to `spH + hi`, cooling down to `spC - hi` (or until it would be
time to heat); from heating to cooling and back it always goes through rest.  Specification, no code
of its own. -/
def threeState (lo hi : Int) (p : Phase) (t spH spC : Int) : Phase :=
  match p with
  | .rest => if t < spH - lo then .heating else if t > spC + lo then .cooling else .rest
  | .heating => if t > spH + hi then .rest else .heating
  | .cooling => if t < spH - lo ∨ t < spC - hi then .rest else .cooling

/-- What the two relays of a HEAT_COOL thermostat show.  Both on is no phase at all. -/
def phase (c : Cfg) (o : Out) : Option Phase :=
  match heatingOn c.kind o, coolingOn c.hw c.kind o with
  | false, false => some .rest
  | true, false => some .heating
  | false, true => some .cooling
  | true, true => none

/-! ### Effect of one call -/

/-- A value of the other sign: afterwards off, unless the minimum on time is not over. -/
theorem set_across (h : Hw) (k : Kind) (hw : Wired h k) (a b now : Nat) (v : Int) (f : Bool) (o : Out)
    (ho : (0 < o.last ∧ v ≤ 0) ∨ (-100 ≤ o.last ∧ o.last < 0 ∧ 0 ≤ v)) :
    (setOutput h k a b now v f o).last = 0 ∨
    (f = false ∧ since (clk now) o.stamp < a * 1000 ∧ setOutput h k a b now v f o = o) := by
  have h2 : ¬ o.last = v := by omega
  have l1 : ¬ o.last < -100 := by omega
  unfold setOutput
  rw [if_neg (by simp [hw.1]), if_neg h2]
  unfold choose
  rw [if_neg h2]
  dsimp only
  rw [if_neg l1]
  by_cases nb : (!f && decide (since (clk now) o.stamp < a * 1000)) = true
  · have nb' := nb
    rw [Bool.and_eq_true] at nb'
    have n1 : f = false := by simpa using nb'.1
    have n2 : since (clk now) o.stamp < a * 1000 := of_decide_eq_true nb'.2
    right
    refine ⟨n1, n2, ?_⟩
    rcases ho with ho | ho
    · rw [if_pos ho, if_pos nb]
    · rw [if_neg (by omega), if_neg (by omega), if_pos (by omega), if_pos nb]
  · left
    rcases ho with ho | ho
    · rw [if_pos ho, if_neg nb]; exact write_last ..
    · rw [if_neg (by omega), if_neg (by omega), if_pos (by omega), if_neg nb]; exact write_last ..

/-- The phase read off the last value. -/
def phaseOf (l : Int) : Phase := if l > 0 then .heating else if l < 0 ∧ l ≠ -111 then .cooling else .rest

theorem phase_eq (c : Cfg) (hk : c.kind = .both) (o : Out) (hs : Shown c.hw c.kind o) :
    phase c o = some (phaseOf o.last) := by
  unfold phase phaseOf
  rcases hs.2 with ⟨z1, z2, z3⟩ | ⟨z1, z2, z3, _⟩
  · have a1 : heatingOn c.kind o = false := by rw [hk]; simp [heatingOn, z2]
    have a2 : coolingOn c.hw c.kind o = false := by rw [hk]; simp [coolingOn, z3]
    rw [a1, a2, z1]
    rfl
  · rw [hk] at z2 z3
    have r := z1.1
    rw [hk]
    cases hh : heatingOn .both o with
    | true =>
      have p := (z2.1 hh).1
      cases hc : coolingOn c.hw .both o with
      | true => have := (z3.1 hc).1; omega
      | false => rw [if_pos p]
    | false =>
      have p : ¬ o.last > 0 := fun q => by
        have := z2.2 ⟨q, by decide⟩
        rw [hh] at this; cases this
      rw [if_neg p]
      cases hc : coolingOn c.hw .both o with
      | true =>
        have := (z3.1 hc).1
        rw [if_pos ⟨this, by omega⟩]
      | false =>
        have q : ¬ o.last < 0 := fun q => by
          have := z3.2 ⟨q, by decide⟩
          rw [hc] at this; cases this
        rw [if_neg (by omega)]

/-- What a pass in HEAT_COOL mode asks for. -/
theorem tick_both (c : Cfg) (hp : Plain c) (o : Out) (x : Tick) (hm : x.mode = .heatCool)
    (h1 : validT x.t1 = true) (h2 : validT x.spHeat = true) (h3 : validT x.spCool = true)
    (hf : x.forcedOff = false) (hr : InRange o.last ∨ o.last = -111) :
    let lo := c.band.1
    let hi := c.band.2
    ∃ v : Int, tick c o x = setOutput c.hw c.kind c.minOn c.minOff x.now v false o ∧
      (o.last > 0 → x.t1 ≤ x.spHeat + hi → v = o.last) ∧
      (o.last > 0 → x.t1 > x.spHeat + hi → v ≤ 0) ∧
      ((o.last < 0 ∧ o.last ≠ -111) → x.t1 < x.spHeat - lo → v = 100) ∧
      ((o.last < 0 ∧ o.last ≠ -111) → ¬ x.t1 < x.spHeat - lo → x.t1 < x.spCool - hi → v = 0) ∧
      ((o.last < 0 ∧ o.last ≠ -111) → ¬ x.t1 < x.spHeat - lo → ¬ x.t1 < x.spCool - hi → v = o.last) ∧
      ((o.last = 0 ∨ o.last = -111) → x.t1 < x.spHeat - lo → v = 100) ∧
      ((o.last = 0 ∨ o.last = -111) → ¬ x.t1 < x.spHeat - lo → x.t1 > x.spCool + lo → v = -100) ∧
      ((o.last = 0 ∨ o.last = -111) → ¬ x.t1 < x.spHeat - lo → ¬ x.t1 > x.spCool + lo →
        v = 0 ∨ v = o.last) := by
  intro lo hi
  have e := tick_plain c hp o x h1 hf
  have hb := band_nonneg c hp.hyst
  rw [hm] at e
  dsimp only at e
  rw [evalHeat_eq c hp.internal hp.algo (validT_of_nonneg hp.hyst) _ _ _ h1 h2,
    evalCool_eq c hp.internal hp.algo (validT_of_nonneg hp.hyst) _ _ _ h1 h3] at e
  have hb1 : 0 ≤ lo := hb.1
  have hb2 : 0 ≤ hi := hb.2
  change tick c o x = (if (if o.last ≤ 0 then (if x.t1 < x.spHeat - lo then 100 else o.last)
      else (if x.t1 > x.spHeat + hi then 0 else o.last)) > 0 then _ else _) at e
  change _ = if _ then c.set x.now (if o.last ≤ 0 then (if x.t1 < x.spHeat - lo then 100 else o.last)
      else (if x.t1 > x.spHeat + hi then 0 else o.last)) false o
      else if (if o.last < 0 ∧ x.t1 < x.spCool - hi then 0
      else if (o.last ≥ 0 ∨ o.last = -111) ∧ x.t1 > x.spCool + lo then -100 else o.last) < 0 then
        c.set x.now (if o.last < 0 ∧ x.t1 < x.spCool - hi then 0
      else if (o.last ≥ 0 ∨ o.last = -111) ∧ x.t1 > x.spCool + lo then -100 else o.last) false o
      else c.set x.now 0 false o at e
  have push : ∀ (p q : Prop) [Decidable p] [Decidable q] (a b d : Int),
      (if p then c.set x.now a false o else if q then c.set x.now b false o else c.set x.now d false o) =
        c.set x.now (if p then a else if q then b else d) false o := by
    intro p q _ _ a b d
    split
    · rfl
    · split <;> rfl
  rw [push] at e
  generalize hv : (if (if o.last ≤ 0 then (if x.t1 < x.spHeat - lo then (100 : Int) else o.last)
      else (if x.t1 > x.spHeat + hi then 0 else o.last)) > 0 then
      (if o.last ≤ 0 then (if x.t1 < x.spHeat - lo then (100 : Int) else o.last)
      else (if x.t1 > x.spHeat + hi then 0 else o.last))
      else if (if o.last < 0 ∧ x.t1 < x.spCool - hi then (0 : Int)
      else if (o.last ≥ 0 ∨ o.last = -111) ∧ x.t1 > x.spCool + lo then -100 else o.last) < 0 then
      (if o.last < 0 ∧ x.t1 < x.spCool - hi then (0 : Int)
      else if (o.last ≥ 0 ∨ o.last = -111) ∧ x.t1 > x.spCool + lo then -100 else o.last) else 0) = v at e
  refine ⟨v, e, ?_⟩
  have hr' : (-100 ≤ o.last ∧ o.last ≤ 100) ∨ o.last = -111 := hr
  clear e push
  generalize o.last = l at *
  generalize x.t1 = t at *
  generalize x.spHeat = sh at *
  generalize x.spCool = sc at *
  clear_value lo hi
  refine ⟨?_, ?_, ?_, ?_, ?_, ?_, ?_, ?_⟩ <;> (rw [← hv]; clear hv; repeat' split) <;> omega

/-- One pass of HEAT_COOL mode without minimum times. -/
theorem step_phase (c : Cfg) (hp : Plain c) (hon : c.minOn = 0) (hoff : c.minOff = 0) (o : Out) (x : Tick)
    (hm : x.mode = .heatCool) (h1 : validT x.t1 = true) (h2 : validT x.spHeat = true)
    (h3 : validT x.spCool = true) (hf : x.forcedOff = false) (hs : Shown c.hw c.kind o) :
    phaseOf (tick c o x).last = threeState c.band.1 c.band.2 (phaseOf o.last) x.t1 x.spHeat x.spCool := by
  have r : InRange o.last ∨ o.last = -111 := by
    rcases hs.2 with ⟨z1, _⟩ | ⟨z1, _⟩
    · exact Or.inr z1
    · exact Or.inl z1
  have r' : (-100 ≤ o.last ∧ o.last ≤ 100) ∨ o.last = -111 := r
  obtain ⟨v, e, a1, a2, a3, a4, a5, a6, a7, a8⟩ := tick_both c hp o x hm h1 h2 h3 hf r
  rw [hon, hoff] at e
  have heat : ∀ l : Int, l > 0 → phaseOf l = .heating := fun l h => by unfold phaseOf; rw [if_pos h]
  have cool : ∀ l : Int, (l < 0 ∧ l ≠ -111) → phaseOf l = .cooling := fun l h => by
    unfold phaseOf; rw [if_neg (by omega), if_pos h]
  have rest : ∀ l : Int, (l = 0 ∨ l = -111) → phaseOf l = .rest := fun l h => by
    unfold phaseOf; rw [if_neg (by omega), if_neg (by omega)]
  have same : v = o.last → tick c o x = o := fun h => by rw [e, h]; exact set_same ..
  have across : ((0 < o.last ∧ v ≤ 0) ∨ (-100 ≤ o.last ∧ o.last < 0 ∧ 0 ≤ v)) → (tick c o x).last = 0 := fun h => by
    have := set_across c.hw c.kind hp.good.1 0 0 x.now v false o h
    rw [← e] at this
    omega
  rcases (show o.last > 0 ∨ (o.last < 0 ∧ o.last ≠ -111) ∨ (o.last = 0 ∨ o.last = -111) by omega) with p | p | p
  · rw [heat _ p]
    unfold threeState
    dsimp only
    by_cases q : x.t1 > x.spHeat + c.band.2
    · rw [if_pos q]
      exact rest _ (Or.inl (across (Or.inl ⟨p, a2 p q⟩)))
    · rw [if_neg q, same (a1 p (by omega))]
      exact heat _ p
  · rw [cool _ p]
    unfold threeState
    dsimp only
    by_cases q1 : x.t1 < x.spHeat - c.band.1
    · rw [if_pos (Or.inl q1)]
      have := a3 p q1
      exact rest _ (Or.inl (across (Or.inr ⟨by omega, p.1, by omega⟩)))
    · by_cases q2 : x.t1 < x.spCool - c.band.2
      · rw [if_pos (Or.inr q2)]
        have := a4 p q1 q2
        exact rest _ (Or.inl (across (Or.inr ⟨by omega, p.1, by omega⟩)))
      · rw [if_neg (by omega), same (a5 p q1 q2)]
        exact cool _ p
  · rw [rest _ p]
    unfold threeState
    dsimp only
    by_cases q1 : x.t1 < x.spHeat - c.band.1
    · rw [if_pos q1]
      have z := set_from_off c.hw c.kind hp.good.1 0 0 x.now 100 ⟨by decide, by decide⟩ (by decide) false o p
      rw [a6 p q1] at e
      rw [← e] at z
      exact heat _ (by omega)
    · rw [if_neg q1]
      by_cases q2 : x.t1 > x.spCool + c.band.1
      · rw [if_pos q2]
        have z := set_from_off c.hw c.kind hp.good.1 0 0 x.now (-100) ⟨by decide, by decide⟩ (by decide) false o p
        rw [a7 p q1 q2] at e
        rw [← e] at z
        exact cool _ (by omega)
      · rw [if_neg q2]
        rcases a8 p q1 q2 with w | w
        · rw [w] at e
          have z := set_zero c.hw c.kind hp.good.1 0 0 x.now false o
          rw [← e] at z
          exact rest _ (by omega)
        · rw [same w]; exact rest _ p

/-- **C50 (HEAT_COOL).** In HEAT_COOL mode, with no minimum times, the two relays are exactly a
three-state controller, for every history of temperatures and of pairs of set points, at any times:
they never are on together, and from heating to cooling it always goes through rest. -/
theorem heat_cool_is_three_state (c : Cfg) (hp : Plain c) (hk : c.kind = .both)
    (hon : c.minOn = 0) (hoff : c.minOff = 0) (xs : List Tick)
    (hx : ∀ x ∈ xs, x.mode = .heatCool ∧ validT x.t1 = true ∧ validT x.spHeat = true ∧
      validT x.spCool = true ∧ x.forcedOff = false) :
    phase c (xs.foldl (tick c) Out.init) =
      some (xs.foldl (fun p x => threeState c.band.1 c.band.2 p x.t1 x.spHeat x.spCool) .rest) := by
  have key : ∀ (xs : List Tick) (o : Out) (p : Phase),
      (∀ x ∈ xs, x.mode = .heatCool ∧ validT x.t1 = true ∧ validT x.spHeat = true ∧
        validT x.spCool = true ∧ x.forcedOff = false) →
      Shown c.hw c.kind o → phaseOf o.last = p →
      phase c (xs.foldl (tick c) o) =
        some (xs.foldl (fun p x => threeState c.band.1 c.band.2 p x.t1 x.spHeat x.spCool) p) := by
    intro xs
    induction xs with
    | nil =>
      intro o p _ hs he
      rw [← he]
      exact phase_eq c hk o hs
    | cons x xs ih =>
      intro o p hx hs he
      obtain ⟨m, v1, v2, v3, ff⟩ := hx x (List.mem_cons_self ..)
      have hs' : Shown c.hw c.kind (tick c o x) := pass_shown c hp.good false o x hs
      refine ih (tick c o x) _ (fun y hy => hx y (List.mem_cons_of_mem _ hy)) hs' ?_
      rw [← he]
      exact step_phase c hp hon hoff o x m v1 v2 v3 ff hs
  exact key xs Out.init .rest hx (shown_init _ _) rfl

/-- A HEAT_COOL thermostat with a hysteresis of 0.4 degrees around each set point. -/
def exBoth : Cfg := { exHeat with kind := .both, hw := ⟨true, true, true, true⟩ }

theorem exBoth_plain : Plain exBoth :=
  ⟨⟨⟨rfl, by decide, by decide⟩, by decide, by decide⟩, rfl, by decide, by decide, rfl, rfl, rfl⟩

/-- Set points 20.0 and 24.0: at 19.0 it heats, at 21.0 it rests, at 25.0 it cools, and an open
window (18.0) takes it through rest to heating. -/
example :
    let x (now : Nat) (t : Int) : Tick := ⟨now, .heatCool, 2000, 2400, t, noTemp, false, false⟩
    phase exBoth ([x 40000 1900].foldl (tick exBoth) Out.init) = some .heating ∧
    phase exBoth ([x 40000 1900, x 41000 2100].foldl (tick exBoth) Out.init) = some .rest ∧
    phase exBoth ([x 40000 1900, x 41000 2100, x 42000 2500].foldl (tick exBoth) Out.init) = some .cooling ∧
    phase exBoth ([x 40000 1900, x 41000 2100, x 42000 2500, x 43000 1800].foldl (tick exBoth) Out.init) = some .rest ∧
    phase exBoth ([x 40000 1900, x 41000 2100, x 42000 2500, x 43000 1800, x 44000 1800].foldl (tick exBoth) Out.init)
      = some .heating := by
  decide +kernel

/-! ### With minimum times -/

/-- **C50 (dead band).** After every history, in any modes, a pass in HEAT_COOL mode that finds the
room between the two set points (beyond both distances) leaves everything off, unless the minimum on
time still runs. -/
theorem dead_band (c : Cfg) (hp : Plain c) (hk : c.kind = .both) (xs : List Tick) (x : Tick)
    (hm : x.mode = .heatCool) (h1 : validT x.t1 = true) (h2 : validT x.spHeat = true)
    (h3 : validT x.spCool = true) (hf : x.forcedOff = false)
    (hlo : x.spHeat + c.band.2 < x.t1) (hhi : x.t1 < x.spCool - c.band.2) :
    let o := xs.foldl (tick c) Out.init
    phase c (tick c o x) ≠ some .rest → since (clk x.now) o.stamp < c.minOn * 1000 := by
  intro o ha
  have hs : Shown c.hw c.kind o := ticks_shown c hp.good xs
  have hs' : Shown c.hw c.kind (tick c o x) := pass_shown c hp.good false o x hs
  have hb := band_nonneg c hp.hyst
  have r : InRange o.last ∨ o.last = -111 := by
    rcases hs.2 with ⟨z1, _⟩ | ⟨z1, _⟩
    · exact Or.inr z1
    · exact Or.inl z1
  have r' : (-100 ≤ o.last ∧ o.last ≤ 100) ∨ o.last = -111 := r
  obtain ⟨v, e, a1, a2, a3, a4, a5, a6, a7, a8⟩ := tick_both c hp o x hm h1 h2 h3 hf r
  have nz : ¬ ((tick c o x).last = 0 ∨ (tick c o x).last = -111) := fun q => by
    apply ha
    rw [phase_eq c hk _ hs']
    unfold phaseOf
    rw [if_neg (by omega), if_neg (by omega)]
  have across : ((0 < o.last ∧ v ≤ 0) ∨ (-100 ≤ o.last ∧ o.last < 0 ∧ 0 ≤ v)) →
      since (clk x.now) o.stamp < c.minOn * 1000 := fun h => by
    have := set_across c.hw c.kind hp.good.1 c.minOn c.minOff x.now v false o h
    rw [← e] at this
    omega
  rcases (show o.last > 0 ∨ (o.last < 0 ∧ o.last ≠ -111) ∨ (o.last = 0 ∨ o.last = -111) by omega) with p | p | p
  · exact across (Or.inl ⟨p, a2 p hlo⟩)
  · have := a4 p (by omega) hhi
    exact across (Or.inr ⟨by omega, p.1, by omega⟩)
  · exfalso
    apply nz
    rcases a8 p (by omega) (by omega) with w | w
    · rw [w] at e
      have z := set_zero c.hw c.kind hp.good.1 c.minOn c.minOff x.now false o
      rw [← e] at z
      rcases z with z | ⟨_, _, z, _⟩
      · exact Or.inl z
      · rw [z]; exact p
    · have : tick c o x = o := by rw [e, w]; exact set_same ..
      rw [this]; exact p

/-- **C50 (no short cut).** In HEAT_COOL mode, with any minimum times and after any history, no
single pass goes from heating to cooling or from cooling to heating. -/
theorem through_rest (c : Cfg) (hp : Plain c) (hk : c.kind = .both) (xs : List Tick) (x : Tick)
    (hm : x.mode = .heatCool) (h1 : validT x.t1 = true) (h2 : validT x.spHeat = true)
    (h3 : validT x.spCool = true) (hf : x.forcedOff = false) :
    let o := xs.foldl (tick c) Out.init
    (phase c o = some .heating → phase c (tick c o x) ≠ some .cooling) ∧
    (phase c o = some .cooling → phase c (tick c o x) ≠ some .heating) := by
  intro o
  have hs : Shown c.hw c.kind o := ticks_shown c hp.good xs
  have hs' : Shown c.hw c.kind (tick c o x) := pass_shown c hp.good false o x hs
  have r : InRange o.last ∨ o.last = -111 := by
    rcases hs.2 with ⟨z1, _⟩ | ⟨z1, _⟩
    · exact Or.inr z1
    · exact Or.inl z1
  have r' : (-100 ≤ o.last ∧ o.last ≤ 100) ∨ o.last = -111 := r
  obtain ⟨v, e, a1, a2, a3, a4, a5, _⟩ := tick_both c hp o x hm h1 h2 h3 hf r
  have across : ((0 < o.last ∧ v ≤ 0) ∨ (-100 ≤ o.last ∧ o.last < 0 ∧ 0 ≤ v)) →
      (tick c o x).last = 0 ∨ tick c o x = o := fun h => by
    have := set_across c.hw c.kind hp.good.1 c.minOn c.minOff x.now v false o h
    rw [← e] at this
    exact this.imp id (fun z => z.2.2)
  have same : v = o.last → tick c o x = o := fun h => by rw [e, h]; exact set_same ..
  rw [phase_eq c hk _ hs, phase_eq c hk _ hs']
  generalize tick c o x = o' at *
  clear_value o
  have stay : (o'.last = 0 ∨ o' = o) →
      (some (phaseOf o.last) = some Phase.heating → some (phaseOf o'.last) ≠ some .cooling) ∧
      (some (phaseOf o.last) = some Phase.cooling → some (phaseOf o'.last) ≠ some .heating) := by
    intro q
    rcases q with q | q
    · rw [q]
      exact ⟨fun _ h => (by cases h), fun _ h => (by cases h)⟩
    · rw [q]
      exact ⟨fun z h => (by rw [z] at h; cases h), fun z h => (by rw [z] at h; cases h)⟩
  rcases (show o.last > 0 ∨ (o.last < 0 ∧ o.last ≠ -111) ∨ (o.last = 0 ∨ o.last = -111) by omega) with p | p | p
  · by_cases q : x.t1 > x.spHeat + c.band.2
    · exact stay (across (Or.inl ⟨p, a2 p q⟩))
    · exact stay (Or.inr (same (a1 p (Int.not_lt.mp q))))
  · by_cases q1 : x.t1 < x.spHeat - c.band.1
    · have := a3 p q1
      have w : -100 ≤ o.last := r'.elim (fun z => z.1) (fun z => absurd z p.2)
      exact stay (across (Or.inr ⟨w, p.1, this ▸ (by decide)⟩))
    · by_cases q2 : x.t1 < x.spCool - c.band.2
      · have := a4 p q1 q2
        have w : -100 ≤ o.last := r'.elim (fun z => z.1) (fun z => absurd z p.2)
        exact stay (across (Or.inr ⟨w, p.1, Int.le_of_eq this.symm⟩))
      · exact stay (Or.inr (same (a5 p q1 q2)))
  · have : phaseOf o.last = .rest := by
      unfold phaseOf; rw [if_neg (by omega), if_neg (by omega)]
    rw [this]
    exact ⟨fun h => (by cases h), fun h => (by cases h)⟩

end Verif.Hvac
