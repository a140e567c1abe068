import Verif.Hvac.Mode
import Verif.Hvac.ControlSafety
/-!
# Thermostat: set point limits, turning off and on, the countdown timer
-/
namespace Verif.Hvac.Mode
open Verif.Hvac.Schedule (Program)

/-! ### Histories -/

/-- What can happen to a thermostat. -/
inductive Op where
  | target (n : Now) (m : Nat) (keep : Bool)
  | apply (n : Now) (m : Nat) (tH tC : Int) (dur : Int)
  | server (n : Now) (v : Val) (dur : Nat)
  | button (n : Now) (dH dC : Int)
  | pass (n : Now)

/-- Its effect. -/
def Op.run (e : Env) (s : St) : Op → St
  | .target n m k => setTarget e n m k s
  | .apply n m tH tC d => (Mode.apply e n m tH tC d s).1
  | .server n v d => (Mode.server e n v d s).1
  | .button n a b => changeBy e n a b s
  | .pass n => passMode e n s

/-! ### Set points stay within the limits -/

/-- Specification: a set point that is set is within the configured room limits. -/
def InLimits (e : Env) (s : St) : Prop :=
  (s.v.heatSet = true → e.tMin ≤ s.v.heat ∧ s.v.heat ≤ e.tMax) ∧
  (s.v.coolSet = true → e.tMin ≤ s.v.cool ∧ s.v.cool ≤ e.tMax)

/-- The full claim. -/
def AlwaysInLimits (e : Env) : Prop := ∀ ops : List Op, InLimits e (ops.foldl (Op.run e) St.init)

theorem clamp_in (e : Env) (h : e.tMin ≤ e.tMax) (t : Int) : e.tMin ≤ e.clamp t ∧ e.clamp t ≤ e.tMax := by
  unfold Env.clamp
  dsimp only
  repeat' split
  all_goals omega

theorem clamp_id (e : Env) (t : Int) (h : e.tMin ≤ t ∧ t ≤ e.tMax) : e.clamp t = t := by
  unfold Env.clamp
  dsimp only
  repeat' split
  all_goals omega

theorem setHeat_in (e : Env) (h : e.tMin ≤ e.tMax) (t : Int) (s : St) (hs : InLimits e s) :
    InLimits e (setHeat e t s) := by
  unfold setHeat
  split
  · exact hs
  · exact ⟨fun _ => clamp_in e h t, hs.2⟩

theorem setCool_in (e : Env) (h : e.tMin ≤ e.tMax) (t : Int) (s : St) (hs : InLimits e s) :
    InLimits e (setCool e t s) := by
  unfold setCool
  split
  · exact hs
  · exact ⟨hs.1, fun _ => clamp_in e h t⟩

/-- The default set points are within the limits. -/
def DefaultsFit (e : Env) : Prop := e.tMin ≤ 2100 ∧ 2500 ≤ e.tMax

theorem fix_in (e : Env) (h : DefaultsFit e) (s : St) (hs : InLimits e s) : InLimits e (fix e s) := by
  unfold DefaultsFit at h
  have hl : e.tMin ≤ e.tMax := by omega
  have hd : InLimits e (fixDefaults e s) := by
    unfold fixDefaults
    dsimp only
    have h1 : InLimits e (if e.heats && !s.v.heatSet then { s with v := { s.v with heat := 2100, heatSet := true } } else s) := by
      split
      · exact ⟨fun _ => ⟨h.1, by show (2100 : Int) ≤ _; omega⟩, hs.2⟩
      · exact hs
    generalize (if e.heats && !s.v.heatSet then { s with v := { s.v with heat := 2100, heatSet := true } } else s) = s1 at *
    split
    · exact ⟨h1.1, fun _ => ⟨by show _ ≤ (2500 : Int); omega, h.2⟩⟩
    · exact h1
  unfold fix
  dsimp only
  generalize fixDefaults e s = s1 at *
  have a1 : ∀ (c : Prop) [Decidable c] (a b : St), InLimits e a → InLimits e b → InLimits e (if c then a else b) := by
    intro c _ a b ha hb; split <;> assumption
  refine a1 _ _ _ (a1 _ _ _ (setHeat_in e hl _ _ hd) hd) (a1 _ _ _ (a1 _ _ _ (setCool_in e hl _ _ hd) hd) (a1 _ _ _ (a1 _ _ _ (a1 _ _ _ ?_ hd) hd) hd))
  have h2 : InLimits e (if s.spCool - s.spHeat < e.offMin then
      (if e.inRoom (s.spHeat + e.offMin) = true then setCool e (s.spHeat + e.offMin) s1 else setHeat e (s.spCool - e.offMin) s1) else s1) :=
    a1 _ _ _ (a1 _ _ _ (setCool_in e hl _ _ hd) (setHeat_in e hl _ _ hd)) hd
  generalize (if s.spCool - s.spHeat < e.offMin then
      (if e.inRoom (s.spHeat + e.offMin) = true then setCool e (s.spHeat + e.offMin) s1 else setHeat e (s.spCool - e.offMin) s1) else s1) = s2 at *
  exact a1 _ _ _ (a1 _ _ _ (setCool_in e hl _ _ h2) (setHeat_in e hl _ _ h2)) h2

/-- Only the channel value matters. -/
theorem inLimits_congr (e : Env) (s t : St) (h : t.v.heat = s.v.heat ∧ t.v.heatSet = s.v.heatSet ∧
    t.v.cool = s.v.cool ∧ t.v.coolSet = s.v.coolSet) (hs : InLimits e s) : InLimits e t := by
  obtain ⟨h1, h2, h3, h4⟩ := h
  unfold InLimits
  rw [h1, h2, h3, h4]
  exact hs

/-- What `setPlain` did before `fix`, as far as the set points go. -/
theorem setPlain_in (e : Env) (h : DefaultsFit e) (m : Nat) (k : Bool) (s : St) (hs : InLimits e s) :
    InLimits e (setPlain e m k s) := by
  unfold setPlain
  dsimp only
  repeat' split
  all_goals first
    | exact hs
    | (apply fix_in e h; exact hs)

theorem process_in (e : Env) (h : DefaultsFit e) (n : Now) (s : St) (hs : InLimits e s) :
    InLimits e (process e n s).1 := by
  have hl : e.tMin ≤ e.tMax := by unfold DefaultsFit at h; omega
  unfold process
  dsimp only
  repeat' split
  all_goals first
    | exact hs
    | exact setPlain_in e h _ _ _ hs
    | exact setCool_in e hl _ _ (setHeat_in e hl _ _ (setPlain_in e h _ _ _ hs))

theorem onWeekly_in (e : Env) (h : DefaultsFit e) (n : Now) (s : St) (hs : InLimits e s) :
    InLimits e (onWeekly e n s).1 := by
  unfold onWeekly
  split
  · exact hs
  · exact process_in e h n _ hs

theorem turnOn_in (e : Env) (h : DefaultsFit e) (n : Now) (s : St) (hs : InLimits e s) :
    InLimits e (turnOn e n s) := by
  have hl : e.tMin ≤ e.tMax := by unfold DefaultsFit at h; omega
  unfold turnOn
  by_cases c : s.weekly = true ∨ s.wm.mode = 9
  · rw [if_pos c]; exact onWeekly_in e h n s hs
  · rw [if_neg c]
    dsimp only
    have h1 : InLimits e (if (!e.sup s.wm.mode) = true then { s with wm := { s.wm with mode := 0 } } else s) := by
      split <;> exact hs
    generalize (if (!e.sup s.wm.mode) = true then { s with wm := { s.wm with mode := 0 } } else s) = s1 at *
    apply setPlain_in e h
    have h2 : InLimits e (if s1.wm.heatSet = true then setHeat e s1.wm.heat s1 else s1) := by
      split
      · exact setHeat_in e hl _ _ h1
      · exact h1
    generalize (if s1.wm.heatSet = true then setHeat e s1.wm.heat s1 else s1) = s2 at *
    split
    · exact setCool_in e hl _ _ h2
    · exact h2

theorem setTarget_in (e : Env) (h : DefaultsFit e) (n : Now) (m : Nat) (k : Bool) (s : St)
    (hs : InLimits e s) : InLimits e (setTarget e n m k s) := by
  unfold setTarget
  dsimp only
  repeat' split
  all_goals first
    | exact hs
    | (apply fix_in e h; apply turnOn_in e h; exact hs)
    | (apply fix_in e h; exact hs)
    | (apply fix_in e h; apply onWeekly_in e h; exact hs)
    | (apply onWeekly_in e h; exact hs)
    | (apply setPlain_in e h; exact hs)

theorem resolve_v (e : Env) (n : Now) (m : Nat) (tH tC : Int) (s : St) :
    (resolve e n m tH tC s).1.v = s.v ∧ (resolve e n m tH tC s).1.weekly = s.weekly ∧
    (resolve e n m tH tC s).1.countdown = s.countdown ∧ (resolve e n m tH tC s).1.wm = s.wm := by
  unfold resolve
  by_cases m0 : m = 0
  · rw [if_pos m0]
    cases s.weekly && !e.swManual <;> dsimp only <;> (repeat' split) <;> exact ⟨rfl, rfl, rfl, rfl⟩
  · rw [if_neg m0]
    dsimp only
    repeat' split
    all_goals exact ⟨rfl, rfl, rfl, rfl⟩

theorem setTemps_in (e : Env) (h : DefaultsFit e) (m : Nat) (tH tC : Int) (s : St)
    (hs : InLimits e s) : InLimits e (setTemps e m tH tC s) := by
  have hl : e.tMin ≤ e.tMax := by unfold DefaultsFit at h; omega
  unfold setTemps
  dsimp only
  generalize (if s.weekly = false ∧ tH = unset then s.manHeat else tH) = a
  generalize (if s.weekly = false ∧ tC = unset then s.manCool else tC) = b
  split
  · exact setCool_in e hl _ _ (setHeat_in e hl _ _ hs)
  · exact hs

theorem remember_v (m : Nat) (tH tC : Int) (s : St) : (remember m tH tC s).v = s.v ∧
    (remember m tH tC s).weekly = s.weekly ∧ (remember m tH tC s).countdown = s.countdown ∧
    (remember m tH tC s).wm = s.wm ∧ (remember m tH tC s).ends = s.ends := by
  unfold remember
  dsimp only
  repeat' split
  all_goals exact ⟨rfl, rfl, rfl, rfl, rfl⟩

theorem applyBody_in (e : Env) (h : DefaultsFit e) (n : Now) (m : Nat) (tH tC dur : Int) (s : St)
    (hs : InLimits e s) : InLimits e (applyBody e n m tH tC dur s) := by
  unfold applyBody
  dsimp only
  have h1 := setTemps_in e h m tH tC _ (setTarget_in e h n m false s hs)
  generalize setTemps e m tH tC (setTarget e n m false s) = s1 at *
  unfold InLimits
  rw [(remember_v _ _ _ _).1]
  split <;> exact h1

theorem apply_in (e : Env) (h : DefaultsFit e) (n : Now) (m : Nat) (tH tC dur : Int) (s : St)
    (hs : InLimits e s) : InLimits e (apply e n m tH tC dur s).1 := by
  unfold apply
  dsimp only
  have h1 : InLimits e (if m = 9 then { s with over := -1 } else s) := by split <;> exact hs
  generalize (if m = 9 then { s with over := -1 } else s) = s1 at *
  have hr : InLimits e (resolve e n m tH tC s1).1 := by
    unfold InLimits
    rw [(resolve_v e n m tH tC s1).1]
    exact h1
  generalize resolve e n m tH tC s1 = r at *
  obtain ⟨s2, m2⟩ := r
  dsimp only at hr ⊢
  split
  · exact hr
  · split
    · split
      · apply applyBody_in e h
        split <;> exact hr
      · exact hr
    · apply applyBody_in e h
      exact hr

theorem passMode_in (e : Env) (h : DefaultsFit e) (n : Now) (s : St) (hs : InLimits e s) :
    InLimits e (passMode e n s) := by
  unfold passMode
  dsimp only
  have h1 : InLimits e (expire e n s) := by
    unfold expire
    generalize (if n.ready = true then n.now else 0) = t
    split
    · exact turnOn_in e h n { s with countdown := false } hs
    · exact hs
  generalize expire e n s = s1 at *
  have h2 : InLimits e (if e.sup s1.v.mode = true then s1 else setTarget e n 1 false s1) := by
    split
    · exact h1
    · exact setTarget_in e h n _ _ _ h1
  generalize (if e.sup s1.v.mode = true then s1 else setTarget e n 1 false s1) = s2 at *
  split
  · exact process_in e h n s2 h2
  · exact h2

/-- For every history of commands, server values, button presses, timers and schedule changes the
set points stay within the room limits, provided the built-in default set points (21.0 and 25.0)
are within the limits. -/
theorem set_points_in_limits_partial (e : Env) (h : DefaultsFit e) : AlwaysInLimits e := by
  intro ops
  have key : ∀ (ops : List Op) (s : St), InLimits e s → InLimits e (ops.foldl (Op.run e) s) := by
    intro ops
    induction ops with
    | nil => intro s hs; exact hs
    | cons op ops ih =>
      intro s hs
      apply ih
      cases op with
      | target n m k => exact setTarget_in e h n m k s hs
      | apply n m a b d => exact apply_in e h n m a b d s hs
      | server n v d =>
        show InLimits e (Mode.server e n v d s).1
        unfold Mode.server
        exact apply_in e h n _ _ _ _ s hs
      | button n a b =>
        show InLimits e (changeBy e n a b s)
        unfold changeBy
        dsimp only
        split
        all_goals exact apply_in e h n _ _ _ _ s hs
      | pass n => exact passMode_in e h n s hs
  refine key ops _ ⟨fun q => ?_, fun q => ?_⟩ <;> exact absurd q (by decide)

/-- A clock and a schedule with 20.0 degrees. -/
def exNow (t : Int) : Now := ⟨true, t, false, 1, ⟨2, 2000, 0⟩⟩

/-- Heating and cooling, 5 to 40 degrees, distance 2 to 20 degrees. -/
def exBoth : Env := ⟨.both, true, 500, 4000, 200, 2000, false, false⟩

example : DefaultsFit exBoth := ⟨by decide, by decide⟩
example : ([Op.server (exNow 0) ⟨2, 2200, 0, true, false⟩ 0].foldl (Op.run exBoth) St.init).v = ⟨2, 2200, 2500, true, true⟩ := by
  decide +kernel

/-- False when the limits exclude a default: with a limit of 20.0 degrees, a mode change sets the
other set point to 25.0 without a check (lines 3943-3950), and a later change to COOL uses it. -/
theorem default_outside_limits_violation : ¬ AlwaysInLimits { exBoth with tMax := 2000 } ∧
    ([Op.target (exNow 0) 2 false, Op.target (exNow 0) 3 false].foldl (Op.run { exBoth with tMax := 2000 }) St.init).v.mode = 3 ∧
    ([Op.target (exNow 0) 2 false, Op.target (exNow 0) 3 false].foldl (Op.run { exBoth with tMax := 2000 }) St.init).v.cool = 2500 := by
  refine ⟨fun h => ?_, by decide +kernel, by decide +kernel⟩
  have := (h [Op.target (exNow 0) 2 false]).2
  revert this
  decide +kernel

/-- "Lower the temperature" on a thermostat without a set point: 16-bit wrap-around makes the highest
temperature of it (lines 4701 and 4709). -/
theorem button_wrap_violation :
    (changeBy ⟨.dhw, true, 1000, 6500, 200, 2000, false, false⟩ (exNow 0) (-50) (-50) { St.init with v := ⟨1, 0, 0, false, false⟩, manMode := 2 }).v.heat = 6500 := by
  decide +kernel

/-! ### Heating and cooling set points keep their distance -/

/-- The full claim: in HEAT_COOL mode the cooling set point is at least the configured distance above
the heating set point. -/
def GapKept (e : Env) : Prop :=
  ∀ ops : List Op, let s := ops.foldl (Op.run e) St.init
    s.v.mode = 4 → s.v.heatSet = true → s.v.coolSet = true → e.offMin ≤ s.v.cool - s.v.heat

/-- A new value from the server is not checked: heat to 25.0 and cool to 20.0 is accepted, because the
set points are written after the mode change that corrects them (lines 3400-3406). -/
theorem gap_violation : ¬ GapKept exBoth ∧
    ([Op.server (exNow 0) ⟨4, 2500, 2000, true, true⟩ 0].foldl (Op.run exBoth) St.init).v = ⟨4, 2500, 2000, true, true⟩ := by
  constructor
  · intro h
    have := h [Op.server (exNow 0) ⟨4, 2500, 2000, true, true⟩ 0]
    revert this
    decide +kernel
  · decide +kernel

/-- The controller then heats and cools in turns although the temperature stays between 24.7 and 25.3. -/
theorem fight_violation :
    let c : Verif.Hvac.Cfg := { exHeat with kind := .both, hw := ⟨true, true, true, true⟩ }
    let x (now : Nat) (t : Int) : Tick := ⟨now, .heatCool, 2500, 2000, t, noTemp, false, false⟩
    let o1 := [x 40000 2470].foldl (tick c) Out.init
    let o2 := [x 50000 2530, x 51000 2530].foldl (tick c) o1
    let o3 := [x 60000 2470, x 61000 2470].foldl (tick c) o2
    heatingOn .both o1 = true ∧ coolingOn c.hw .both o2 = true ∧ heatingOn .both o3 = true := by
  decide +kernel

end Verif.Hvac.Mode
