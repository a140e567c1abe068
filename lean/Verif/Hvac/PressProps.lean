import Verif.Hvac.Press
import Verif.Hvac.MasterProps
/-!
# Thermostat: local actions, proofs
-/
namespace Verif.Hvac.Mode

/-! ### Specification -/

/-- What a user sees: off, a mode chosen by hand, or the weekly schedule. -/
inductive Phase | off | manual | weekly
deriving DecidableEq, Repr

/-- The phase of a thermostat. -/
def St.phase (s : St) : Phase := if s.weekly then .weekly else if s.v.mode = 1 then .off else .manual

/-- The button that goes round: off, manual, weekly, off, ... -/
def Phase.next : Phase → Phase
  | .off => .manual
  | .manual => .weekly
  | .weekly => .off

/-- The button that changes between manual and weekly. -/
def Phase.swap : Phase → Phase
  | .off => .off
  | .manual => .weekly
  | .weekly => .manual

/-- A function applied several times. -/
def times {α : Type} (f : α → α) : Nat → α → α
  | 0, x => x
  | n + 1, x => times f n (f x)

/-- A press of a button or a pass of the main loop. -/
inductive Ev | press (n : Now) | pass (n : Now)

/-- The current program is one the thermostat can run. -/
def Ev.Fits (e : Env) : Ev → Prop
  | .press n => Manual e n.prog.mode
  | .pass n => Manual e n.prog.mode

/-- Effect, with the button's action. -/
def Ev.run (e : Env) (f : Env → Now → St → St) (s : St) : Ev → St
  | .press n => f e n s
  | .pass n => passMode e n s

/-- Number of presses. -/
def presses : List Ev → Nat
  | [] => 0
  | .press _ :: l => presses l + 1
  | .pass _ :: l => presses l

/-- The manual mode remembered, if any, and the mode in force are modes of the thermostat; no timer. -/
structure Ok (e : Env) (s : St) : Prop where
  timer : s.countdown = false
  mode : Manual e s.v.mode
  man : s.manMode = 0 ∨ (s.manMode ≠ 1 ∧ Manual e s.manMode)

/-! ### What is left alone -/

theorem setHeat_man (e : Env) (t : Int) (s : St) : (setHeat e t s).manMode = s.manMode := by
  unfold setHeat; split <;> rfl

theorem setCool_man (e : Env) (t : Int) (s : St) : (setCool e t s).manMode = s.manMode := by
  unfold setCool; split <;> rfl

theorem fixDefaults_man (e : Env) (s : St) : (fixDefaults e s).manMode = s.manMode := by
  unfold fixDefaults
  dsimp only
  repeat' split
  all_goals rfl

theorem man_ite (p : Prop) [Decidable p] (x : Nat) (a b : St) (ha : a.manMode = x) (hb : b.manMode = x) :
    (if p then a else b).manMode = x := by split <;> assumption

theorem fix_man (e : Env) (s : St) : (fix e s).manMode = s.manMode := by
  have hd := fixDefaults_man e s
  unfold fix
  dsimp only
  generalize fixDefaults e s = s1 at *
  have hh := fun t => (setHeat_man e t s1).trans hd
  have hc := fun t => (setCool_man e t s1).trans hd
  refine man_ite _ _ _ _ (man_ite _ _ _ _ (hh _) hd) (man_ite _ _ _ _ (man_ite _ _ _ _ (hc _) hd) (man_ite _ _ _ _ (man_ite _ _ _ _ (man_ite _ _ _ _ ?_ hd) hd) hd))
  have h2 := man_ite (s.spCool - s.spHeat < e.offMin) _ _ _
    (man_ite (e.inRoom (s.spHeat + e.offMin) = true) _ _ _ (hc (s.spHeat + e.offMin)) (hh (s.spCool - e.offMin))) hd
  generalize (if s.spCool - s.spHeat < e.offMin then
      (if e.inRoom (s.spHeat + e.offMin) = true then setCool e (s.spHeat + e.offMin) s1 else setHeat e (s.spCool - e.offMin) s1) else s1) = s2 at *
  exact man_ite _ _ _ _ (man_ite _ _ _ _ ((setCool_man e _ _).trans h2) ((setHeat_man e _ _).trans h2)) h2

theorem setPlain_man (e : Env) (m : Nat) (k : Bool) (s : St) : (setPlain e m k s).manMode = s.manMode := by
  unfold setPlain
  dsimp only
  refine man_ite _ _ _ _ rfl (man_ite _ _ _ _ rfl (man_ite _ _ _ _ (man_ite _ _ _ _ rfl rfl) ?_))
  rw [fix_man]
  refine man_ite _ _ _ _ ?_ ?_ <;> (by_cases h1 : m = 1 <;> cases k <;> simp [h1, store] <;> (try split) <;> rfl)

theorem setTemps_frame (e : Env) (m : Nat) (a b : Int) (s : St) : Frame s (setTemps e m a b s) ∧ (setTemps e m a b s).manMode = s.manMode := by
  unfold setTemps
  dsimp only
  split
  · exact ⟨(setHeat_frame e _ _).trans (setCool_frame e _ _), (setCool_man e _ _).trans (setHeat_man e _ _)⟩
  · exact ⟨Frame.rfl' s, rfl⟩

/-- A mode change that keeps the schedule. -/
theorem setPlain_keep (e : Env) (m : Nat) (s : St) (hb : e.blocked = false) (hs : e.sup m = true) :
    (setPlain e m true s).v.mode = m ∧ (setPlain e m true s).weekly = s.weekly ∧ (setPlain e m true s).countdown = false := by
  unfold setPlain
  dsimp only
  by_cases c1 : s.v.mode = m ∧ ¬ ((true : Bool) = false ∧ s.weekly = true)
  · rw [if_pos c1]; exact ⟨c1.1, rfl, rfl⟩
  · rw [if_neg c1, hb, if_neg (by simp), hs]
    simp only [Bool.not_true, Bool.false_eq_true, if_false, if_true]
    by_cases m1 : m = 1
    · rw [if_pos m1]
      simp only [Bool.true_eq_false, false_and, if_false]
      obtain ⟨f1, f2, f3, _⟩ := fix_frame e { store { s with countdown := false } with v := { s.v with mode := 1 } }
      exact ⟨f1.trans m1.symm, f2, f3⟩
    · rw [if_neg m1]
      obtain ⟨f1, f2, f3, _⟩ := fix_frame e { s with countdown := false, v := { s.v with mode := m } }
      exact ⟨f1, f2, f3⟩

theorem dflt_manual (e : Env) (hd : e.fn ≠ .diff) : e.dflt ≠ 1 ∧ e.dflt ≠ 0 ∧ Manual e e.dflt := by
  unfold Manual Env.dflt Env.sup Env.heats Env.cools
  cases h : e.fn <;> first
    | exact absurd h hd
    | simp

/-! ### The schedule goes on -/

theorem process_keeps (e : Env) (hd : e.fn ≠ .diff) (hb : e.blocked = false) (n : Now) (hp : Manual e n.prog.mode) (s : St) (h : Ok e s) (hw : s.weekly = true) :
    Ok e (process e n s).1 ∧ (process e n s).1.weekly = true := by
  have h0 : n.prog.mode ≠ 0 := by rcases hp.1 with q | q | q | q <;> omega
  unfold process
  rw [if_neg (by rw [hw]; decide)]
  by_cases c1 : (!n.ready && n.startup) = true
  · rw [if_pos c1]; exact ⟨h, hw⟩
  · rw [if_neg c1, if_neg h0]
    by_cases c2 : s.over ≠ -1 ∧ (n.progId : Int) = s.over
    · rw [if_pos c2]
      dsimp only
      by_cases c3 : s.v.mode = 1
      · rw [if_pos c3]
        have hm : Manual e (if s.manMode = 0 then e.dflt else s.manMode) := by
          by_cases z : s.manMode = 0
          · rw [if_pos z]; exact (dflt_manual e hd).2.2
          · rw [if_neg z]; exact (h.man.resolve_left z).2
        obtain ⟨k1, k2, k3⟩ := setPlain_keep e _ s hb hm.2
        refine ⟨⟨k3, by rw [k1]; exact hm, ?_⟩, k2.trans hw⟩
        rw [setPlain_man]
        exact h.man
      · rw [if_neg c3]; exact ⟨h, hw⟩
    · rw [if_neg c2]
      dsimp only
      obtain ⟨k1, k2, k3⟩ := setPlain_keep e n.prog.mode { s with over := -1 } hb hp.2
      have k4 := setPlain_man e n.prog.mode true { s with over := -1 }
      generalize setPlain e n.prog.mode true { s with over := -1 } = u at *
      obtain ⟨f1, f2, f3, _⟩ := (setHeat_frame e (if n.prog.mode = 3 then unset else n.prog.heat) u).trans
        (setCool_frame e (if n.prog.mode = 2 then unset else n.prog.cool) _)
      refine ⟨⟨f3.trans k3, by rw [f1, k1]; exact hp, ?_⟩, f2.trans (k2.trans hw)⟩
      rw [setCool_man, setHeat_man, k4]
      exact h.man

theorem pass_keeps (e : Env) (hd : e.fn ≠ .diff) (hb : e.blocked = false) (n : Now) (hp : Manual e n.prog.mode) (s : St) (h : Ok e s) :
    Ok e (passMode e n s) ∧ (passMode e n s).phase = s.phase := by
  unfold passMode expire
  rw [if_neg (show ¬ (s.countdown = true ∧ s.ends ≤ (if n.ready = true then n.now else 0)) from fun q => by rw [h.timer] at q; cases q.1)]
  dsimp only
  rw [if_pos h.mode.2]
  cases hw : s.weekly with
  | false => exact ⟨h, rfl⟩
  | true =>
    rw [if_pos rfl]
    obtain ⟨k1, k2⟩ := process_keeps e hd hb n hp s h hw
    refine ⟨k1, ?_⟩
    unfold St.phase
    rw [k2, hw]
    rfl

/-! ### Presses -/

theorem toOff (e : Env) (n : Now) (s : St) (h : Ok e s) :
    Ok e (apply e n 1 unset unset 0 s).1 ∧ (apply e n 1 unset unset 0 s).1.phase = .off := by
  rw [apply_eq e n 1 unset unset s (Or.inl rfl), if_pos (show e.sup 1 = true from rfl)]
  dsimp only
  obtain ⟨k1, k2, k3⟩ := setPlain_off e { s with countdown := false, ends := 1 }
  have k4 := setPlain_man e 1 false { s with countdown := false, ends := 1 }
  generalize setPlain e 1 false { s with countdown := false, ends := 1 } = u at *
  obtain ⟨⟨f1, f2, f3, _⟩, f4⟩ := setTemps_frame e 1 unset unset u
  generalize setTemps e 1 unset unset u = w at *
  have hr : remember 1 unset unset w = w := by
    unfold remember
    rw [if_neg (fun q => q.2.1 rfl)]
  rw [hr]
  refine ⟨⟨f3.trans k3, by rw [f1, k1]; exact ⟨Or.inl rfl, rfl⟩, by rw [f4, k4]; exact h.man⟩, ?_⟩
  unfold St.phase
  rw [f2, k2, if_neg Bool.false_ne_true, if_pos (f1.trans k1)]

theorem toManual (e : Env) (hd : e.fn ≠ .diff) (hb : e.blocked = false) (n : Now) (s : St) (h : Ok e s) :
    Ok e (apply e n 10 unset unset 0 s).1 ∧ (apply e n 10 unset unset 0 s).1.phase = .manual ∧
    (s.manMode ≠ 0 → (apply e n 10 unset unset 0 s).1.v.mode = s.manMode) := by
  have hm : ∃ m, resolve e n 10 unset unset s = (s, m) ∧ m ≠ 1 ∧ Manual e m ∧ (s.manMode ≠ 0 → m = s.manMode) := by
    obtain ⟨d1, d2, d3⟩ := dflt_manual e hd
    unfold resolve
    dsimp only
    by_cases z : s.manMode = 0
    · by_cases d4 : e.dflt = 4
      · refine ⟨4, ?_, by decide, by rw [← d4]; exact d3, fun q => absurd z q⟩
        simp [z, d4]
      · refine ⟨e.dflt, ?_, d1, d3, fun q => absurd z q⟩
        simp [z, d4]
    · refine ⟨s.manMode, ?_, (h.man.resolve_left z).1, (h.man.resolve_left z).2, fun _ => rfl⟩
      simp [z]
  obtain ⟨m, m1, m2, m3, m4⟩ := hm
  have m5 : m = 1 ∨ m = 2 ∨ m = 3 ∨ m = 4 := m3.1
  have ha : (apply e n 10 unset unset 0 s).1 = remember m unset unset (setTemps e m unset unset (setPlain e m false { s with countdown := false, ends := 1 })) := by
    unfold apply
    dsimp only
    rw [if_neg (show ¬ (10 = 9) by decide), m1]
    dsimp only
    rw [m3.2, if_neg (show ¬ (!true) = true by decide), if_neg (show ¬ (0 : Int) > 0 by decide)]
    unfold applyBody
    dsimp only
    rw [if_neg (show ¬ (0 : Int) > 0 by decide), setTarget_plain e n m false _ m5]
  rw [ha]
  obtain ⟨k1, k2, k3, _⟩ := setPlain_mode e m { s with countdown := false, ends := 1 } hb m3.2
  generalize setPlain e m false { s with countdown := false, ends := 1 } = u at *
  obtain ⟨⟨f1, f2, f3, _⟩, f4⟩ := setTemps_frame e m unset unset u
  generalize setTemps e m unset unset u = w at *
  have hr : remember m unset unset w = { w with manMode := m } := by
    unfold remember
    rw [if_pos ⟨f2.trans k2, m2, f3.trans k3⟩]
    dsimp only
    rw [if_pos (show m = 4 ∨ m = 3 ∨ m = 2 by omega), if_neg (show ¬ unset > unset by decide), if_neg (show ¬ unset > unset by decide)]
  rw [hr]
  refine ⟨⟨f3.trans k3, ?_, Or.inr ⟨m2, m3⟩⟩, ?_, fun q => (f1.trans k1).trans (m4 q)⟩
  · show Manual e w.v.mode
    rw [f1, k1]
    exact m3
  · unfold St.phase
    dsimp only
    rw [f2, k2, if_neg Bool.false_ne_true, if_neg (show ¬ w.v.mode = 1 by rw [f1, k1]; exact m2)]

theorem toWeekly (e : Env) (hd : e.fn ≠ .diff) (hb : e.blocked = false) (hs : e.sched = true) (n : Now) (hp : Manual e n.prog.mode) (s : St) (h : Ok e s) :
    Ok e (apply e n 9 unset unset 0 s).1 ∧ (apply e n 9 unset unset 0 s).1.phase = .weekly := by
  have h9 : e.sup 9 = true := hs
  have ha : (apply e n 9 unset unset 0 s).1 = remember 9 unset unset (setTemps e 9 unset unset (setTarget e n 9 false { s with over := -1, countdown := false, ends := 1 })) := by
    unfold apply
    dsimp only
    rw [if_pos rfl, resolve_plain e n 9 unset unset _ (by decide) (by decide)]
    dsimp only
    rw [h9, if_neg (show ¬ (!true) = true by decide), if_neg (show ¬ (0 : Int) > 0 by decide)]
    unfold applyBody
    dsimp only
    rw [if_neg (show ¬ (0 : Int) > 0 by decide)]
  rw [ha]
  have hk : Ok e (setTarget e n 9 false { s with over := -1, countdown := false, ends := 1 }) ∧
      (setTarget e n 9 false { s with over := -1, countdown := false, ends := 1 }).weekly = true := by
    unfold setTarget
    rw [if_neg (show ¬ (9 = 8) by decide), if_pos rfl]
    dsimp only
    rw [hb, if_neg Bool.false_ne_true, hs, if_neg (show ¬ (!true) = true by decide)]
    unfold onWeekly
    rw [hs, if_neg (show ¬ (!true) = true by decide)]
    dsimp only
    obtain ⟨k1, k2⟩ := process_keeps e hd hb n hp { s with over := -1, countdown := false, ends := 1, weekly := true } ⟨rfl, h.mode, h.man⟩ rfl
    generalize process e n { s with over := -1, countdown := false, ends := 1, weekly := true } = r at *
    by_cases c : r.2 = true
    · rw [if_pos c]
      obtain ⟨f1, f2, f3, _⟩ := fix_frame e r.1
      exact ⟨⟨f3.trans k1.timer, by rw [f1]; exact k1.mode, by rw [fix_man]; exact k1.man⟩, f2.trans k2⟩
    · rw [if_neg c]; exact ⟨k1, k2⟩
  obtain ⟨k1, k2⟩ := hk
  generalize setTarget e n 9 false { s with over := -1, countdown := false, ends := 1 } = u at *
  obtain ⟨⟨f1, f2, f3, _⟩, f4⟩ := setTemps_frame e 9 unset unset u
  generalize setTemps e 9 unset unset u = w at *
  have hr : remember 9 unset unset w = w := by
    unfold remember
    rw [if_neg (fun q => by rw [f2, k2] at q; cases q.1)]
  rw [hr]
  refine ⟨⟨f3.trans k1.timer, by rw [f1]; exact k1.mode, by rw [f4]; exact k1.man⟩, ?_⟩
  unfold St.phase
  rw [f2, k2]
  rfl

theorem phase_cases (s : St) : (s.phase = .weekly ∧ s.weekly = true) ∨ (s.phase = .off ∧ s.weekly = false ∧ s.v.mode = 1) ∨
    (s.phase = .manual ∧ s.weekly = false ∧ s.v.mode ≠ 1) := by
  unfold St.phase
  cases s.weekly
  · by_cases h : s.v.mode = 1
    · exact Or.inr (Or.inl ⟨by rw [if_neg Bool.false_ne_true, if_pos h], rfl, h⟩)
    · exact Or.inr (Or.inr ⟨by rw [if_neg Bool.false_ne_true, if_neg h], rfl, h⟩)
  · exact Or.inl ⟨rfl, rfl⟩

theorem cycle_press (e : Env) (hd : e.fn ≠ .diff) (hb : e.blocked = false) (hs : e.sched = true) (n : Now) (hp : Manual e n.prog.mode) (s : St) (h : Ok e s) :
    Ok e (offManualWeekly e n s) ∧ (offManualWeekly e n s).phase = s.phase.next := by
  unfold offManualWeekly
  rcases phase_cases s with ⟨a, b⟩ | ⟨a, b, c⟩ | ⟨a, b, c⟩
  · rw [a, if_pos b]; exact toOff e n s h
  · rw [a, b, if_neg Bool.false_ne_true, if_pos c]
    exact ⟨(toManual e hd hb n s h).1, (toManual e hd hb n s h).2.1⟩
  · rw [a, b, if_neg Bool.false_ne_true, if_neg c]; exact toWeekly e hd hb hs n hp s h

theorem swap_press (e : Env) (hd : e.fn ≠ .diff) (hb : e.blocked = false) (hs : e.sched = true) (n : Now) (hp : Manual e n.prog.mode) (s : St) (h : Ok e s) (ho : s.phase ≠ .off) :
    Ok e (manualWeekly e n s) ∧ (manualWeekly e n s).phase = s.phase.swap := by
  unfold manualWeekly
  rcases phase_cases s with ⟨a, b⟩ | ⟨a, b, c⟩ | ⟨a, b, c⟩
  · rw [a, if_pos b]
    exact ⟨(toManual e hd hb n s h).1, (toManual e hd hb n s h).2.1⟩
  · exact absurd a ho
  · rw [a, b, if_neg Bool.false_ne_true, if_neg c]; exact toWeekly e hd hb hs n hp s h

/-- The full claim for the button that goes round. -/
def GoesRound : Prop := ∀ (e : Env), e.blocked = false → e.sched = true → ∀ (evs : List Ev), (∀ v ∈ evs, v.Fits e) → ∀ s : St, Ok e s →
  (evs.foldl (Ev.run e offManualWeekly) s).phase = times Phase.next (presses evs) s.phase

/-- For every thermostat that is not a differential one, any number of presses, with any number of passes of
the main loop in between, at any time of the week: off, manual, weekly, off and so on. -/
theorem goes_round_partial (e : Env) (hd : e.fn ≠ .diff) (hb : e.blocked = false) (hs : e.sched = true) (evs : List Ev) : (∀ v ∈ evs, v.Fits e) → ∀ s : St, Ok e s →
    Ok e (evs.foldl (Ev.run e offManualWeekly) s) ∧ (evs.foldl (Ev.run e offManualWeekly) s).phase = times Phase.next (presses evs) s.phase := by
  induction evs with
  | nil => exact fun _ s h => ⟨h, rfl⟩
  | cons v l ih =>
    intro hv s h
    have hl : ∀ v ∈ l, v.Fits e := fun w hw => hv w (List.mem_cons_of_mem _ hw)
    have hf := hv v (List.mem_cons_self ..)
    rw [List.foldl_cons]
    cases v with
    | press n =>
      obtain ⟨k1, k2⟩ := cycle_press e hd hb hs n hf s h
      obtain ⟨i1, i2⟩ := ih hl _ k1
      refine ⟨i1, i2.trans ?_⟩
      show times Phase.next (presses l) (offManualWeekly e n s).phase = _
      rw [k2]
      rfl
    | pass n =>
      obtain ⟨k1, k2⟩ := pass_keeps e hd hb n hf s h
      obtain ⟨i1, i2⟩ := ih hl _ k1
      refine ⟨i1, i2.trans ?_⟩
      show times Phase.next (presses l) (passMode e n s).phase = _
      rw [k2]
      rfl

/-- The same for the button that changes between manual and weekly, starting in one of the two. -/
theorem alternates (e : Env) (hd : e.fn ≠ .diff) (hb : e.blocked = false) (hs : e.sched = true) (evs : List Ev) : (∀ v ∈ evs, v.Fits e) → ∀ s : St, Ok e s → s.phase ≠ .off →
    (evs.foldl (Ev.run e manualWeekly) s).phase = times Phase.swap (presses evs) s.phase := by
  induction evs with
  | nil => exact fun _ s h _ => rfl
  | cons v l ih =>
    intro hv s h ho
    have hl : ∀ v ∈ l, v.Fits e := fun w hw => hv w (List.mem_cons_of_mem _ hw)
    have hf := hv v (List.mem_cons_self ..)
    rw [List.foldl_cons]
    cases v with
    | press n =>
      obtain ⟨k1, k2⟩ := swap_press e hd hb hs n hf s h ho
      have := ih hl (manualWeekly e n s) k1 (by rw [k2]; revert ho; cases s.phase <;> decide)
      refine this.trans ?_
      rw [k2]
      rfl
    | pass n =>
      obtain ⟨k1, k2⟩ := pass_keeps e hd hb n hf s h
      have := ih hl (passMode e n s) k1 (by rw [k2]; exact ho)
      refine this.trans ?_
      rw [k2]
      rfl

/-- Three presses: round. -/
example : times Phase.next 3 .off = .off ∧ times Phase.next 1 .off = .manual ∧ times Phase.next 2 .off = .weekly := by decide

/-- A heating thermostat, off. -/
def exOff : St := { St.init with v := ⟨1, 2000, 0, true, false⟩ }

example : Ok exH exOff ∧ exH.fn ≠ .diff ∧ exH.blocked = false ∧ exH.sched = true ∧ Manual exH (exNow 5).prog.mode :=
  ⟨⟨rfl, ⟨Or.inl rfl, rfl⟩, Or.inl rfl⟩, by decide, rfl, rfl, ⟨Or.inr (Or.inl rfl), rfl⟩⟩

/-- A differential thermostat never leaves off, however often the button is pressed. -/
theorem diff_press (e : Env) (hd : e.fn = .diff) (n : Now) (s : St) (hw : s.weekly = false) (hm : s.v.mode = 1) (hn : s.manMode = 0) :
    (offManualWeekly e n s).weekly = false ∧ (offManualWeekly e n s).v.mode = 1 ∧ (offManualWeekly e n s).manMode = 0 := by
  unfold offManualWeekly
  rw [hw, if_neg Bool.false_ne_true, if_pos hm]
  have ha : (apply e n 10 unset unset 0 s).1 = remember 1 unset unset (setTemps e 1 unset unset (setPlain e 1 false { s with countdown := false, ends := 1 })) := by
    have hr : resolve e n 10 unset unset s = (s, 1) := by
      unfold resolve Env.dflt
      simp [hn, hd]
    unfold apply
    dsimp only
    rw [if_neg (show ¬ (10 = 9) by decide), hr]
    dsimp only
    rw [if_neg (show ¬ (!e.sup 1) = true from (by rw [show e.sup 1 = true from rfl]; decide)), if_neg (show ¬ (0 : Int) > 0 by decide)]
    unfold applyBody
    dsimp only
    rw [if_neg (show ¬ (0 : Int) > 0 by decide), setTarget_plain e n 1 false _ (Or.inl rfl)]
  rw [ha]
  obtain ⟨k1, k2, k3⟩ := setPlain_off e { s with countdown := false, ends := 1 }
  have k4 := setPlain_man e 1 false { s with countdown := false, ends := 1 }
  generalize setPlain e 1 false { s with countdown := false, ends := 1 } = u at *
  obtain ⟨⟨f1, f2, f3, _⟩, f4⟩ := setTemps_frame e 1 unset unset u
  generalize setTemps e 1 unset unset u = w at *
  have hr : remember 1 unset unset w = w := by
    unfold remember
    rw [if_neg (fun q => q.2.1 rfl)]
  rw [hr]
  exact ⟨f2.trans k2, f1.trans k1, f4.trans (k4.trans hn)⟩

theorem diff_stuck (e : Env) (hd : e.fn = .diff) (ns : List Now) : ∀ s : St, s.weekly = false → s.v.mode = 1 → s.manMode = 0 →
    ((ns.map Ev.press).foldl (Ev.run e offManualWeekly) s).phase = .off := by
  induction ns with
  | nil =>
    intro s hw hm _
    show s.phase = .off
    unfold St.phase
    rw [hw, if_neg Bool.false_ne_true, if_pos hm]
  | cons n l ih =>
    intro s hw hm hn
    obtain ⟨a, b, c⟩ := diff_press e hd n s hw hm hn
    rw [List.map_cons, List.foldl_cons]
    exact ih _ a b c

theorem diff_violation : ¬ GoesRound := by
  intro h
  have := h { exH with fn := .diff } rfl rfl ([exNow 0].map Ev.press) (by
    intro v hv
    cases hv with
    | head => exact ⟨Or.inr (Or.inl rfl), rfl⟩
    | tail _ q => cases q) exOff ⟨rfl, ⟨Or.inl rfl, rfl⟩, Or.inl rfl⟩
  rw [diff_stuck { exH with fn := .diff } rfl [exNow 0] exOff rfl rfl rfl] at this
  cases this

/-! ### On and off -/

/-- The thermostat works: by hand or on its schedule. -/
def St.working (s : St) : Prop := s.weekly = true ∨ s.v.mode ≠ 1

/-- The full claim: a toggle stops a working thermostat and starts one that is off. -/
def TogglesRight : Prop := ∀ (e : Env), e.blocked = false → e.sched = true → e.fn ≠ .diff → ∀ (n : Now), Manual e n.prog.mode → ∀ s : St,
  Manual e s.v.mode → (s.working → ¬ (toggle e n s).working) ∧ (¬ s.working → (toggle e n s).working)

/-- It stops every thermostat whose mode is not off, whatever the settings. -/
theorem toggle_stops_partial (e : Env) (n : Now) (s : St) (h : s.v.mode ≠ 1) :
    (toggle e n s).v.mode = 1 ∧ (toggle e n s).weekly = false ∧ ¬ (toggle e n s).working := by
  unfold toggle
  rw [if_neg h, setTarget_plain e n 1 false s (Or.inl rfl)]
  obtain ⟨k1, k2, _⟩ := setPlain_off e s
  exact ⟨k1, k2, fun q => q.elim (fun q => by rw [k2] at q; cases q) (fun q => q k1)⟩

/-- Twice brings back the mode chosen by hand and its set points. -/
theorem toggle_twice (e : Env) (n n' : Now) (s : St) (hb : e.blocked = false) (hu : unset < e.tMin)
    (hw : s.weekly = false) (hm : Manual e s.v.mode) (h1 : s.v.mode ≠ 1) (hg : GapIn e s) :
    (toggle e n' (toggle e n s)).v.mode = s.v.mode ∧ (toggle e n' (toggle e n s)).weekly = false ∧ Restored e s (toggle e n' (toggle e n s)) := by
  have k := off_on e n n' [] s hb hu hw hm h1 hg
  dsimp only [List.foldl] at k
  have h2 : toggle e n s = setTarget e n 1 false s := by unfold toggle; rw [if_neg h1]
  have h3 : toggle e n' (toggle e n s) = setTarget e n' 8 false (setTarget e n 1 false s) := by
    rw [h2]
    unfold toggle
    rw [if_pos k.1]
  rw [h3]
  exact k.2

/-- On the weekly schedule with a program "off" now, a toggle does nothing: the schedule stays on. -/
theorem toggle_ignored (e : Env) (n : Now) (s : St) (hb : e.blocked = false) (hs : e.sched = true) (hr : n.ready = true) (hp : n.prog.mode = 1)
    (hw : s.weekly = true) (hm : s.v.mode = 1) : (toggle e n s).weekly = true ∧ (toggle e n s).v.mode = 1 := by
  have hman : Manual e n.prog.mode := by rw [hp]; exact ⟨Or.inl rfl, rfl⟩
  unfold toggle
  rw [if_pos hm]
  unfold setTarget
  rw [if_pos rfl]
  dsimp only
  rw [hb, if_neg Bool.false_ne_true, if_neg Bool.false_ne_true, if_pos (Or.inl hm)]
  unfold turnOn
  rw [if_pos (Or.inl hw)]
  unfold onWeekly
  rw [hs, if_neg (show ¬ (!true) = true by decide)]
  obtain ⟨k1, k2, _⟩ := process_on e n { s with countdown := false, over := -1, weekly := true } hb rfl hr hman rfl
  obtain ⟨f1, f2, _⟩ := fix_frame e (process e n { s with countdown := false, over := -1, weekly := true }).1
  exact ⟨f2.trans k1, (f1.trans k2).trans hp⟩

/-- The program "off" now. -/
def nowOff : Now := ⟨true, 100, false, 0, ⟨1, -32768, -32768⟩⟩

/-- Toggled off in the evening, it heats at the next program. -/
theorem toggle_schedule_violation : ¬ TogglesRight ∧
    ∃ s : St, s.weekly = true ∧ (toggle exH nowOff s).weekly = true ∧ (passMode exH (exNow 200) (toggle exH nowOff s)).v.mode = 2 := by
  refine ⟨fun h => ?_, { exOff with weekly := true }, rfl, by decide, by decide⟩
  exact (h exH rfl rfl (by decide) nowOff ⟨Or.inl rfl, rfl⟩ { exOff with weekly := true } ⟨Or.inl rfl, rfl⟩).1 (Or.inl rfl)
    (Or.inl (toggle_ignored exH nowOff { exOff with weekly := true } rfl rfl rfl rfl rfl rfl).1)

/-- Off with a timer, started while it was off: a toggle only stops the timer. -/
theorem toggle_timer_violation : ¬ TogglesRight ∧
    (apply exH (exNow 0) 1 unset unset 60 exOff).1.countdown = true ∧
    (toggle exH (exNow 10) (apply exH (exNow 0) 1 unset unset 60 exOff).1) = { (apply exH (exNow 0) 1 unset unset 60 exOff).1 with countdown := false } := by
  refine ⟨fun h => ?_, by decide, by decide⟩
  have := (h exH rfl rfl (by decide) (exNow 10) ⟨Or.inr (Or.inl rfl), rfl⟩ (apply exH (exNow 0) 1 unset unset 60 exOff).1 ⟨Or.inl (by decide), by decide⟩).2
    (fun q => q.elim (fun q => absurd q (by decide)) (fun q => q (by decide)))
  exact this.elim (fun q => absurd q (by decide)) (fun q => q (by decide))

/-! ### Every action -/

/-- No action sets a set point outside the limits, if the default set points fit. -/
theorem act_in_limits (e : Env) (step : Int) (hf : DefaultsFit e) (n : Now) (a : Act) (s : St) (h : InLimits e s) : InLimits e (act e step n s a) := by
  have hA := fun m tH tC => apply_in e hf n m tH tC 0 s h
  have hC : ∀ x y, InLimits e (changeBy e n x y s) := by
    intro x y
    unfold changeBy
    dsimp only
    cases e.fn <;> exact hA _ _ _
  have hT := fun m => setTarget_in e hf n m false s h
  cases a with
  | toggle => unfold act toggle; dsimp only; split <;> exact hT _
  | manualWeekly =>
    unfold act manualWeekly
    dsimp only
    split
    · exact hA _ _ _
    · split
      · exact turnOn_in e hf n s h
      · exact hA _ _ _
  | offManualWeekly =>
    unfold act offManualWeekly
    dsimp only
    split
    · exact hA _ _ _
    · split <;> exact hA _ _ _
  | turnOn => exact hT _
  | turnOff => exact hT _
  | up => exact hC _ _
  | down => exact hC _ _
  | upHeat => exact hC _ _
  | downHeat => exact hC _ _
  | upCool => exact hC _ _
  | downCool => exact hC _ _
  | manual => exact hA _ _ _
  | weekly => exact hA _ _ _
  | heat => exact hA _ _ _
  | cool => exact hA _ _ _
  | heatCool => exact hA _ _ _

/-- A change of set points that means the mode `m`. -/
theorem change_to (e : Env) (n : Now) (a b : Int) (s : St) (m : Nat) (hb : e.blocked = false) (hr : resolve e n 0 a b s = (s, m))
    (hm : m = 2 ∨ m = 3 ∨ m = 4) (hsup : e.sup m = true) :
    (apply e n 0 a b 0 s).1.v.mode = m ∧ (apply e n 0 a b 0 s).1.weekly = false ∧
    (a ≠ unset → (apply e n 0 a b 0 s).1.v.heat = e.clamp a) ∧ (b ≠ unset → (apply e n 0 a b 0 s).1.v.cool = e.clamp b) := by
  have ha : (apply e n 0 a b 0 s).1 = remember m a b (setTemps e m a b (setPlain e m false { s with countdown := false, ends := 1 })) := by
    unfold apply
    dsimp only
    rw [if_neg (show ¬ (0 = 9) by decide), hr]
    dsimp only
    rw [hsup, if_neg (show ¬ (!true) = true by decide), if_neg (show ¬ (0 : Int) > 0 by decide)]
    unfold applyBody
    dsimp only
    rw [if_neg (show ¬ (0 : Int) > 0 by decide), setTarget_plain e n m false _ (Or.inr hm)]
  rw [ha]
  obtain ⟨k1, k2, _⟩ := setPlain_mode e m { s with countdown := false, ends := 1 } hb hsup
  generalize setPlain e m false { s with countdown := false, ends := 1 } = u at *
  obtain ⟨⟨f1, f2, _⟩, g2, g3⟩ := setTemps_manual e m a b u (by omega) k2
  obtain ⟨hv, hv2, _⟩ := remember_v m a b (setTemps e m a b u)
  rw [hv, hv2]
  exact ⟨f1.trans k1, f2.trans k2, g2, g3⟩

/-- The set points are set, within limits that leave room for a step. -/
structure Room (e : Env) (step : Int) (s : St) : Prop where
  heatSet : e.heats = true → s.v.heatSet = true ∧ e.tMin ≤ s.v.heat ∧ s.v.heat ≤ e.tMax
  coolSet : e.cools = true → s.v.coolSet = true ∧ e.tMin ≤ s.v.cool ∧ s.v.cool ≤ e.tMax
  limits : 0 ≤ e.tMin ∧ e.tMax ≤ 10000
  step : -1000 ≤ step ∧ step ≤ 1000

/-- The change of the two set points an action stands for. -/
def Act.change (step : Int) : Act → Option (Int × Int)
  | .up => some (step, step)
  | .down => some (-step, -step)
  | .upHeat => some (step, 0)
  | .downHeat => some (-step, 0)
  | .upCool => some (0, step)
  | .downCool => some (0, -step)
  | _ => none

theorem w16_id (x : Int) (h : -32768 ≤ x ∧ x ≤ 32767) : w16 x = x := by unfold w16; omega

/-- The buttons for the temperature, on a thermostat that is not on its schedule: the set points it has
move by the step, up to the limits; it works in a manual mode afterwards. -/
theorem step_by (e : Env) (n : Now) (step : Int) (s : St) (a : Act) (dH dC : Int) (ha : a.change step = some (dH, dC)) (hd : e.fn ≠ .diff) (hb : e.blocked = false)
    (hw : s.weekly = false) (hn : s.manMode = 0 ∨ (s.manMode ≠ 1 ∧ Manual e s.manMode)) (hr : Room e step s) :
    (e.heats = true → (act e step n s a).v.heat = e.clamp (s.v.heat + dH)) ∧
    (e.cools = true → (act e step n s a).v.cool = e.clamp (s.v.cool + dC)) ∧ (act e step n s a).phase = .manual := by
  have h1 : act e step n s a = changeBy e n dH dC s := by
    cases a <;> first
      | (cases ha; done)
      | (cases ha; rfl)
  have h2 : (-1000 ≤ dH ∧ dH ≤ 1000) ∧ -1000 ≤ dC ∧ dC ≤ 1000 := by
    have := hr.step
    cases a <;> cases ha <;> omega
  rw [h1]
  clear h1 ha
  obtain ⟨r1, r2, r3, _⟩ := hr
  obtain ⟨d1, d2, d3⟩ := dflt_manual e hd
  have hres : ∀ x y, (e.fn = .both → x ≠ unset ∧ y ≠ unset) → ∃ m, resolve e n 0 x y s = (s, m) ∧ (m = 2 ∨ m = 3 ∨ m = 4) ∧ e.sup m = true := by
    intro x y hxy
    by_cases z : s.manMode = 0
    · refine ⟨e.dflt, ?_, ?_, d3.2⟩
      · unfold resolve
        by_cases d4 : e.dflt = 4
        · have hf : e.fn = .both := by
            revert d4
            unfold Env.dflt
            cases e.fn <;> simp
          obtain ⟨q1, q2⟩ := hxy hf
          simp [z, d4, hw, q1, q2]
        · simp [z, d4, hw]
      · have := d3.1; omega
    · obtain ⟨q1, q2, q3⟩ := hn.resolve_left z
      refine ⟨s.manMode, ?_, by omega, q3⟩
      unfold resolve
      simp [z, hw]
  have hh : e.heats = true → w16 (s.spHeat + dH) = s.v.heat + dH ∧ s.v.heat + dH ≠ unset := by
    intro q
    obtain ⟨q1, q2, q3⟩ := r1 q
    have : s.spHeat = s.v.heat := by unfold St.spHeat; rw [if_pos q1]
    rw [this]
    unfold unset
    exact ⟨w16_id _ (by omega), by omega⟩
  have hc : e.cools = true → w16 (s.spCool + dC) = s.v.cool + dC ∧ s.v.cool + dC ≠ unset := by
    intro q
    obtain ⟨q1, q2, q3⟩ := r2 q
    have : s.spCool = s.v.cool := by unfold St.spCool; rw [if_pos q1]
    rw [this]
    unfold unset
    exact ⟨w16_id _ (by omega), by omega⟩
  have hph : ∀ (t : St) (m : Nat), t.v.mode = m → (m = 2 ∨ m = 3 ∨ m = 4) → t.weekly = false → t.phase = .manual := by
    intro t m q1 q2 q3
    unfold St.phase
    rw [q3, if_neg Bool.false_ne_true, if_neg (by omega)]
  unfold changeBy
  dsimp only
  cases hf : e.fn with
  | diff => exact absurd hf hd
  | cool =>
    have e1 : e.heats = false := by unfold Env.heats; rw [hf]
    have e2 : e.cools = true := by unfold Env.cools; rw [hf]
    obtain ⟨m, m1, m2, m3⟩ := hres unset (w16 (s.spCool + dC)) (fun q => by rw [hf] at q; cases q)
    obtain ⟨k1, k2, k3, k4⟩ := change_to e n _ _ s m hb m1 m2 m3
    refine ⟨(fun q => by rw [e1] at q; cases q), fun _ => ?_, hph _ m k1 m2 k2⟩
    have := k4 (by rw [(hc e2).1]; exact (hc e2).2)
    rw [this, (hc e2).1]
  | heat =>
    have e1 : e.heats = true := by unfold Env.heats; rw [hf]
    have e2 : e.cools = false := by unfold Env.cools; rw [hf]
    obtain ⟨m, m1, m2, m3⟩ := hres (w16 (s.spHeat + dH)) unset (fun q => by rw [hf] at q; cases q)
    obtain ⟨k1, k2, k3, k4⟩ := change_to e n _ _ s m hb m1 m2 m3
    refine ⟨fun _ => ?_, (fun q => by rw [e2] at q; cases q), hph _ m k1 m2 k2⟩
    have := k3 (by rw [(hh e1).1]; exact (hh e1).2)
    rw [this, (hh e1).1]
  | dhw =>
    have e1 : e.heats = true := by unfold Env.heats; rw [hf]
    have e2 : e.cools = false := by unfold Env.cools; rw [hf]
    obtain ⟨m, m1, m2, m3⟩ := hres (w16 (s.spHeat + dH)) unset (fun q => by rw [hf] at q; cases q)
    obtain ⟨k1, k2, k3, k4⟩ := change_to e n _ _ s m hb m1 m2 m3
    refine ⟨fun _ => ?_, (fun q => by rw [e2] at q; cases q), hph _ m k1 m2 k2⟩
    have := k3 (by rw [(hh e1).1]; exact (hh e1).2)
    rw [this, (hh e1).1]
  | both =>
    have e1 : e.heats = true := by unfold Env.heats; rw [hf]
    have e2 : e.cools = true := by unfold Env.cools; rw [hf]
    have n1 : w16 (s.spHeat + dH) ≠ unset := by rw [(hh e1).1]; exact (hh e1).2
    have n2 : w16 (s.spCool + dC) ≠ unset := by rw [(hc e2).1]; exact (hc e2).2
    obtain ⟨m, m1, m2, m3⟩ := hres (w16 (s.spHeat + dH)) (w16 (s.spCool + dC)) (fun _ => ⟨n1, n2⟩)
    obtain ⟨k1, k2, k3, k4⟩ := change_to e n _ _ s m hb m1 m2 m3
    exact ⟨fun _ => (k3 n1).trans (by rw [(hh e1).1]), fun _ => (k4 n2).trans (by rw [(hc e2).1]), hph _ m k1 m2 k2⟩

example : Room exH 50 exAt22 ∧ exAt22.weekly = false ∧ exAt22.manMode = 0 ∧ (act exH 50 (exNow 0) exAt22 .up).v.heat = 2250 ∧
    (act exH 50 (exNow 0) exAt22 .down).v.heat = 2150 :=
  ⟨⟨fun _ => (by decide), (fun h => by cases h), by decide, by decide⟩, by decide⟩

/-- The mode an action asks for. -/
def Act.asks : Act → Option Nat
  | .heat => some 2
  | .cool => some 3
  | .heatCool => some 4
  | .turnOff => some 1
  | _ => none

/-- A mode asked for by an action is in force if the thermostat has it, otherwise nothing changes; the
actions for manual mode and schedule do what they say. -/
theorem asked_mode (e : Env) (step : Int) (n : Now) (s : St) (a : Act) (m : Nat) (ha : a.asks = some m) (hb : e.blocked = false) :
    if e.sup m = true then (act e step n s a).v.mode = m ∧ (act e step n s a).weekly = false else act e step n s a = s := by
  have key : ∀ m, (m = 2 ∨ m = 3 ∨ m = 4) → if e.sup m = true then (apply e n m unset unset 0 s).1.v.mode = m ∧ (apply e n m unset unset 0 s).1.weekly = false
      else (apply e n m unset unset 0 s).1 = s := by
    intro m hm
    rw [apply_eq e n m unset unset s (Or.inr hm)]
    by_cases hs : e.sup m = true
    · rw [if_pos hs, if_pos hs]
      dsimp only
      obtain ⟨k1, k2, _⟩ := setPlain_mode e m { s with countdown := false, ends := 1 } hb hs
      generalize setPlain e m false { s with countdown := false, ends := 1 } = u at *
      obtain ⟨⟨f1, f2, _⟩, _⟩ := setTemps_frame e m unset unset u
      obtain ⟨hv, hv2, _⟩ := remember_v m unset unset (setTemps e m unset unset u)
      rw [hv, hv2]
      exact ⟨f1.trans k1, f2.trans k2⟩
    · rw [if_neg hs, if_neg hs]
  cases a <;> cases ha
  · rw [if_pos (show e.sup 1 = true from rfl)]
    show (setTarget e n 1 false s).v.mode = 1 ∧ (setTarget e n 1 false s).weekly = false
    rw [setTarget_plain e n 1 false s (Or.inl rfl)]
    exact ⟨(setPlain_off e s).1, (setPlain_off e s).2.1⟩
  · exact key 2 (Or.inl rfl)
  · exact key 3 (Or.inr (Or.inl rfl))
  · exact key 4 (Or.inr (Or.inr rfl))

/-- The actions for manual mode and for the schedule. -/
theorem asked_phase (e : Env) (step : Int) (hd : e.fn ≠ .diff) (hb : e.blocked = false) (hs : e.sched = true) (n : Now) (hp : Manual e n.prog.mode) (s : St) (h : Ok e s) :
    (act e step n s .manual).phase = .manual ∧ (s.manMode ≠ 0 → (act e step n s .manual).v.mode = s.manMode) ∧ (act e step n s .weekly).phase = .weekly :=
  ⟨(toManual e hd hb n s h).2.1, (toManual e hd hb n s h).2.2, (toWeekly e hd hb hs n hp s h).2⟩

/-- The buttons of the theorems above. -/
theorem act_buttons (e : Env) (step : Int) (n : Now) (s : St) : act e step n s .toggle = toggle e n s ∧
    act e step n s .manualWeekly = manualWeekly e n s ∧ act e step n s .offManualWeekly = offManualWeekly e n s := ⟨rfl, rfl, rfl⟩

/-- Turning on a thermostat that is off and has not worked yet: its default mode. -/
theorem asked_on (e : Env) (step : Int) (hd : e.fn ≠ .diff) (hb : e.blocked = false) (n : Now) (s : St) (hw : s.weekly = false) (hm : s.v.mode = 1)
    (hwm : s.wm = ⟨0, 0, 0, false, false⟩) : (act e step n s .turnOn).phase = .manual ∧ (act e step n s .turnOn).v.mode = e.dflt := by
  obtain ⟨d1, d2, d3⟩ := dflt_manual e hd
  show (setTarget e n 8 false s).phase = .manual ∧ (setTarget e n 8 false s).v.mode = e.dflt
  unfold setTarget
  rw [if_pos rfl]
  dsimp only
  rw [hb, if_neg Bool.false_ne_true, if_neg Bool.false_ne_true, if_pos (Or.inl hm)]
  have hk : (turnOn e n { s with countdown := false, over := -1 }).v.mode = e.dflt ∧ (turnOn e n { s with countdown := false, over := -1 }).weekly = false := by
    unfold turnOn
    rw [if_neg (by rw [hw, hwm]; simp)]
    dsimp only
    rw [hwm]
    have h0 : e.sup 0 = false := rfl
    rw [h0]
    simp only [Bool.not_false, if_true, Bool.false_eq_true, if_false, ne_eq, not_true_eq_false]
    obtain ⟨k1, k2, _⟩ := setPlain_mode e e.dflt { s with countdown := false, over := -1, wm := ⟨0, 0, 0, false, false⟩ } hb d3.2
    exact ⟨k1, k2⟩
  generalize turnOn e n { s with countdown := false, over := -1 } = u at *
  obtain ⟨f1, f2, _⟩ := fix_frame e u
  refine ⟨?_, f1.trans hk.1⟩
  unfold St.phase
  rw [f2, hk.2, if_neg Bool.false_ne_true, if_neg (by rw [f1, hk.1]; exact d1)]

end Verif.Hvac.Mode
