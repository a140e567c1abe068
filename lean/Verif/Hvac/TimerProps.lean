import Verif.Hvac.ModeProps
/-!
# Thermostat: turning off and on, the countdown timer
-/
namespace Verif.Hvac.Mode
open Verif.Hvac.Schedule (Program)

/-! ### Specification -/

/-- A mode a user chooses by hand: off, heat, cool, heat/cool, supported by the thermostat. -/
def Manual (e : Env) (m : Nat) : Prop := (m = 1 ∨ m = 2 ∨ m = 3 ∨ m = 4) ∧ e.sup m = true

/-- A set point in force before is in force again: it must have been within the limits. -/
def Restored (e : Env) (old new : St) : Prop :=
  (old.v.heatSet = true → e.tMin ≤ old.v.heat → old.v.heat ≤ e.tMax → new.spHeat = old.v.heat) ∧
  (old.v.coolSet = true → e.tMin ≤ old.v.cool → old.v.cool ≤ e.tMax → new.spCool = old.v.cool)

/-- In HEAT_COOL mode: both set points are set and keep the configured distance. -/
def GapIn (e : Env) (s : St) : Prop :=
  s.v.mode = 4 → s.v.heatSet = true ∧ s.v.coolSet = true ∧ e.offMin ≤ s.v.cool - s.v.heat ∧
    s.v.cool - s.v.heat ≤ e.offMax ∧ e.tMin ≤ s.v.heat ∧ s.v.cool ≤ e.tMax ∧ 0 ≤ e.offMin

/-! ### Lemmas -/

/-- Everything but the channel value's set points. -/
def Frame (s t : St) : Prop :=
  t.v.mode = s.v.mode ∧ t.weekly = s.weekly ∧ t.countdown = s.countdown ∧ t.wm = s.wm ∧ t.over = s.over ∧
  t.ends = s.ends

theorem Frame.rfl' (s : St) : Frame s s := ⟨rfl, rfl, rfl, rfl, rfl, rfl⟩

theorem Frame.trans {a b c : St} (h : Frame a b) (h' : Frame b c) : Frame a c := by
  obtain ⟨a1, a2, a3, a4, a5, a6⟩ := h
  obtain ⟨b1, b2, b3, b4, b5, b6⟩ := h'
  exact ⟨b1.trans a1, b2.trans a2, b3.trans a3, b4.trans a4, b5.trans a5, b6.trans a6⟩

theorem setHeat_frame (e : Env) (t : Int) (s : St) : Frame s (setHeat e t s) := by
  unfold setHeat; split <;> exact ⟨rfl, rfl, rfl, rfl, rfl, rfl⟩

theorem setCool_frame (e : Env) (t : Int) (s : St) : Frame s (setCool e t s) := by
  unfold setCool; split <;> exact ⟨rfl, rfl, rfl, rfl, rfl, rfl⟩

theorem fixDefaults_frame (e : Env) (s : St) : Frame s (fixDefaults e s) := by
  unfold fixDefaults
  dsimp only
  repeat' split
  all_goals exact ⟨rfl, rfl, rfl, rfl, rfl, rfl⟩

theorem frame_ite (p : Prop) [Decidable p] (s a b : St) (ha : Frame s a) (hb : Frame s b) :
    Frame s (if p then a else b) := by split <;> assumption

theorem fix_frame (e : Env) (s : St) : Frame s (fix e s) := by
  have hd := fixDefaults_frame e s
  unfold fix
  dsimp only
  generalize fixDefaults e s = s1 at *
  have hh := fun t => hd.trans (setHeat_frame e t s1)
  have hc := fun t => hd.trans (setCool_frame e t s1)
  refine frame_ite _ _ _ _ (frame_ite _ _ _ _ (hh _) hd) (frame_ite _ _ _ _ (frame_ite _ _ _ _ (hc _) hd) (frame_ite _ _ _ _ (frame_ite _ _ _ _ (frame_ite _ _ _ _ ?_ hd) hd) hd))
  have h2 := frame_ite (s.spCool - s.spHeat < e.offMin) _ _ _
    (frame_ite (e.inRoom (s.spHeat + e.offMin) = true) _ _ _ (hc (s.spHeat + e.offMin)) (hh (s.spCool - e.offMin))) hd
  generalize (if s.spCool - s.spHeat < e.offMin then
      (if e.inRoom (s.spHeat + e.offMin) = true then setCool e (s.spHeat + e.offMin) s1 else setHeat e (s.spCool - e.offMin) s1) else s1) = s2 at *
  exact frame_ite _ _ _ _ (frame_ite _ _ _ _ (h2.trans (setCool_frame e _ _)) (h2.trans (setHeat_frame e _ _))) h2

/-- The distance rule as the code tests it. -/
def GapOk (e : Env) (s : St) : Prop := s.v.mode = 4 → e.gapOk s.spHeat s.spCool = true

theorem fixDefaults_sp (e : Env) (s : St) :
    (s.v.heatSet = true → (fixDefaults e s).v.heat = s.v.heat ∧ (fixDefaults e s).v.heatSet = true) ∧
    (s.v.coolSet = true → (fixDefaults e s).v.cool = s.v.cool ∧ (fixDefaults e s).v.coolSet = true) := by
  obtain ⟨⟨m, a, b, c, d⟩, w, cd, wm, mm, mh, mc, ov, en⟩ := s
  unfold fixDefaults
  cases c <;> cases d <;> cases e.heats <;> cases e.cools <;> simp

theorem fix_sp (e : Env) (s : St) (hg : GapOk e s) :
    (s.spHeat ≠ unset → (fix e s).spHeat = s.spHeat) ∧ (s.spCool ≠ unset → (fix e s).spCool = s.spCool) := by
  have hd := fixDefaults_sp e s
  have hf := fixDefaults_frame e s
  have h0 : s.v.heatSet = true → (fixDefaults e s).spHeat = s.spHeat := by
    intro q
    unfold St.spHeat
    rw [(hd.1 q).2, (hd.1 q).1, q]
  have c0 : s.v.coolSet = true → (fixDefaults e s).spCool = s.spCool := by
    intro q
    unfold St.spCool
    rw [(hd.2 q).2, (hd.2 q).1, q]
  have hset : s.spHeat ≠ unset → s.v.heatSet = true := by
    unfold St.spHeat
    cases s.v.heatSet <;> simp
  have cset : s.spCool ≠ unset → s.v.coolSet = true := by
    unfold St.spCool
    cases s.v.coolSet <;> simp
  unfold fix
  dsimp only
  rw [hf.1]
  unfold GapOk at hg
  generalize fixDefaults e s = s1 at *
  have hk : ∀ t, (setCool e t s1).spHeat = s1.spHeat := by
    intro t; unfold setCool St.spHeat; split <;> rfl
  have ck : ∀ t, (setHeat e t s1).spCool = s1.spCool := by
    intro t; unfold setHeat St.spCool; split <;> rfl
  by_cases m2 : s.v.mode = 2
  · rw [if_pos m2]
    constructor
    · intro q
      rw [if_neg q, h0 (hset q)]
    · intro q
      split
      · rw [ck, c0 (cset q)]
      · rw [c0 (cset q)]
  · rw [if_neg m2]
    by_cases m3 : s.v.mode = 3
    · rw [if_pos m3]
      constructor
      · intro q
        split
        · rw [hk, h0 (hset q)]
        · rw [h0 (hset q)]
      · intro q
        rw [if_neg q, c0 (cset q)]
    · rw [if_neg m3]
      by_cases m4 : s.v.mode = 4
      · rw [if_pos m4, hg m4]
        simp only [Bool.not_true, Bool.false_eq_true, if_false, ite_self]
        exact ⟨fun q => h0 (hset q), fun q => c0 (cset q)⟩
      · rw [if_neg m4]
        exact ⟨fun q => h0 (hset q), fun q => c0 (cset q)⟩

/-- A mode change that is not refused. -/
theorem setPlain_mode (e : Env) (m : Nat) (s : St) (hb : e.blocked = false) (hs : e.sup m = true) :
    (setPlain e m false s).v.mode = m ∧ (setPlain e m false s).weekly = false ∧
    (setPlain e m false s).countdown = false ∧ (setPlain e m false s).ends = s.ends ∧
    (s.weekly = true → (setPlain e m false s).over = -1) := by
  unfold setPlain
  dsimp only
  by_cases c1 : s.v.mode = m ∧ ¬ ((false : Bool) = false ∧ s.weekly = true)
  · rw [if_pos c1]
    refine ⟨c1.1, ?_, rfl, rfl, fun q => absurd q (fun q => c1.2 ⟨rfl, q⟩)⟩
    show s.weekly = false
    cases h : s.weekly
    · rfl
    · exact absurd ⟨rfl, h⟩ c1.2
  · rw [if_neg c1, hb, if_neg (by simp), hs]
    simp only [Bool.not_true, Bool.false_eq_true, if_false]
    by_cases m1 : m = 1
    · rw [if_pos m1]
      have key : ∀ t : St, t.v.mode = 1 → t.weekly = false → t.countdown = false → t.ends = s.ends → t.over = -1 →
          (fix e t).v.mode = 1 ∧ (fix e t).weekly = false ∧ (fix e t).countdown = false ∧ (fix e t).ends = s.ends ∧
          (s.weekly = true → (fix e t).over = -1) := by
        intro t a b c d f
        obtain ⟨f1, f2, f3, f4, f5, f6⟩ := fix_frame e t
        exact ⟨f1.trans a, f2.trans b, f3.trans c, f6.trans d, fun _ => f5.trans f⟩
      rw [m1]
      apply key
      all_goals (first | rfl | (split <;> rfl))
    · rw [if_neg m1]
      obtain ⟨f1, f2, f3, f4, f5, f6⟩ := fix_frame e
        { s with v := { s.v with mode := m }, weekly := false, countdown := false, over := -1 }
      exact ⟨f1, f2, f3, f6, fun _ => f5⟩

/-- The remembered mode after a mode change. -/
theorem setPlain_wm (e : Env) (m : Nat) (s : St) (hw : s.wm = (store s).wm) :
    (setPlain e m false s).wm = s.wm := by
  unfold setPlain
  dsimp only
  by_cases c1 : s.v.mode = m ∧ ¬ ((false : Bool) = false ∧ s.weekly = true)
  · rw [if_pos c1]
  · rw [if_neg c1]
    by_cases c2 : e.blocked = true ∧ m ≠ 1
    · rw [if_pos c2]
    · rw [if_neg c2]
      by_cases c3 : (!e.sup m) = true
      · rw [if_pos c3]; rfl
      · rw [if_neg c3]
        simp only [Bool.false_eq_true, if_false]
        rw [(fix_frame e _).2.2.2.1]
        by_cases m1 : m = 1
        · rw [if_pos m1]
          simp only [true_and]
          by_cases w : s.weekly = true
          · rw [if_pos (show (store { s with countdown := false, over := -1 }).weekly = true from w)]
            unfold store at hw ⊢
            simp only [w, if_true] at hw ⊢
            rw [hw]
          · rw [if_neg (show ¬ (store { s with countdown := false, over := -1 }).weekly = true from w)]
            exact hw.symm
        · rw [if_neg m1]

/-- Set points survive a mode change. -/
theorem setPlain_sp (e : Env) (m : Nat) (s : St) (hg : m = 4 → e.gapOk s.spHeat s.spCool = true) :
    (s.spHeat ≠ unset → (setPlain e m false s).spHeat = s.spHeat) ∧
    (s.spCool ≠ unset → (setPlain e m false s).spCool = s.spCool) := by
  unfold setPlain
  dsimp only
  by_cases c1 : s.v.mode = m ∧ ¬ ((false : Bool) = false ∧ s.weekly = true)
  · rw [if_pos c1]; exact ⟨fun _ => rfl, fun _ => rfl⟩
  · rw [if_neg c1]
    by_cases c2 : e.blocked = true ∧ m ≠ 1
    · rw [if_pos c2]; exact ⟨fun _ => rfl, fun _ => rfl⟩
    · rw [if_neg c2]
      by_cases c3 : (!e.sup m) = true
      · rw [if_pos c3]; exact ⟨fun _ => rfl, fun _ => rfl⟩
      · rw [if_neg c3]
        simp only [Bool.false_eq_true, if_false]
        by_cases m1 : m = 1
        · rw [if_pos m1]
          simp only [true_and]
          have hsp : ∀ t : St, t.v.heat = s.v.heat → t.v.heatSet = s.v.heatSet → t.v.cool = s.v.cool → t.v.coolSet = s.v.coolSet →
              t.v.mode = 1 →
              (s.spHeat ≠ unset → (fix e t).spHeat = s.spHeat) ∧ (s.spCool ≠ unset → (fix e t).spCool = s.spCool) := by
            intro t a b c d mm
            have k := fix_sp e t (by intro q; rw [mm] at q; exact absurd q (by decide))
            have e1 : t.spHeat = s.spHeat := by unfold St.spHeat; rw [a, b]
            have e2 : t.spCool = s.spCool := by unfold St.spCool; rw [c, d]
            rw [e1, e2] at k
            exact k
          apply hsp
          all_goals (first | rfl | (split <;> rfl))
        · rw [if_neg m1]
          exact fix_sp e { s with v := { s.v with mode := m }, weekly := false, countdown := false, over := -1 } hg

theorem setHeat_sp (e : Env) (t : Int) (s : St) (ht : e.tMin ≤ t) (ht' : t ≤ e.tMax) (hu : unset < e.tMin) :
    (setHeat e t s).spHeat = t ∧ (setHeat e t s).spCool = s.spCool := by
  unfold setHeat
  rw [if_neg (by omega), clamp_id e t ⟨ht, ht'⟩]
  exact ⟨rfl, rfl⟩

theorem setCool_sp (e : Env) (t : Int) (s : St) (ht : e.tMin ≤ t) (ht' : t ≤ e.tMax) (hu : unset < e.tMin) :
    (setCool e t s).spCool = t ∧ (setCool e t s).spHeat = s.spHeat := by
  unfold setCool
  rw [if_neg (by omega), clamp_id e t ⟨ht, ht'⟩]
  exact ⟨rfl, rfl⟩

/-- Restoring a manual mode. -/
theorem turnOn_manual (e : Env) (n : Now) (old s : St) (hb : e.blocked = false) (hu : unset < e.tMin)
    (hw : s.weekly = false) (hwm : s.wm = old.v) (hm : Manual e old.v.mode) (hg : GapIn e old) :
    (turnOn e n s).v.mode = old.v.mode ∧ (turnOn e n s).weekly = false ∧ (turnOn e n s).countdown = false ∧
    Restored e old (turnOn e n s) := by
  have hm9 : s.wm.mode ≠ 9 := by rw [hwm]; rcases hm.1 with q | q | q | q <;> omega
  have hm0 : s.wm.mode ≠ 0 := by rw [hwm]; rcases hm.1 with q | q | q | q <;> omega
  have hsup : e.sup s.wm.mode = true := by rw [hwm]; exact hm.2
  unfold turnOn
  rw [if_neg (by rw [hw]; simp [hm9])]
  dsimp only
  rw [hsup]
  simp only [Bool.not_true, Bool.false_eq_true, if_false]
  rw [if_pos hm0, hwm]
  have a := fun t => setHeat_frame e t s
  have hsH : old.v.heatSet = true → e.tMin ≤ old.v.heat → old.v.heat ≤ e.tMax →
      (if old.v.heatSet = true then setHeat e old.v.heat s else s).spHeat = old.v.heat := by
    intro q1 q2 q3
    rw [if_pos q1]
    exact (setHeat_sp e _ s q2 q3 hu).1
  have hfr : Frame s (if old.v.heatSet = true then setHeat e old.v.heat s else s) := frame_ite _ _ _ _ (a _) (Frame.rfl' s)
  generalize (if old.v.heatSet = true then setHeat e old.v.heat s else s) = s1 at *
  have b := fun t => setCool_frame e t s1
  have hsC : old.v.coolSet = true → e.tMin ≤ old.v.cool → old.v.cool ≤ e.tMax →
      (if old.v.coolSet = true then setCool e old.v.cool s1 else s1).spCool = old.v.cool := by
    intro q1 q2 q3
    rw [if_pos q1]
    exact (setCool_sp e _ s1 q2 q3 hu).1
  have hsH' : (if old.v.coolSet = true then setCool e old.v.cool s1 else s1).spHeat = s1.spHeat := by
    split
    · unfold setCool St.spHeat; split <;> rfl
    · rfl
  have hfr2 : Frame s (if old.v.coolSet = true then setCool e old.v.cool s1 else s1) :=
    frame_ite _ _ _ _ (hfr.trans (b _)) hfr
  generalize (if old.v.coolSet = true then setCool e old.v.cool s1 else s1) = s2 at *
  have hp := setPlain_mode e old.v.mode s2 hb hm.2
  have hq := setPlain_sp e old.v.mode s2 (by
    intro q
    obtain ⟨g1, g2, g3, g4, g5, g6, g7⟩ := hg q
    rw [hsH', hsH g1 g5 (by omega), hsC g2 (by omega) g6]
    unfold Env.gapOk Env.inRoom
    have u := hu
    unfold unset at u ⊢
    simp only [Bool.and_eq_true, decide_eq_true_eq]
    omega)
  refine ⟨hp.1, hp.2.1, hp.2.2.1, fun q1 q2 q3 => ?_, fun q1 q2 q3 => ?_⟩
  · have := hsH q1 q2 q3
    rw [hsH'] at hq
    rw [this] at hq
    exact hq.1 (by omega)
  · have := hsC q1 q2 q3
    rw [this] at hq
    exact hq.2 (by omega)

/-! ### Turning off and on -/

/-- Turning off, any number of times, keeps what is needed to turn on again. -/
theorem off_store (e : Env) (n : Now) (s : St) (hw : s.weekly = false) (hm : s.v.mode ≠ 1) :
    (setTarget e n 1 false s).wm = s.v ∧ (setTarget e n 1 false s).v.mode = 1 ∧
    (setTarget e n 1 false s).weekly = false := by
  have hst : setTarget e n 1 false s = setPlain e 1 false s := by unfold setTarget; rfl
  rw [hst]
  unfold setPlain
  dsimp only
  rw [if_neg (by intro q; exact hm q.1), if_neg (by intro q; exact q.2 rfl)]
  have h1 : e.sup 1 = true := by unfold Env.sup; rfl
  rw [h1]
  simp only [Bool.not_true, Bool.false_eq_true, if_false, if_true]
  have hsw : (store { s with countdown := false, over := -1 }).weekly = false := hw
  rw [hsw]
  simp only [Bool.false_eq_true, and_false, if_false]
  obtain ⟨f1, f2, f3, f4, f5, f6⟩ := fix_frame e
    { store { s with countdown := false, over := -1 } with v := { s.v with mode := 1 }, weekly := false }
  refine ⟨f4.trans ?_, f1, f2⟩
  unfold store
  simp [hw]

theorem off_again (e : Env) (n : Now) (s : St) (hw : s.weekly = false) (hm : s.v.mode = 1) :
    setTarget e n 1 false s = { s with countdown := false } := by
  have hst : setTarget e n 1 false s = setPlain e 1 false s := by unfold setTarget; rfl
  rw [hst]
  unfold setPlain
  dsimp only
  rw [if_pos]
  exact ⟨hm, by simp [hw]⟩

theorem offs (e : Env) (old : St) (ns : List Now) (s : St) (hw : s.weekly = false) (hm : s.v.mode = 1)
    (hwm : s.wm = old.v) : let t := ns.foldl (fun s n => setTarget e n 1 false s) s
    t.weekly = false ∧ t.v.mode = 1 ∧ t.wm = old.v := by
  induction ns generalizing s with
  | nil => exact ⟨hw, hm, hwm⟩
  | cons n ns ih =>
    dsimp only
    rw [List.foldl_cons, off_again e n s hw hm]
    exact ih { s with countdown := false } hw hm hwm

/-- Turning a thermostat off, once or several times, and on again brings back its mode and set points. -/
theorem off_on (e : Env) (n n' : Now) (ns : List Now) (s : St) (hb : e.blocked = false) (hu : unset < e.tMin)
    (hw : s.weekly = false) (hm : Manual e s.v.mode) (h1 : s.v.mode ≠ 1) (hg : GapIn e s) :
    let off := (n :: ns).foldl (fun s n => setTarget e n 1 false s) s
    let on := setTarget e n' 8 false off
    off.v.mode = 1 ∧ on.v.mode = s.v.mode ∧ on.weekly = false ∧ Restored e s on := by
  dsimp only
  rw [List.foldl_cons]
  have a := off_store e n s hw h1
  have b := offs e s ns (setTarget e n 1 false s) a.2.2 a.2.1 a.1
  dsimp only at b
  generalize ns.foldl (fun s n => setTarget e n 1 false s) (setTarget e n 1 false s) = t at *
  refine ⟨b.2.1, ?_⟩
  unfold setTarget
  rw [if_pos rfl, hb]
  simp only [Bool.false_eq_true, if_false]
  rw [if_pos (Or.inl b.2.1)]
  have k := turnOn_manual e n' s { t with countdown := false, over := -1 } hb hu b.1 b.2.2 hm hg
  generalize turnOn e n' { t with countdown := false, over := -1 } = u at *
  obtain ⟨f1, f2, f3, f4, f5, f6⟩ := fix_frame e u
  refine ⟨f1.trans k.1, f2.trans k.2.1, ?_⟩
  have z := fix_sp e u (by
    intro q
    rw [k.1] at q
    obtain ⟨g1, g2, g3, g4, g5, g6, g7⟩ := hg q
    rw [k.2.2.2.1 g1 g5 (by omega), k.2.2.2.2 g2 (by omega) g6]
    unfold Env.gapOk Env.inRoom
    have u := hu
    unfold unset at u ⊢
    simp only [Bool.and_eq_true, decide_eq_true_eq]
    omega)
  constructor
  · intro q1 q2 q3
    have := k.2.2.2.1 q1 q2 q3
    rw [this] at z
    exact z.1 (by omega)
  · intro q1 q2 q3
    have := k.2.2.2.2 q1 q2 q3
    rw [this] at z
    exact z.2 (by omega)

/-- A heating thermostat at 22 degrees. -/
def exAt22 : St := { St.init with v := ⟨2, 2200, 0, true, false⟩ }
/-- Its limits. -/
def exH : Env := ⟨.heat, true, 500, 4000, 200, 2000, false, false⟩

example : Manual exH exAt22.v.mode ∧ exAt22.v.mode ≠ 1 ∧ GapIn exH exAt22 ∧ exAt22.weekly = false ∧ unset < exH.tMin :=
  ⟨⟨Or.inr (Or.inl rfl), by decide⟩, by decide, fun h => absurd h (by decide), rfl, by decide⟩

/-- A new differential thermostat stays off when turned on: its default mode is off (lines 3545-3563). -/
theorem turn_on_diff_violation :
    (setTarget { exH with fn := .diff } (exNow 0) 8 false (setTarget { exH with fn := .diff } (exNow 0) 1 false St.init)).v.mode = 1 ∧
    (changeBy { exH with fn := .diff } (exNow 0) 50 50 { exAt22 with v := ⟨2, 2200, 0, true, false⟩ }).v.mode = 1 := by
  decide +kernel

/-! ### The countdown timer -/

/-- While a timer runs: the mode to come back to is remembered. -/
def Running (e : Env) (old : St) (ends : Int) (s : St) : Prop :=
  s.countdown = true ∧ s.ends = ends ∧ s.weekly = false ∧ s.wm = (store old).wm ∧ e.sup s.v.mode = true

theorem resolve_plain (e : Env) (n : Now) (m : Nat) (tH tC : Int) (s : St) (h0 : m ≠ 0) (h10 : m ≠ 10) :
    resolve e n m tH tC s = (s, m) := by
  unfold resolve
  rw [if_neg h0]
  dsimp only
  rw [if_neg h10]

/-- Starting a timer. -/
theorem start_timer (e : Env) (n : Now) (m : Nat) (tH tC dur : Int) (s : St) (hb : e.blocked = false)
    (hm : Manual e m) (hd : 0 < dur) (hr : n.ready = true) (hc : s.countdown = false) :
    (apply e n m tH tC dur s).2 = true ∧ (apply e n m tH tC dur s).1.v.mode = m ∧
    Running e s (n.now + dur) (apply e n m tH tC dur s).1 := by
  have h9 : m ≠ 9 := by rcases hm.1 with q | q | q | q <;> omega
  have h8 : m ≠ 8 := by rcases hm.1 with q | q | q | q <;> omega
  unfold apply
  dsimp only
  rw [if_neg h9, resolve_plain e n m tH tC s (by rcases hm.1 with q | q | q | q <;> omega) (by rcases hm.1 with q | q | q | q <;> omega)]
  dsimp only
  rw [hm.2]
  simp only [Bool.not_true, Bool.false_eq_true, if_false]
  rw [if_pos (show dur > 0 from hd), if_pos hr, if_neg (show ¬ s.countdown = true by simp [hc])]
  refine ⟨rfl, ?_⟩
  unfold applyBody
  dsimp only
  rw [if_pos (show dur > 0 from hd)]
  have hst : ∀ t, setTarget e n m false t = setPlain e m false t := by
    intro t; unfold setTarget; rw [if_neg h8, if_neg h9]
  rw [hst]
  have p1 := setPlain_mode e m (store { s with ends := n.now + dur }) hb hm.2
  have p2 := setPlain_wm e m (store { s with ends := n.now + dur }) rfl
  generalize setPlain e m false (store { s with ends := n.now + dur }) = t at *
  have ht : Frame t (setTemps e m tH tC t) := by
    unfold setTemps
    dsimp only
    exact frame_ite _ _ _ _ ((setHeat_frame e _ _).trans (setCool_frame e _ _)) (Frame.rfl' t)
  generalize setTemps e m tH tC t = u at *
  obtain ⟨r1, r2, r3, r4, r5⟩ := remember_v m tH tC { u with countdown := true }
  obtain ⟨t1, t2, t3, t4, t5, t6⟩ := ht
  refine ⟨?_, r3, ?_, ?_, ?_, ?_⟩
  · rw [r1]; exact t1.trans p1.1
  · rw [r5]; exact t6.trans p1.2.2.2.1
  · rw [r2]; exact t2.trans p1.2.1
  · rw [r4]; exact t4.trans p2
  · rw [r1]
    show e.sup u.v.mode = true
    rw [t1, p1.1]
    exact hm.2

/-- A pass before the end changes nothing. -/
theorem running_pass (e : Env) (n : Now) (old s : St) (ends : Int) (h : Running e old ends s)
    (hn : (if n.ready then n.now else 0) < ends) : passMode e n s = s := by
  obtain ⟨h1, h2, h3, h4, h5⟩ := h
  have hx : expire e n s = s := by
    unfold expire
    rw [if_neg (by rw [h2]; intro q; have := q.2; omega)]
  unfold passMode
  rw [hx]
  dsimp only
  rw [h5, if_pos rfl, h3]
  simp

theorem running_passes (e : Env) (ns : List Now) (old s : St) (ends : Int) (h : Running e old ends s)
    (hn : ∀ n ∈ ns, (if n.ready then n.now else 0) < ends) : ns.foldl (fun s n => passMode e n s) s = s := by
  induction ns with
  | nil => rfl
  | cons n ns ih =>
    rw [List.foldl_cons, running_pass e n old s ends h (hn n (List.mem_cons_self ..))]
    exact ih (fun k hk => hn k (List.mem_cons_of_mem _ hk))

/-- A timed mode: it is accepted, is in force in every pass before the end, and the first pass
at or after the end brings back the mode and the set points from before. -/
theorem timer_returns (e : Env) (n n' : Now) (ns : List Now) (m : Nat) (tH tC dur : Int) (s : St)
    (hb : e.blocked = false) (hu : unset < e.tMin) (hm : Manual e m) (hd : 0 < dur) (hr : n.ready = true)
    (hc : s.countdown = false) (hw : s.weekly = false) (hs : Manual e s.v.mode) (hg : GapIn e s)
    (hns : ∀ k ∈ ns, (if k.ready then k.now else 0) < n.now + dur)
    (hr' : n'.ready = true) (hend : n.now + dur ≤ n'.now) :
    let timed := ns.foldl (fun s n => passMode e n s) (apply e n m tH tC dur s).1
    let after := passMode e n' timed
    (apply e n m tH tC dur s).2 = true ∧ timed.v.mode = m ∧ timed.countdown = true ∧
    after.v.mode = s.v.mode ∧ after.weekly = false ∧ after.countdown = false ∧ Restored e s after := by
  dsimp only
  obtain ⟨a, b, c⟩ := start_timer e n m tH tC dur s hb hm hd hr hc
  rw [running_passes e ns s _ _ c hns]
  generalize (apply e n m tH tC dur s).1 = t at *
  refine ⟨a, b, c.1, ?_⟩
  obtain ⟨c1, c2, c3, c4, c5⟩ := c
  have k := turnOn_manual e n' s { t with countdown := false } hb hu c3 (by
    show t.wm = _
    rw [c4]; unfold store; simp [hw]) hs hg
  have hx : expire e n' t = { turnOn e n' { t with countdown := false } with ends := 1 } := by
    unfold expire
    rw [if_pos (by rw [c2, hr', if_pos rfl]; exact ⟨c1, hend⟩)]
  unfold passMode
  rw [hx]
  dsimp only
  generalize turnOn e n' { t with countdown := false } = u at *
  obtain ⟨k1, k2, k3, k4⟩ := k
  rw [k1, hs.2, if_pos rfl, if_neg (show ¬ u.weekly = true by simp [k2])]
  exact ⟨k1, k2, k3, k4⟩

example : Manual exH 1 ∧ exAt22.countdown = false ∧ (exNow 100).ready = true :=
  ⟨⟨Or.inl rfl, rfl⟩, rfl, rfl⟩

/-- The schedule's program takes over. -/
theorem process_on (e : Env) (n : Now) (s : St) (hb : e.blocked = false) (hw : s.weekly = true)
    (hr : n.ready = true) (hp : Manual e n.prog.mode) (ho : s.over = -1) :
    (process e n s).1.weekly = true ∧ (process e n s).1.v.mode = n.prog.mode ∧ (process e n s).1.over = -1 ∧
    (process e n s).1.countdown = false ∧ (process e n s).2 = true := by
  unfold process
  rw [hw, hr, ho]
  have h0 : n.prog.mode ≠ 0 := by rcases hp.1 with q | q | q | q <;> omega
  simp only [Bool.not_true, Bool.false_and, Bool.false_eq_true, if_false, ne_eq, not_true_eq_false, false_and]
  rw [if_neg h0]
  dsimp only
  have key : ∀ t : St, t.weekly = true → t.over = -1 → (setPlain e n.prog.mode true t).weekly = true ∧
      (setPlain e n.prog.mode true t).v.mode = n.prog.mode ∧ (setPlain e n.prog.mode true t).over = -1 ∧
      (setPlain e n.prog.mode true t).countdown = false := by
    intro t w o
    unfold setPlain
    dsimp only
    by_cases c1 : t.v.mode = n.prog.mode ∧ ¬ ((true : Bool) = false ∧ t.weekly = true)
    · rw [if_pos c1]; exact ⟨w, c1.1, o, rfl⟩
    · rw [if_neg c1, hb, if_neg (by simp), hp.2]
      simp only [Bool.not_true, Bool.false_eq_true, if_false, if_true]
      by_cases m1 : n.prog.mode = 1
      · rw [if_pos m1]
        simp only [Bool.true_eq_false, false_and, if_false]
        obtain ⟨f1, f2, f3, f4, f5, f6⟩ := fix_frame e
          { store { t with countdown := false } with v := { t.v with mode := 1 } }
        exact ⟨f2.trans w, f1.trans m1.symm, f5.trans o, f3⟩
      · rw [if_neg m1]
        obtain ⟨f1, f2, f3, f4, f5, f6⟩ := fix_frame e { t with countdown := false, v := { t.v with mode := n.prog.mode } }
        exact ⟨f2.trans w, f1, f5.trans o, f3⟩
  have k := key { s with weekly := true, over := -1 } rfl rfl
  generalize setPlain e n.prog.mode true { s with weekly := true, over := -1 } = u at *
  obtain ⟨f1, f2, f3, f4, f5, f6⟩ := (setHeat_frame e (if n.prog.mode = 3 then unset else n.prog.heat) u).trans
    (setCool_frame e (if n.prog.mode = 2 then unset else n.prog.cool) _)
  exact ⟨f2.trans k.1, f1.trans k.2.1, f5.trans k.2.2.1, f3.trans k.2.2.2, rfl⟩

/-- A timed mode started while the weekly schedule is on ends in the weekly schedule, in the mode of
the program then in force. -/
theorem timer_returns_weekly (e : Env) (n n' : Now) (ns : List Now) (m : Nat) (tH tC dur : Int) (s : St)
    (hb : e.blocked = false) (hm : Manual e m) (hd : 0 < dur) (hr : n.ready = true)
    (hc : s.countdown = false) (hw : s.weekly = true) (hsched : e.sched = true)
    (hns : ∀ k ∈ ns, (if k.ready then k.now else 0) < n.now + dur)
    (hr' : n'.ready = true) (hend : n.now + dur ≤ n'.now) (hp : Manual e n'.prog.mode) :
    let timed := ns.foldl (fun s n => passMode e n s) (apply e n m tH tC dur s).1
    let after := passMode e n' timed
    timed.v.mode = m ∧ timed.countdown = true ∧ after.weekly = true ∧ after.countdown = false ∧
    after.v.mode = n'.prog.mode := by
  dsimp only
  obtain ⟨a, b, c⟩ := start_timer e n m tH tC dur s hb hm hd hr hc
  have hov : (apply e n m tH tC dur s).1.over = -1 := by
    have h9 : m ≠ 9 := by rcases hm.1 with q | q | q | q <;> omega
    have h8 : m ≠ 8 := by rcases hm.1 with q | q | q | q <;> omega
    unfold apply
    dsimp only
    rw [if_neg h9, resolve_plain e n m tH tC s (by rcases hm.1 with q | q | q | q <;> omega) (by rcases hm.1 with q | q | q | q <;> omega)]
    dsimp only
    rw [hm.2]
    simp only [Bool.not_true, Bool.false_eq_true, if_false]
    rw [if_pos (show dur > 0 from hd), if_pos hr, if_neg (show ¬ s.countdown = true by simp [hc])]
    unfold applyBody
    dsimp only
    rw [if_pos (show dur > 0 from hd)]
    have hst : ∀ t, setTarget e n m false t = setPlain e m false t := by
      intro t; unfold setTarget; rw [if_neg h8, if_neg h9]
    rw [hst]
    have p1 := (setPlain_mode e m (store { s with ends := n.now + dur }) hb hm.2).2.2.2.2 hw
    generalize setPlain e m false (store { s with ends := n.now + dur }) = t at *
    have ht : Frame t (setTemps e m tH tC t) := by
      unfold setTemps
      dsimp only
      exact frame_ite _ _ _ _ ((setHeat_frame e _ _).trans (setCool_frame e _ _)) (Frame.rfl' t)
    generalize setTemps e m tH tC t = u at *
    have hrem : ∀ z : St, (remember m tH tC z).over = z.over := by
      intro z
      unfold remember
      dsimp only
      repeat' split
      all_goals rfl
    rw [hrem]
    exact ht.2.2.2.2.1.trans p1
  rw [running_passes e ns s _ _ c hns]
  generalize (apply e n m tH tC dur s).1 = t at *
  refine ⟨b, c.1, ?_⟩
  obtain ⟨c1, c2, c3, c4, c5⟩ := c
  have hwm9 : t.wm.mode = 9 := by rw [c4]; unfold store; simp [hw]
  have hx : expire e n' t = { turnOn e n' { t with countdown := false } with ends := 1 } := by
    unfold expire
    rw [if_pos (by rw [c2, hr', if_pos rfl]; exact ⟨c1, hend⟩)]
  unfold passMode
  rw [hx]
  dsimp only
  have hto : turnOn e n' { t with countdown := false } = (process e n' { t with countdown := false, weekly := true }).1 := by
    unfold turnOn
    rw [if_pos (Or.inr hwm9)]
    unfold onWeekly
    rw [hsched]
    rfl
  rw [hto]
  obtain ⟨k1, k2, k3, k4, k5⟩ := process_on e n' { t with countdown := false, weekly := true } hb rfl hr' hp hov
  generalize (process e n' { t with countdown := false, weekly := true }).1 = u at *
  rw [k2, hp.2, if_pos rfl, if_pos k1]
  obtain ⟨l1, l2, l3, l4, l5⟩ := process_on e n' { u with ends := 1 } hb k1 hr' hp k3
  exact ⟨l1, l4, l2⟩

example : Manual exH (exNow 0).prog.mode ∧ exH.sched = true := ⟨⟨Or.inr (Or.inl rfl), rfl⟩, rfl⟩

/-! ### Where the timer does not come back -/

/-- The full claim: the first pass at or after the end brings back the mode from before the (first)
timer, whatever timed commands followed. -/
def TimerAlwaysReturns (e : Env) : Prop :=
  ∀ (s : St) (cmds : List (Now × Nat × Int × Int × Int)) (n' : Now), s.weekly = false → s.countdown = false →
    Manual e s.v.mode → (∀ c ∈ cmds, c.1.ready = true ∧ 0 < c.2.2.2.2 ∧ c.1.now + c.2.2.2.2 ≤ n'.now) → n'.ready = true →
    (passMode e n' (cmds.foldl (fun s c => (apply e c.1 c.2.1 c.2.2.1 c.2.2.2.1 c.2.2.2.2 s).1) s)).v.mode = s.v.mode

/-- Heat for an hour, then, while that timer runs, off for an hour: the thermostat does not go back to
off but to heating, for ever (the second command overwrites the remembered mode, line 3178). -/
theorem timer_chain_violation : ¬ TimerAlwaysReturns exH := by
  intro h
  have := h { St.init with v := ⟨1, 2200, 0, true, false⟩ } [(exNow 100, 2, 2300, unset, 3600), (exNow 200, 1, unset, unset, 3600)] (exNow 5000)
    rfl rfl ⟨Or.inl rfl, rfl⟩ (by decide) rfl
  revert this
  decide +kernel

/-- "Weekly schedule for an hour": the next pass forgets the timer, the schedule stays on. -/
theorem timer_weekly_violation :
    let s := (apply exH (exNow 100) 9 unset unset 3600 exAt22).1
    let s := passMode exH (exNow 101) s
    let s := passMode exH (exNow 5000) s
    s.weekly = true ∧ exAt22.weekly = false := by
  decide +kernel

/-- "23 degrees for an hour" during the weekly schedule: the temperature stays until the program changes,
however much later that is. -/
theorem timer_override_violation :
    let s0 : St := { exAt22 with weekly := true, v := ⟨2, 2000, 0, true, false⟩ }
    let s := (apply exH (exNow 100) 0 2300 unset 3600 s0).1
    let s := passMode exH (exNow 101) s
    let s := passMode exH (exNow 5000) s
    let s := passMode exH (exNow 500000) s
    s.v.heat = 2300 ∧ (exNow 500000).prog.heat = 2000 := by
  decide +kernel

/-- A timer of 2^31 seconds or more is a permanent change. -/
theorem timer_too_long_violation :
    let s := (server exH (exNow 100) ⟨1, 0, 0, false, false⟩ (2 ^ 31) exAt22).1
    s.countdown = false ∧ s.v.mode = 1 := by
  decide +kernel

end Verif.Hvac.Mode
