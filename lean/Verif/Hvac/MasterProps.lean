import Verif.Hvac.Master
import Verif.Hvac.TimerProps
/-!
# Thermostat: following a master thermostat, proofs
-/
namespace Verif.Hvac.Mode
open Verif

/-! ### Specification -/

/-- The master's settings are of a kind the thermostat can take over: mode off, heat, cool or
heat/cool, and the set points used by that mode within the limits of this thermostat. -/
def Possible (e : Env) (mv : Val) : Prop :=
  (mv.mode = 1 ∨ mv.mode = 2 ∨ mv.mode = 3 ∨ mv.mode = 4) ∧
  (mv.mode = 2 ∨ mv.mode = 4 → e.tMin ≤ mv.heat ∧ mv.heat ≤ e.tMax) ∧
  (mv.mode = 3 ∨ mv.mode = 4 → e.tMin ≤ mv.cool ∧ mv.cool ≤ e.tMax)

/-- The thermostat does what the master does: same mode, same set points; off if it does not support
the mode. -/
def Agrees (e : Env) (mv : Val) (s : St) : Prop :=
  if e.sup mv.mode = true then
    s.v.mode = mv.mode ∧ (mv.mode = 2 ∨ mv.mode = 4 → s.v.heat = mv.heat) ∧ (mv.mode = 3 ∨ mv.mode = 4 → s.v.cool = mv.cool)
  else s.v.mode = 1

/-- Neither weekly schedule nor timer. -/
def Manually (s : St) : Prop := s.weekly = false ∧ s.countdown = false

/-! ### Taking over -/

theorem setTarget_plain (e : Env) (n : Now) (m : Nat) (k : Bool) (s : St) (h : m = 1 ∨ m = 2 ∨ m = 3 ∨ m = 4) :
    setTarget e n m k s = setPlain e m k s := by
  unfold setTarget
  rw [if_neg (by omega), if_neg (by omega)]

theorem apply_eq (e : Env) (n : Now) (m : Nat) (a b : Int) (s : St) (h : m = 1 ∨ m = 2 ∨ m = 3 ∨ m = 4) :
    apply e n m a b 0 s = if e.sup m = true then
      (remember m a b (setTemps e m a b (setPlain e m false { s with countdown := false, ends := 1 })), true) else (s, false) := by
  unfold apply
  dsimp only
  rw [if_neg (show m ≠ 9 by omega), resolve_plain e n m a b s (by omega) (by omega)]
  dsimp only
  cases hs : e.sup m with
  | false => rfl
  | true =>
    rw [if_neg (show ¬ (!true) = true by decide), if_neg (show ¬ (0 : Int) > 0 by decide), if_pos rfl]
    unfold applyBody
    dsimp only
    rw [if_neg (show ¬ (0 : Int) > 0 by decide), setTarget_plain e n m false _ h]

/-- Turning off is never refused. -/
theorem setPlain_off (e : Env) (s : St) : (setPlain e 1 false s).v.mode = 1 ∧ (setPlain e 1 false s).weekly = false ∧
    (setPlain e 1 false s).countdown = false := by
  have key : setPlain e 1 false s = setPlain { e with blocked := false } 1 false s := by
    unfold setPlain
    dsimp only
    rw [if_neg (show ¬ (e.blocked = true ∧ (1 : Nat) ≠ 1) by simp), if_neg (show ¬ ((false : Bool) = true ∧ (1 : Nat) ≠ 1) by simp)]
    rfl
  rw [key]
  have := setPlain_mode { e with blocked := false } 1 s rfl rfl
  exact ⟨this.1, this.2.1, this.2.2.1⟩

/-- What setting the set points does outside the weekly schedule. -/
theorem setTemps_manual (e : Env) (m : Nat) (a b : Int) (s : St) (hm : m ≠ 9) (hw : s.weekly = false) :
    Frame s (setTemps e m a b s) ∧ (a ≠ unset → (setTemps e m a b s).v.heat = e.clamp a) ∧ (b ≠ unset → (setTemps e m a b s).v.cool = e.clamp b) := by
  unfold setTemps
  dsimp only
  rw [if_pos (Or.inl ⟨hm, hw⟩)]
  refine ⟨(setHeat_frame e _ _).trans (setCool_frame e _ _), fun ha => ?_, fun hb => ?_⟩
  · rw [if_neg (show ¬ (s.weekly = false ∧ a = unset) from fun h => ha h.2)]
    have h1 : (setHeat e a s).v.heat = e.clamp a := by
      unfold setHeat
      rw [if_neg ha]
    generalize setHeat e a s = u at h1
    generalize (if s.weekly = false ∧ b = unset then s.manCool else b) = x
    unfold setCool
    split
    · exact h1
    · exact h1
  · rw [if_neg (show ¬ (s.weekly = false ∧ b = unset) from fun h => hb h.2)]
    unfold setCool
    rw [if_neg hb]

/-- Taking over a supported mode that is not refused. -/
theorem takeOver_ok (e : Env) (n : Now) (mv : Val) (s : St) (hm : mv.mode = 1 ∨ mv.mode = 2 ∨ mv.mode = 3 ∨ mv.mode = 4)
    (hs : e.sup mv.mode = true) (hb : e.blocked = false) :
    (takeOver e n mv s).v.mode = mv.mode ∧ Manually (takeOver e n mv s) ∧
    (mv.mode = 2 ∨ mv.mode = 4 → mv.heat ≠ unset → (takeOver e n mv s).v.heat = e.clamp mv.heat) ∧
    (mv.mode = 3 ∨ mv.mode = 4 → mv.cool ≠ unset → (takeOver e n mv s).v.cool = e.clamp mv.cool) := by
  unfold takeOver
  dsimp only
  rw [apply_eq e n _ _ _ s hm, if_pos hs]
  dsimp only
  rw [if_pos rfl]
  obtain ⟨p1, p2, p3, _, _⟩ := setPlain_mode e mv.mode { s with countdown := false, ends := 1 } hb hs
  generalize setPlain e mv.mode false { s with countdown := false, ends := 1 } = u at p1 p2 p3
  obtain ⟨f, th, tc⟩ := setTemps_manual e mv.mode (mask mv.mode mv.heat mv.cool).1 (mask mv.mode mv.heat mv.cool).2 u (by omega) p2
  obtain ⟨r1, r2, r3, _, _⟩ := remember_v mv.mode (mask mv.mode mv.heat mv.cool).1 (mask mv.mode mv.heat mv.cool).2
    (setTemps e mv.mode (mask mv.mode mv.heat mv.cool).1 (mask mv.mode mv.heat mv.cool).2 u)
  have e1 : mv.mode = 2 ∨ mv.mode = 4 → (mask mv.mode mv.heat mv.cool).1 = mv.heat := by
    rintro (h | h) <;> rw [h] <;> rfl
  have e2 : mv.mode = 3 ∨ mv.mode = 4 → (mask mv.mode mv.heat mv.cool).2 = mv.cool := by
    rintro (h | h) <;> rw [h] <;> rfl
  generalize (mask mv.mode mv.heat mv.cool).1 = a at *
  generalize (mask mv.mode mv.heat mv.cool).2 = b at *
  generalize setTemps e mv.mode a b u = w at f th tc r1 r2 r3
  generalize remember mv.mode a b w = x at r1 r2 r3
  obtain ⟨f1, f2, f3, _⟩ := f
  refine ⟨by rw [r1, f1, p1], ⟨by rw [r2, f2, p2], by rw [r3, f3, p3]⟩, fun h1 h2 => ?_, fun h1 h2 => ?_⟩
  · have := e1 h1
    subst this
    rw [r1, th h2]
  · have := e2 h1
    subst this
    rw [r1, tc h2]

/-- Taking over a mode that is not supported: off. -/
theorem takeOver_off (e : Env) (n : Now) (mv : Val) (s : St) (hm : mv.mode = 1 ∨ mv.mode = 2 ∨ mv.mode = 3 ∨ mv.mode = 4)
    (hs : e.sup mv.mode = false) : (takeOver e n mv s).v.mode = 1 ∧ Manually (takeOver e n mv s) := by
  unfold takeOver
  dsimp only
  rw [apply_eq e n _ _ _ s hm, if_neg (show ¬ e.sup mv.mode = true by rw [hs]; decide)]
  dsimp only
  rw [if_neg Bool.false_ne_true, setTarget_plain e n 1 false s (Or.inl rfl)]
  obtain ⟨a, b, c⟩ := setPlain_off e s
  exact ⟨a, b, c⟩

theorem mask_eq (m : Nat) (h c h' c' : Int) (hm : m = 1 ∨ m = 2 ∨ m = 3 ∨ m = 4) :
    mask m h c = mask m h' c' ↔ (m = 2 ∨ m = 4 → h = h') ∧ (m = 3 ∨ m = 4 → c = c') := by
  rcases hm with rfl | rfl | rfl | rfl
  · exact ⟨fun _ => ⟨by omega, by omega⟩, fun _ => rfl⟩
  · refine ⟨fun q => ⟨fun _ => congrArg Prod.fst q, by omega⟩, fun q => ?_⟩
    rw [q.1 (Or.inl rfl)]; rfl
  · refine ⟨fun q => ⟨by omega, fun _ => congrArg Prod.snd q⟩, fun q => ?_⟩
    rw [q.2 (Or.inl rfl)]; rfl
  · refine ⟨fun q => ⟨fun _ => congrArg Prod.fst q, fun _ => congrArg Prod.snd q⟩, fun q => ?_⟩
    rw [q.1 (Or.inr rfl), q.2 (Or.inr rfl)]

/-- Nothing is taken over exactly if mode and used set points are the same. -/
theorem differs_false (mv : Val) (s : St) (hm : mv.mode = 1 ∨ mv.mode = 2 ∨ mv.mode = 3 ∨ mv.mode = 4) :
    differs mv s = false ↔ s.v.mode = mv.mode ∧ (mv.mode = 2 ∨ mv.mode = 4 → s.v.heat = mv.heat) ∧ (mv.mode = 3 ∨ mv.mode = 4 → s.v.cool = mv.cool) := by
  rw [← mask_eq mv.mode _ _ _ _ hm]
  unfold differs
  rw [decide_eq_false_iff_not, not_or, Decidable.not_not, Decidable.not_not]

/-- One pass is enough: afterwards the thermostat agrees with its master, and nothing more is taken
over while the master's settings stay. -/
theorem follow_agrees (e : Env) (n : Now) (mv : Val) (s : St) (hp : Possible e mv) (hs : e.sup mv.mode = true) (hb : e.blocked = false)
    (hu : unset < e.tMin) : Agrees e mv (follow e n mv s) ∧ differs mv (follow e n mv s) = false := by
  have key : differs mv (follow e n mv s) = false := by
    cases hd : differs mv s with
    | false => unfold follow; rw [hd, if_neg (by decide)]; exact hd
    | true =>
      unfold follow
      rw [hd, if_pos rfl]
      obtain ⟨a, _, c, d⟩ := takeOver_ok e n mv s hp.1 hs hb
      refine (differs_false mv _ hp.1).2 ⟨a, fun h => ?_, fun h => ?_⟩
      · have := hp.2.1 h
        rw [c h (by omega), clamp_id e _ this]
      · have := hp.2.2 h
        rw [d h (by omega), clamp_id e _ this]
  refine ⟨?_, key⟩
  unfold Agrees
  rw [if_pos hs]
  exact (differs_false mv _ hp.1).1 key

theorem follow_manually (e : Env) (n : Now) (mv : Val) (s : St) (hp : Possible e mv) (hb : e.blocked = false) (h : Manually s) :
    Manually (follow e n mv s) := by
  unfold follow
  split
  · cases hs : e.sup mv.mode with
    | true => exact (takeOver_ok e n mv s hp.1 hs hb).2.1
    | false => exact (takeOver_off e n mv s hp.1 hs).2
  · exact h

/-- Without schedule and timer the rest of the pass only turns off an unsupported mode. -/
theorem passMode_manually (e : Env) (n : Now) (s : St) (h : Manually s) :
    (e.sup s.v.mode = true → passMode e n s = s) ∧ (e.sup s.v.mode = false → (passMode e n s).v.mode = 1) ∧ Manually (passMode e n s) := by
  have he : expire e n s = s := by
    unfold expire
    rw [if_neg (by rw [h.2]; simp)]
  cases hs : e.sup s.v.mode with
  | true =>
    have : passMode e n s = s := by
      unfold passMode
      dsimp only
      rw [he, hs, if_pos rfl, if_neg (by rw [h.1]; decide)]
    exact ⟨fun _ => this, (fun q => by cases q), by rw [this]; exact h⟩
  | false =>
    obtain ⟨a, b, c⟩ := setPlain_off e s
    have : passMode e n s = setPlain e 1 false s := by
      unfold passMode
      dsimp only
      rw [he, hs, if_neg Bool.false_ne_true, setTarget_plain e n 1 false s (Or.inl rfl), if_neg (show ¬ (setPlain e 1 false s).weekly = true by rw [b]; decide)]
    rw [this]
    exact ⟨(fun q => by cases q), fun _ => a, b, c⟩

theorem masterPass_manually (e : Env) (t : Timed) (p : Pass) (hp : Possible e p.mv) (hb : e.blocked = false) (hu : unset < e.tMin) (h : Manually t.s) :
    Manually (masterPass e t p).1.s ∧ ∀ s, (masterPass e t p).2 = some s → Agrees e p.mv s := by
  have hf := follow_manually e p.n p.mv t.s hp hb h
  obtain ⟨q1, q2, q3⟩ := passMode_manually e p.n _ hf
  unfold masterPass
  dsimp only
  generalize stampAt e t p = st
  split
  · exact ⟨hf, fun s q => by cases q⟩
  · refine ⟨q3, fun s q => ?_⟩
    cases q
    cases hs : e.sup p.mv.mode with
    | true =>
      have ha := (follow_agrees e p.n p.mv t.s hp hs hb hu).1
      have hm : (follow e p.n p.mv t.s).v.mode = p.mv.mode := by
        unfold Agrees at ha
        rw [if_pos hs] at ha
        exact ha.1
      rw [q1 (by rw [hm]; exact hs)]
      exact ha
    | false =>
      unfold Agrees
      rw [if_neg (by rw [hs]; decide)]
      by_cases hd : differs p.mv t.s = true
      · have hfo : follow e p.n p.mv t.s = takeOver e p.n p.mv t.s := by unfold follow; rw [if_pos hd]
        have := (takeOver_off e p.n p.mv t.s hp.1 hs).1
        rw [← hfo] at this
        rw [q1 (by rw [this]; rfl)]
        exact this
      · have hfo : follow e p.n p.mv t.s = t.s := by unfold follow; rw [if_neg hd]
        have hm := ((differs_false p.mv t.s hp.1).1 (by simpa using hd)).1
        apply q2
        rw [hfo, hm]
        exact hs

/-- Full claim: whenever the regulation runs, it works with the settings of the master. -/
def FollowsMaster (e : Env) : Prop :=
  ∀ (t : Timed) (ps : List Pass), (∀ p ∈ ps, Possible e p.mv) → ∀ x ∈ regulated e t ps, Agrees e x.1 x.2

/-- It holds without schedule and timer of its own. -/
theorem follows_master_partial (e : Env) (hb : e.blocked = false) (hu : unset < e.tMin) (ps : List Pass) :
    ∀ t : Timed, Manually t.s → (∀ p ∈ ps, Possible e p.mv) → ∀ x ∈ regulated e t ps, Agrees e x.1 x.2 := by
  induction ps with
  | nil => exact fun t _ _ x hx => by cases hx
  | cons p ps ih =>
    intro t ht hp x hx
    obtain ⟨a, b⟩ := masterPass_manually e t p (hp p List.mem_cons_self) hb hu ht
    have ih' := ih _ a (fun q hq => hp q (List.mem_cons_of_mem _ hq))
    unfold regulated at hx
    split at hx
    · rename_i s hs
      rcases List.mem_cons.1 hx with rfl | hx
      · exact b s hs
      · exact ih' x hx
    · exact ih' x hx

/-! ### The regulation runs -/

/-- While the master's settings stay and agree, a pass only ends the wait. -/
theorem masterPass_quiet (e : Env) (t : Timed) (p : Pass) (h : Manually t.s) (hd : differs p.mv t.s = false) (hs : e.sup t.s.v.mode = true) :
    (masterPass e t p).1.s = t.s ∧ ((masterPass e t p).1.stamp = t.stamp ∨ (masterPass e t p).1.stamp = 0) ∧
    ((masterPass e t p).2 = none → waits t.stamp p.ms = true) := by
  have hfo : follow e p.n p.mv t.s = t.s := by unfold follow; rw [if_neg (by rw [hd]; decide)]
  have hst : stampAt e t p = t.stamp := by unfold stampAt; rw [hd]; rfl
  have hpm := (passMode_manually e p.n t.s h).1 hs
  unfold masterPass
  dsimp only
  rw [hfo, hst, hpm]
  cases hw : waits t.stamp p.ms with
  | true => rw [if_pos rfl]; exact ⟨rfl, Or.inl rfl, fun _ => rfl⟩
  | false =>
    rw [if_neg (by decide)]
    refine ⟨rfl, Or.inr ?_, fun q => by cases q⟩
    dsimp only
    rw [if_neg]
    rintro (q | q)
    · rw [h.1] at q; cases q
    · exact q rfl

theorem after_quiet (e : Env) (mv : Val) (ps : List Pass) : ∀ t : Timed, Manually t.s → differs mv t.s = false → e.sup t.s.v.mode = true →
    (∀ p ∈ ps, p.mv = mv) → (after e t ps).s = t.s ∧ ((after e t ps).stamp = t.stamp ∨ (after e t ps).stamp = 0) := by
  induction ps with
  | nil => exact fun t _ _ _ _ => ⟨rfl, Or.inl rfl⟩
  | cons p ps ih =>
    intro t ht hd hs hp
    obtain ⟨a, b, _⟩ := masterPass_quiet e t p ht (by rw [hp p List.mem_cons_self]; exact hd) hs
    obtain ⟨c, d⟩ := ih (masterPass e t p).1 (by rw [a]; exact ht) (by rw [a]; exact hd) (by rw [a]; exact hs) (fun q hq => hp q (List.mem_cons_of_mem _ hq))
    refine ⟨c.trans a, ?_⟩
    rcases d with d | d
    · rcases b with b | b
      · exact Or.inl (d.trans b)
      · exact Or.inr (d.trans b)
    · exact Or.inr d

/-- Five seconds after the master's settings (possible for this thermostat) were last changed, the
regulation runs, however many passes come in between. -/
theorem regulation_runs (e : Env) (hb : e.blocked = false) (hu : unset < e.tMin) (mv : Val) (hp : Possible e mv) (hs : e.sup mv.mode = true)
    (t : Timed) (ht : Manually t.s) (p q : Pass) (ps : List Pass) (old : Nat) (h0 : t.stamp = clk old) (ho : old ≤ p.ms)
    (hmv : ∀ x ∈ p :: q :: ps, x.mv = mv) (h5 : p.ms + 5000 ≤ q.ms) (hlim : q.ms - old < 2 ^ 32) :
    (masterPass e (after e t (p :: ps)) q).2.isSome = true := by
  have hpm : p.mv = mv := hmv p List.mem_cons_self
  have hqm : q.mv = mv := hmv q (List.mem_cons_of_mem _ List.mem_cons_self)
  obtain ⟨ag, hd⟩ := follow_agrees e p.n mv t.s hp hs hb hu
  have hfm := follow_manually e p.n mv t.s hp hb ht
  have hmode : (follow e p.n mv t.s).v.mode = mv.mode := by
    unfold Agrees at ag
    rw [if_pos hs] at ag
    exact ag.1
  have hsup : e.sup (follow e p.n mv t.s).v.mode = true := by rw [hmode]; exact hs
  -- after the first pass
  have h1 : (masterPass e t p).1.s = follow e p.n mv t.s ∧
      ((masterPass e t p).1.stamp = 0 ∨ (masterPass e t p).1.stamp = clk old ∨ (masterPass e t p).1.stamp = clk p.ms) := by
    have hpass := (passMode_manually e p.n _ hfm).1 hsup
    have hst : stampAt e t p = clk p.ms ∨ stampAt e t p = clk old := by
      unfold stampAt
      split
      · exact Or.inl rfl
      · exact Or.inr h0
    unfold masterPass
    dsimp only
    rw [hpm, hpass]
    generalize stampAt e t p = st at hst
    split
    · exact ⟨rfl, Or.inr (hst.elim Or.inr Or.inl)⟩
    · refine ⟨rfl, Or.inl ?_⟩
      dsimp only
      rw [if_neg]
      rintro (r | r)
      · rw [hfm.1] at r; cases r
      · exact r rfl
  obtain ⟨a, b⟩ := after_quiet e mv ps (masterPass e t p).1 (by rw [h1.1]; exact hfm) (by rw [h1.1]; exact hd) (by rw [h1.1]; exact hsup)
    (fun x hx => hmv x (List.mem_cons_of_mem _ (List.mem_cons_of_mem _ hx)))
  have haf : after e t (p :: ps) = after e (masterPass e t p).1 ps := rfl
  rw [haf]
  generalize after e (masterPass e t p).1 ps = u at a b
  rw [h1.1] at a
  obtain ⟨_, _, c⟩ := masterPass_quiet e u q (by rw [a]; exact hfm) (by rw [a, hqm]; exact hd) (by rw [a]; exact hsup)
  have hw : waits u.stamp q.ms = false := by
    have hcases : u.stamp = 0 ∨ u.stamp = clk old ∨ u.stamp = clk p.ms := by
      rcases b with b | b
      · rw [b]; exact h1.2
      · exact Or.inl b
    unfold waits
    rw [decide_eq_false_iff_not]
    rintro ⟨w1, w2⟩
    rcases hcases with r | r | r
    · exact w1 r
    · rw [r, since_clk_eq q.ms old (by omega) hlim] at w2
      omega
    · rw [r, since_clk_eq q.ms p.ms (by omega) (by omega)] at w2
      omega
  cases hr : (masterPass e u q).2 with
  | some s => rfl
  | none =>
    have := c hr
    rw [hw] at this
    cases this

/-! ### Where it does not -/

/-- Full claim: five seconds after a change of the master's settings (whatever its set point) the
regulation runs. -/
def RegulationRuns (e : Env) : Prop :=
  ∀ (mv : Val) (t : Timed) (p q : Pass) (ps : List Pass) (old : Nat), e.sup mv.mode = true → Manually t.s → InLimits e t.s → t.stamp = clk old → old ≤ p.ms →
    (∀ x ∈ p :: q :: ps, x.mv = mv) → p.ms + 5000 ≤ q.ms → q.ms - old < 2 ^ 32 → (masterPass e (after e t (p :: ps)) q).2.isSome = true

/-- A pass that takes over a heating set point waits afterwards. -/
theorem takes_over_waits (e : Env) (t : Timed) (p : Pass) (hd : differs p.mv t.s = true) (hm : p.mv.mode = 2) (hh : p.mv.heat ≠ unset)
    (hs : e.sup 2 = true) (hw : e.blocked = true → t.s.weekly = false) (hc : clk p.ms ≠ 0) :
    (masterPass e t p).2 = none ∧ (masterPass e t p).1.s = takeOver e p.n p.mv t.s := by
  have hstamp : takeOverStamps e p.n p.mv t.s = true := by
    unfold takeOverStamps
    rw [hm, if_pos hs]
    dsimp only
    rw [setTarget_plain e p.n 2 false _ (by omega)]
    have hwk : (setPlain e 2 false { t.s with countdown := false, ends := 1 }).weekly = false := by
      cases hb : e.blocked with
      | false => exact (setPlain_mode e 2 _ hb hs).2.1
      | true =>
        have hw := hw hb
        unfold setPlain
        dsimp only
        split
        · exact hw
        · rw [if_pos ⟨hb, by decide⟩]; exact hw
    have : tempsStamp 2 (mask 2 p.mv.heat p.mv.cool).1 (mask 2 p.mv.heat p.mv.cool).2 (setPlain e 2 false { t.s with countdown := false, ends := 1 }) = true := by
      generalize setPlain e 2 false { t.s with countdown := false, ends := 1 } = u at hwk
      unfold tempsStamp
      rw [show (mask 2 p.mv.heat p.mv.cool).1 = p.mv.heat from rfl]
      rw [decide_eq_true (show (2 : Nat) ≠ 9 ∧ u.weekly = false from ⟨by decide, hwk⟩), if_neg (show ¬ (u.weekly = false ∧ p.mv.heat = unset) from fun q => hh q.2),
        decide_eq_true hh]
      rfl
    rw [this, Bool.or_true]
  have hst : stampAt e t p = clk p.ms := by
    unfold stampAt
    rw [hd, hstamp]
    rfl
  have hwt : waits (clk p.ms) p.ms = true := by
    unfold waits
    rw [since_clk_self]
    exact decide_eq_true ⟨hc, by decide⟩
  have hfo : follow e p.n p.mv t.s = takeOver e p.n p.mv t.s := by unfold follow; rw [if_pos hd]
  unfold masterPass
  dsimp only
  rw [hst, hwt, if_pos rfl, hfo]
  exact ⟨rfl, rfl⟩

/-- A master that heats to a set point outside the limits of the thermostat stops its regulation for
ever: the output stays as it was. -/
theorem frozen (e : Env) (hb : e.blocked = false) (hl : e.tMin ≤ e.tMax) (hs : e.sup 2 = true) (ps : List Pass) : ∀ t : Timed,
    (e.tMin ≤ t.s.v.heat ∧ t.s.v.heat ≤ e.tMax) →
    (∀ p ∈ ps, p.mv.mode = 2 ∧ p.mv.heat ≠ unset ∧ ¬ (e.tMin ≤ p.mv.heat ∧ p.mv.heat ≤ e.tMax) ∧ clk p.ms ≠ 0) → regulated e t ps = [] := by
  induction ps with
  | nil => exact fun _ _ _ => rfl
  | cons p ps ih =>
    intro t hi hp
    obtain ⟨hm, hh, ho, hc⟩ := hp p List.mem_cons_self
    have hd : differs p.mv t.s = true := by
      cases h : differs p.mv t.s with
      | true => rfl
      | false =>
        have := ((differs_false p.mv t.s (by omega)).1 h).2.1 (Or.inl hm)
        rw [this] at hi
        exact absurd hi ho
    obtain ⟨a, b⟩ := takes_over_waits e t p hd hm hh hs (fun q => by rw [hb] at q; cases q) hc
    have hn := (takeOver_ok e p.n p.mv t.s (by omega) (by rw [hm]; exact hs) hb).2.2.1 (Or.inl hm) hh
    unfold regulated
    rw [a]
    dsimp only
    refine ih _ ?_ (fun q hq => hp q (List.mem_cons_of_mem _ hq))
    rw [b, hn]
    exact clamp_in e hl _

/-- Example: limits 5 to 30 degrees, not in heat/cool function. -/
def exSlave : Env := ⟨.heat, true, 500, 3000, 200, 2000, false, false⟩
/-- Example: no schedule, no timer, clock ready. -/
def exN : Now := ⟨true, 1000, false, 1, ⟨2, 2000, 0⟩⟩
/-- Example: heating to 20 degrees. -/
def exT : Timed := ⟨{ St.init with v := ⟨2, 2000, 0, true, false⟩ }, 0⟩

theorem out_of_limits_violation : ¬ RegulationRuns exSlave := by
  intro h
  have h1 := h ⟨2, 3500, 0, true, false⟩ exT ⟨1000, exN, ⟨2, 3500, 0, true, false⟩⟩ ⟨6000, exN, ⟨2, 3500, 0, true, false⟩⟩ [] 0 rfl ⟨rfl, rfl⟩
    ⟨by decide, by decide⟩ rfl (by decide) (by decide) (by decide) (by decide)
  revert h1
  decide +kernel

/-- A thermostat turned off by its sensor (for example an open window, output not controlled by the
library) is never turned on again while its master heats: the sensor is not looked at any more. -/
theorem sensor_forgotten (e : Env) (hb : e.blocked = true) (hs : e.sup 2 = true) (ps : List Pass) : ∀ t : Timed,
    t.s.v.mode = 1 → t.s.weekly = false → (∀ p ∈ ps, p.mv.mode = 2 ∧ p.mv.heat ≠ unset ∧ clk p.ms ≠ 0) →
    regulated e t ps = [] ∧ (after e t ps).s.v.mode = 1 := by
  induction ps with
  | nil => exact fun _ h _ _ => ⟨rfl, h⟩
  | cons p ps ih =>
    intro t h1 hw hp
    obtain ⟨hm, hh, hc⟩ := hp p List.mem_cons_self
    have hd : differs p.mv t.s = true := by
      cases h : differs p.mv t.s with
      | true => rfl
      | false =>
        have := ((differs_false p.mv t.s (by omega)).1 h).1
        omega
    obtain ⟨a, b⟩ := takes_over_waits e t p hd hm hh hs (fun _ => hw) hc
    have hn : (takeOver e p.n p.mv t.s).v.mode = 1 ∧ (takeOver e p.n p.mv t.s).weekly = false := by
      unfold takeOver
      dsimp only
      rw [hm, apply_eq e p.n 2 _ _ t.s (by omega), if_pos hs]
      dsimp only
      rw [if_pos rfl]
      have hpl : setPlain e 2 false { t.s with countdown := false, ends := 1 } = { t.s with countdown := false, ends := 1 } := by
        unfold setPlain
        dsimp only
        rw [if_neg (show ¬ (t.s.v.mode = 2 ∧ _) from fun q => by have := q.1; omega), if_pos ⟨hb, by decide⟩]
      rw [hpl]
      generalize (mask 2 p.mv.heat p.mv.cool).1 = x
      generalize (mask 2 p.mv.heat p.mv.cool).2 = y
      obtain ⟨⟨f1, f2, _⟩, _⟩ := setTemps_manual e 2 x y { t.s with countdown := false, ends := 1 } (by decide) hw
      obtain ⟨r1, r2, _⟩ := remember_v 2 x y (setTemps e 2 x y { t.s with countdown := false, ends := 1 })
      rw [r1, r2, f1, f2]
      exact ⟨h1, hw⟩
    have hi := ih (masterPass e t p).1 (by rw [b]; exact hn.1) (by rw [b]; exact hn.2) (fun q hq => hp q (List.mem_cons_of_mem _ hq))
    refine ⟨?_, hi.2⟩
    unfold regulated
    rw [a]
    exact hi.1

/-- When the sensor forbids the mode, nothing but the timer changes in a thermostat on its own weekly schedule. -/
theorem setPlain_blocked (e : Env) (m : Nat) (s : St) (hb : e.blocked = true) (hm : m ≠ 1) (hw : s.weekly = true) :
    setPlain e m false s = { s with countdown := false } := by
  unfold setPlain
  dsimp only
  rw [if_neg (show ¬ (s.v.mode = m ∧ ¬ (false = false ∧ s.weekly = true)) from fun q => q.2 ⟨rfl, hw⟩), if_pos ⟨hb, hm⟩]

/-- A thermostat on its own weekly schedule (not overridden) whose sensor forbids the master's mode goes
on regulating: the master does not make it wait. -/
theorem blocked_schedule_runs (e : Env) (t : Timed) (p : Pass) (hb : e.blocked = true) (hw : t.s.weekly = true) (ho : t.s.over = -1)
    (hm : p.mv.mode = 2 ∨ p.mv.mode = 3 ∨ p.mv.mode = 4) (hs : e.sup p.mv.mode = true) (h0 : t.stamp = 0) :
    (masterPass e t p).2.isSome = true := by
  have hstamp : takeOverStamps e p.n p.mv t.s = false := by
    unfold takeOverStamps
    rw [if_pos hs]
    dsimp only
    rw [setTarget_plain e p.n _ false _ (by omega), setPlain_blocked e _ { t.s with countdown := false, ends := 1 } hb (show p.mv.mode ≠ 1 by omega) hw]
    unfold tempsStamp modeStamps
    dsimp only
    rw [hb, hw, ho, decide_eq_true (show p.mv.mode ≠ 1 by omega), decide_eq_false (show ¬ (p.mv.mode ≠ 9 ∧ true = false) from fun q => by cases q.2)]
    rw [show decide ((-1 : Int) ≠ -1) = false by decide]
    simp
  have hst : stampAt e t p = 0 := by
    unfold stampAt
    rw [hstamp, Bool.and_false, if_neg Bool.false_ne_true, h0]
  unfold masterPass
  dsimp only
  rw [hst, if_neg (show ¬ waits 0 p.ms = true from fun q => by unfold waits at q; exact (of_decide_eq_true q).1 rfl)]
  rfl

/-- If its schedule is overridden the set point is taken over, and it waits. -/
theorem override_waits (e : Env) (t : Timed) (p : Pass) (hb : e.blocked = true) (hw : t.s.weekly = true) (ho : t.s.over ≠ -1)
    (hd : differs p.mv t.s = true) (hm : p.mv.mode = 2) (hh : p.mv.heat ≠ unset) (hs : e.sup 2 = true) (hc : clk p.ms ≠ 0) :
    (masterPass e t p).2 = none := by
  have hstamp : takeOverStamps e p.n p.mv t.s = true := by
    unfold takeOverStamps
    rw [hm, if_pos hs]
    dsimp only
    rw [setTarget_plain e p.n 2 false _ (by omega), setPlain_blocked e 2 { t.s with countdown := false, ends := 1 } hb (by decide) hw]
    unfold tempsStamp
    dsimp only
    rw [show (mask 2 p.mv.heat p.mv.cool).1 = p.mv.heat from rfl, hw, decide_eq_true ho, if_neg (show ¬ (true = false ∧ p.mv.heat = unset) from fun q => by cases q.1),
      decide_eq_true hh]
    simp
  have hst : stampAt e t p = clk p.ms := by
    unfold stampAt
    rw [hd, hstamp]
    rfl
  have hwt : waits (clk p.ms) p.ms = true := by
    unfold waits
    rw [since_clk_self]
    exact decide_eq_true ⟨hc, by decide⟩
  unfold masterPass
  dsimp only
  rw [hst, hwt, if_pos rfl]

example : (masterPass { exSlave with blocked := true } ⟨{ exT.s with weekly := true, over := 1 }, 0⟩ ⟨1000, exN, ⟨2, 2200, 0, true, false⟩⟩).2 = none :=
  override_waits _ _ _ rfl rfl (by decide) (by decide) rfl (by decide) rfl (by decide)

/-- Full claim: with a master that does not change, the regulation (and so the sensor) is reached within ten seconds. -/
def SensorSeen (e : Env) : Prop := ∀ (t : Timed) (n : Now) (mv : Val), Possible e mv → t.stamp = 0 →
  regulated e t ((List.range 10).map fun i => ⟨1000 * (i + 1), n, mv⟩) ≠ []

theorem sensor_violation : ¬ SensorSeen { exSlave with blocked := true } := by
  intro h
  refine h ⟨{ St.init with v := ⟨1, 2000, 0, true, false⟩ }, 0⟩ exN ⟨2, 2000, 0, true, false⟩ ⟨by decide, by decide, by decide⟩ rfl ?_
  refine (sensor_forgotten _ rfl rfl _ _ rfl rfl ?_).1
  intro p hp
  obtain ⟨i, hi, rfl⟩ := List.mem_map.1 hp
  have := List.mem_range.1 hi
  refine ⟨rfl, show (2000 : Int) ≠ unset by decide, ?_⟩
  show 1000 * (i + 1) % 2 ^ 32 ≠ 0
  omega

/-- A thermostat in its own weekly schedule regulates by its schedule when the program changes. -/
theorem own_schedule_violation : ¬ FollowsMaster exSlave := by
  intro h
  have h1 := h ⟨{ exT.s with weekly := true }, 0⟩ [⟨1000, { exN with prog := ⟨2, 2500, 0⟩ }, ⟨2, 2000, 0, true, false⟩⟩]
    (by intro p hp; rw [List.mem_singleton.1 hp]; exact ⟨by decide, by decide, by decide⟩)
    (⟨2, 2000, 0, true, false⟩, { exT.s with weekly := true, v := ⟨2, 2500, 0, true, false⟩ }) (by decide +kernel)
  unfold Agrees at h1
  rw [if_pos (by decide)] at h1
  exact absurd (h1.2.1 (by decide)) (by decide)

/-- Non-vacuity: the master goes from 20 to 22 degrees, then to cooling, then off. -/
example : (regulated exSlave exT [⟨1000, exN, ⟨2, 2200, 0, true, false⟩⟩, ⟨2000, exN, ⟨2, 2200, 0, true, false⟩⟩, ⟨6000, exN, ⟨2, 2200, 0, true, false⟩⟩,
    ⟨7000, exN, ⟨3, 2200, 2500, true, false⟩⟩, ⟨12000, exN, ⟨3, 2200, 2500, true, false⟩⟩, ⟨18000, exN, ⟨1, 2200, 0, true, false⟩⟩]).map
      (fun x => (x.2.v.mode, x.2.v.heat)) = [(2, 2200), (1, 2200), (1, 2200)] := by decide +kernel

example : Possible exSlave ⟨2, 2200, 0, true, false⟩ ∧ Manually exT.s := ⟨⟨by decide, by decide, by decide⟩, rfl, rfl⟩

end Verif.Hvac.Mode
