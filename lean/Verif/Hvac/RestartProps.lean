import Verif.Hvac.Restart
import Verif.Hvac.PressProps
/-!
# Thermostat: power cut and restart, proofs
-/
namespace Verif.Hvac.Mode

/-! ### A temporary override exists on the schedule only -/

/-- Without the schedule no program is overridden; the timer ends at a positive time. -/
def Clean (s : St) : Prop := s.weekly = false → s.over = -1

theorem clean_frame {s t : St} (h : Frame s t) (hs : Clean s) : Clean t := by
  obtain ⟨_, f2, _, _, f5, _⟩ := h
  intro q
  rw [f5]
  exact hs (by rw [← f2]; exact q)

theorem clean_ite (p : Prop) [Decidable p] (a b : St) (ha : Clean a) (hb : Clean b) : Clean (if p then a else b) := by
  split <;> assumption

theorem setPlain_clean (e : Env) (m : Nat) (k : Bool) (s : St) (h : Clean s) : Clean (setPlain e m k s) := by
  unfold setPlain
  dsimp only
  refine clean_ite _ _ _ h (clean_ite _ _ _ h ?_)
  have h1 : Clean (if k = true then { s with countdown := false } else { s with countdown := false, over := -1 }) :=
    clean_ite _ _ _ h (fun _ => rfl)
  refine clean_ite _ _ _ h1 (clean_frame (fix_frame e _) ?_)
  cases k with
  | false =>
    by_cases m1 : m = 1
    · rw [if_neg Bool.false_ne_true, if_neg Bool.false_ne_true, if_pos m1]
      intro _
      dsimp only
      split <;> rfl
    · rw [if_neg Bool.false_ne_true, if_neg Bool.false_ne_true, if_neg m1]
      exact fun _ => rfl
  | true =>
    rw [if_pos rfl, if_pos rfl]
    by_cases m1 : m = 1
    · rw [if_pos m1, if_neg (show ¬ ((true : Bool) = false ∧ _) from fun q => by cases q.1)]
      exact h
    · rw [if_neg m1]
      exact h

theorem process_clean (e : Env) (n : Now) (s : St) (h : Clean s) : Clean (process e n s).1 := by
  unfold process
  by_cases c1 : (!s.weekly) = true
  · rw [if_pos c1]; exact h
  · rw [if_neg c1]
    by_cases c2 : (!n.ready && n.startup) = true
    · rw [if_pos c2]; exact h
    · rw [if_neg c2]
      by_cases c3 : n.prog.mode = 0
      · rw [if_pos c3]; exact setPlain_clean e 1 false s h
      · rw [if_neg c3]
        by_cases c4 : s.over ≠ -1 ∧ (n.progId : Int) = s.over
        · rw [if_pos c4]
          exact clean_ite _ _ _ (setPlain_clean e _ true s h) h
        · rw [if_neg c4]
          exact clean_frame ((setHeat_frame e _ _).trans (setCool_frame e _ _)) (setPlain_clean e _ true _ (fun _ => rfl))

theorem onWeekly_clean (e : Env) (n : Now) (s : St) (h : Clean s) : Clean (onWeekly e n s).1 := by
  unfold onWeekly
  by_cases c : (!e.sched) = true
  · rw [if_pos c]; exact h
  · rw [if_neg c]
    exact process_clean e n _ (fun q => by cases q)

theorem turnOn_clean (e : Env) (n : Now) (s : St) (h : Clean s) : Clean (turnOn e n s) := by
  unfold turnOn
  by_cases c : s.weekly = true ∨ s.wm.mode = 9
  · rw [if_pos c]; exact onWeekly_clean e n s h
  · rw [if_neg c]
    dsimp only
    refine setPlain_clean e _ false _ ?_
    have h1 : Clean (if (!e.sup s.wm.mode) = true then { s with wm := { s.wm with mode := 0 } } else s) := clean_ite _ _ _ h h
    generalize (if (!e.sup s.wm.mode) = true then { s with wm := { s.wm with mode := 0 } } else s) = u at *
    have h2 := clean_ite (u.wm.heatSet = true) _ _ (clean_frame (setHeat_frame e u.wm.heat u) h1) h1
    generalize (if u.wm.heatSet = true then setHeat e u.wm.heat u else u) = w at *
    exact clean_ite _ _ _ (clean_frame (setCool_frame e _ _) h2) h2

theorem setTarget_clean (e : Env) (n : Now) (m : Nat) (k : Bool) (s : St) (h : Clean s) : Clean (setTarget e n m k s) := by
  unfold setTarget
  by_cases m8 : m = 8
  · rw [if_pos m8]
    dsimp only
    refine clean_ite _ _ _ h (clean_frame (fix_frame e _) ?_)
    have h1 : Clean (if k = true then { s with countdown := false } else { s with countdown := false, over := -1 }) :=
      clean_ite _ _ _ h (fun _ => rfl)
    exact clean_ite _ _ _ (turnOn_clean e n _ h1) h1
  · rw [if_neg m8]
    by_cases m9 : m = 9
    · rw [if_pos m9]
      dsimp only
      have h2 := onWeekly_clean e n { s with countdown := false } h
      exact clean_ite _ _ _ h (clean_ite _ _ _ h (clean_ite _ _ _ (clean_frame (fix_frame e _) h2) h2))
    · rw [if_neg m9]; exact setPlain_clean e m k s h

theorem resolve_clean (e : Env) (n : Now) (m : Nat) (tH tC : Int) (s : St) (h : Clean s) : Clean (resolve e n m tH tC s).1 := by
  have key : (resolve e n m tH tC s).1 = s ∨ ((resolve e n m tH tC s).1 = { s with over := (n.progId : Int) } ∧ s.weekly = true) := by
    unfold resolve
    dsimp only
    by_cases m0 : m = 0
    · rw [if_pos m0]
      by_cases c : (s.weekly && !e.swManual) = true
      · right
        rw [if_pos c]
        rw [Bool.and_eq_true] at c
        exact ⟨rfl, c.1⟩
      · left
        rw [if_neg c]
        dsimp only
        rw [if_pos rfl]
        repeat' split
        all_goals rfl
    · left
      rw [if_neg m0]
      dsimp only
      repeat' split
      all_goals rfl
  rcases key with k | ⟨k, w⟩
  · rw [k]; exact h
  · rw [k]
    intro q
    exact absurd (q : s.weekly = false) (by rw [w]; decide)

theorem applyBody_clean (e : Env) (n : Now) (m : Nat) (tH tC dur : Int) (s : St) (h : Clean s) : Clean (applyBody e n m tH tC dur s) := by
  unfold applyBody
  dsimp only
  have h1 := clean_frame (setTemps_frame e m tH tC _).1 (setTarget_clean e n m false s h)
  generalize setTemps e m tH tC (setTarget e n m false s) = u at *
  have h2 : Clean (if dur > 0 then { u with countdown := true } else u) := clean_ite _ _ _ h1 h1
  generalize (if dur > 0 then { u with countdown := true } else u) = w at *
  unfold remember
  dsimp only
  refine clean_ite _ _ _ ?_ h2
  have h3 : Clean (if m = 4 ∨ m = 3 ∨ m = 2 then { w with manMode := m } else w) := clean_ite _ _ _ h2 h2
  generalize (if m = 4 ∨ m = 3 ∨ m = 2 then { w with manMode := m } else w) = x at *
  have h4 : Clean (if tH > unset then { x with manHeat := tH } else x) := clean_ite _ _ _ h3 h3
  generalize (if tH > unset then { x with manHeat := tH } else x) = y at *
  exact clean_ite _ _ _ h4 h4

theorem apply_clean (e : Env) (n : Now) (m : Nat) (tH tC dur : Int) (s : St) (h : Clean s) : Clean (apply e n m tH tC dur s).1 := by
  unfold apply
  dsimp only
  have h1 : Clean (if m = 9 then { s with over := -1 } else s) := clean_ite _ _ _ (fun _ => rfl) h
  have h2 := resolve_clean e n m tH tC _ h1
  generalize resolve e n m tH tC (if m = 9 then { s with over := -1 } else s) = r at *
  by_cases c1 : (!e.sup r.2) = true
  · rw [if_pos c1]; exact h2
  · rw [if_neg c1]
    by_cases c2 : dur > 0
    · rw [if_pos c2]
      by_cases c3 : n.ready = true
      · rw [if_pos c3]
        exact applyBody_clean e n _ _ _ _ _ (clean_ite _ _ _ h2 h2)
      · rw [if_neg c3]; exact h2
    · rw [if_neg c2]
      exact applyBody_clean e n _ _ _ _ _ h2

theorem passMode_clean (e : Env) (n : Now) (s : St) (h : Clean s) : Clean (passMode e n s) := by
  unfold passMode
  dsimp only
  have h1 : Clean (expire e n s) := by
    unfold expire
    exact clean_ite _ _ _ (turnOn_clean e n { s with countdown := false } h) h
  generalize expire e n s = u at *
  have h2 := clean_ite (e.sup u.v.mode = true) _ _ h1 (setTarget_clean e n 1 false u h1)
  generalize (if e.sup u.v.mode = true then u else setTarget e n 1 false u) = w at *
  exact clean_ite _ _ _ (process_clean e n w h2) h2

theorem op_clean (e : Env) (o : Op) (s : St) (h : Clean s) : Clean (Op.run e s o) := by
  cases o with
  | target n m k => exact setTarget_clean e n m k s h
  | apply n m tH tC d => exact apply_clean e n m tH tC d s h
  | server n v d => exact apply_clean e n _ _ _ _ s h
  | button n a b =>
    show Clean (changeBy e n a b s)
    unfold changeBy
    dsimp only
    cases e.fn <;> exact apply_clean e n _ _ _ _ s h
  | pass n => exact passMode_clean e n s h

theorem ops_clean (e : Env) (ops : List Op) : ∀ s, Clean s → Clean (ops.foldl (Op.run e) s) := by
  induction ops with
  | nil => exact fun _ h => h
  | cons o l ih => exact fun s h => ih _ (op_clean e o s h)

/-! ### A restart goes on where the thermostat was -/

theorem load_save (s : St) (h : Clean s) (hw : s.weekly = false) (he : 0 < s.ends) : load (save s) = s := by
  unfold load save
  dsimp only
  rw [if_neg (by omega), ← h hw]

/-- The full claim: after every history, a restart goes on where the thermostat was: what happens afterwards
is the same as without it. -/
def RestartGoesOn : Prop := ∀ (e : Env) (ops : List Op) (n : Now) (ops' : List Op), e.sched = true →
  0 < (ops.foldl (Op.run e) St.init).ends → (ops.foldl (Op.run e) St.init).v.mode ≠ 0 →
    (ops'.foldl (Op.run e) (restart e n (ops.foldl (Op.run e) St.init))).v = (ops'.foldl (Op.run e) (ops.foldl (Op.run e) St.init)).v

/-- It holds after every history that ends outside of the schedule: off, a mode by hand, with or without a
timer running. -/
theorem restart_goes_on_partial (e : Env) (ops : List Op) (n : Now) (hw : (ops.foldl (Op.run e) St.init).weekly = false)
    (he : 0 < (ops.foldl (Op.run e) St.init).ends) (hm : (ops.foldl (Op.run e) St.init).v.mode ≠ 0) :
    restart e n (ops.foldl (Op.run e) St.init) = ops.foldl (Op.run e) St.init := by
  have hc := ops_clean e ops St.init (fun _ => rfl)
  generalize ops.foldl (Op.run e) St.init = s at *
  unfold restart
  rw [load_save s hc hw he]
  unfold initMode
  rw [hw, if_neg Bool.false_ne_true, if_neg hm]

/-- A timed mode: heating for an hour, then back. -/
example : ((([Op.apply (exNow 0) 2 2300 unset 3600] : List Op).foldl (Op.run exH) St.init).weekly = false) ∧
    (([Op.apply (exNow 0) 2 2300 unset 3600] : List Op).foldl (Op.run exH) St.init).countdown = true ∧
    (([Op.apply (exNow 0) 2 2300 unset 3600] : List Op).foldl (Op.run exH) St.init).ends = 3600 := by decide

/-- On the schedule, while the clock is not set: everything but a temporary override is as before. -/
theorem restart_weekly (e : Env) (n : Now) (s : St) (hw : s.weekly = true) (he : 0 < s.ends) (hr : n.ready = false) (hs : n.startup = true) :
    restart e n s = { s with over := -1 } := by
  have hl : load (save s) = { s with over := -1 } := by
    unfold load save
    dsimp only
    rw [if_neg (by omega)]
  unfold restart
  rw [hl]
  unfold initMode
  rw [if_pos (show ({ s with over := -1 } : St).weekly = true from hw)]
  have hp : process e n { s with over := -1 } = ({ s with over := -1 }, false) := by
    unfold process
    rw [if_neg (by rw [show ({ s with over := -1 } : St).weekly = true from hw]; decide), if_pos (by rw [hr, hs]; rfl)]
  rw [hp]
  rfl

/-- On the schedule: once the clock is set, the program of the hour is in force. -/
theorem restart_program (e : Env) (n n' : Now) (s : St) (hb : e.blocked = false) (hw : s.weekly = true) (hc : s.countdown = false) (he : 0 < s.ends) (hr : n.ready = false) (hs : n.startup = true)
    (hm : e.sup s.v.mode = true) (hr' : n'.ready = true) (hp : Manual e n'.prog.mode) :
    (passMode e n' (restart e n s)).weekly = true ∧ (passMode e n' (restart e n s)).v.mode = n'.prog.mode := by
  rw [restart_weekly e n s hw he hr hs]
  unfold passMode expire
  rw [if_neg (show ¬ (({ s with over := -1 } : St).countdown = true ∧ _) from fun q => by rw [show ({ s with over := -1 } : St).countdown = false from hc] at q; cases q.1)]
  dsimp only
  rw [if_pos hm, if_pos hw]
  obtain ⟨k1, k2, _⟩ := process_on e n' { s with over := -1 } hb hw hr' hp rfl
  exact ⟨k1, k2⟩

/-- On the schedule with a clock that is set at once: the program of the hour is in force. -/
theorem restart_with_clock (e : Env) (n : Now) (s : St) (hb : e.blocked = false) (hw : s.weekly = true) (he : 0 < s.ends) (hr : n.ready = true) (hp : Manual e n.prog.mode) :
    restart e n s = (process e n { s with over := -1 }).1 ∧ (restart e n s).weekly = true ∧ (restart e n s).v.mode = n.prog.mode := by
  have hl : load (save s) = { s with over := -1 } := by
    unfold load save
    dsimp only
    rw [if_neg (by omega)]
  obtain ⟨k1, k2, _, _, k5⟩ := process_on e n { s with over := -1 } hb hw hr hp rfl
  have h0 : n.prog.mode ≠ 0 := by rcases hp.1 with q | q | q | q <;> omega
  have h1 : restart e n s = (process e n { s with over := -1 }).1 := by
    unfold restart
    rw [hl]
    unfold initMode
    rw [if_pos (show ({ s with over := -1 } : St).weekly = true from hw)]
    generalize process e n { s with over := -1 } = r at *
    dsimp only
    rw [k5, if_neg (show ¬ (!true) = true by decide), if_neg (by rw [k2]; exact h0)]
  rw [h1]
  exact ⟨rfl, k1, k2⟩

/-- The very first start: the default mode of the function. -/
theorem first_start (e : Env) (hd : e.fn ≠ .diff) (hb : e.blocked = false) (n : Now) : (restart e n St.init).v.mode = e.dflt ∧ (restart e n St.init).phase = .manual := by
  obtain ⟨d1, d2, d3⟩ := dflt_manual e hd
  have h1 : restart e n St.init = setPlain e e.dflt false St.init := by
    unfold restart initMode turnOn
    rfl
  rw [h1]
  obtain ⟨k1, k2, _⟩ := setPlain_mode e e.dflt St.init hb d3.2
  refine ⟨k1, ?_⟩
  unfold St.phase
  rw [k2, if_neg Bool.false_ne_true, if_neg (by rw [k1]; exact d1)]

/-- Start-up, clock not set. -/
def nowStart : Now := ⟨false, 0, true, 0, ⟨1, -32768, -32768⟩⟩

/-- A heating program of 20 degrees, raised to 23 by the user until the next program. -/
def overOps : List Op := [.apply (exNow 0) 9 unset unset 0, .button (exNow 10) 300 0]

/-- The user's temporary change is lost: 23 degrees before the restart, 20 afterwards. -/
theorem override_lost_violation : ¬ RestartGoesOn ∧ (overOps.foldl (Op.run exH) St.init).v.heat = 2300 ∧
    (passMode exH (exNow 20) (overOps.foldl (Op.run exH) St.init)).v.heat = 2300 ∧
    (passMode exH (exNow 20) (restart exH nowStart (overOps.foldl (Op.run exH) St.init))).v.heat = 2000 := by
  have h2 : (passMode exH (exNow 20) (overOps.foldl (Op.run exH) St.init)).v.heat = 2300 := by decide +kernel
  have h3 : (passMode exH (exNow 20) (restart exH nowStart (overOps.foldl (Op.run exH) St.init))).v.heat = 2000 := by decide +kernel
  refine ⟨fun h => ?_, by decide +kernel, h2, h3⟩
  have := congrArg Val.heat (h exH overOps nowStart [.pass (exNow 20)] rfl (by decide +kernel) (by decide +kernel))
  change (passMode exH (exNow 20) (restart exH nowStart (overOps.foldl (Op.run exH) St.init))).v.heat =
    (passMode exH (exNow 20) (overOps.foldl (Op.run exH) St.init)).v.heat at this
  rw [h2, h3] at this
  cases this

/-! ### The timer after a restart -/

/-- Without a clock the timer does not end: however many passes, the timed mode goes on. -/
theorem timer_needs_clock (e : Env) (ns : List Now) : (∀ n ∈ ns, n.ready = false) → ∀ s : St, s.countdown = true → 0 < s.ends → s.weekly = false → e.sup s.v.mode = true →
    ns.foldl (fun s n => passMode e n s) s = s := by
  induction ns with
  | nil => exact fun _ s _ _ _ _ => rfl
  | cons n l ih =>
    intro hn s hc he hw hm
    have h1 : passMode e n s = s := by
      unfold passMode expire
      rw [if_neg (show ¬ (s.countdown = true ∧ s.ends ≤ if n.ready = true then n.now else 0) from fun q => by
        have := q.2
        rw [hn n (List.mem_cons_self ..), if_neg Bool.false_ne_true] at this
        omega)]
      dsimp only
      rw [if_pos hm, hw, if_neg Bool.false_ne_true]
    rw [List.foldl_cons, h1]
    exact ih (fun m hm => hn m (List.mem_cons_of_mem _ hm)) s hc he hw hm

/-- The full claim: a timed mode ends, after a restart too, at most `N` passes after its time. -/
def TimerEnds : Prop := ∀ (e : Env) (s : St) (n : Now), s.countdown = true → 0 < s.ends → s.weekly = false → e.sup s.v.mode = true → e.blocked = false →
  ∃ N : Nat, ∀ ns : List Now, N ≤ ns.length → (∀ m ∈ ns, s.ends ≤ m.now) → (ns.foldl (fun s n => passMode e n s) (restart e n s)).countdown = false

/-- It does at the first pass with a clock: the mode and set points from before the timer are back. -/
theorem timer_ends_partial (e : Env) (n n' : Now) (old s : St) (hb : e.blocked = false) (hu : unset < e.tMin) (ho : s.over = -1) (hc : s.countdown = true) (he : 0 < s.ends)
    (hw : s.weekly = false) (hm0 : s.v.mode ≠ 0) (hwm : s.wm = old.v) (hm : Manual e old.v.mode) (hg : GapIn e old) (hr : n'.ready = true) (ht : s.ends ≤ n'.now) :
    (passMode e n' (restart e n s)).countdown = false ∧ (passMode e n' (restart e n s)).v.mode = old.v.mode ∧ Restored e old (passMode e n' (restart e n s)) := by
  have h1 : restart e n s = s := by
    unfold restart
    rw [load_save s (fun _ => ho) hw he]
    unfold initMode
    rw [hw, if_neg Bool.false_ne_true, if_neg hm0]
  rw [h1]
  obtain ⟨k1, k2, k3, k4⟩ := turnOn_manual e n' old { s with countdown := false } hb hu hw hwm hm hg
  unfold passMode expire
  rw [if_pos (show s.countdown = true ∧ s.ends ≤ (if n'.ready = true then n'.now else 0) from ⟨hc, by rw [if_pos hr]; exact ht⟩)]
  generalize turnOn e n' { s with countdown := false } = u at *
  dsimp only
  rw [if_pos (show e.sup u.v.mode = true by rw [k1]; exact hm.2)]
  dsimp only
  rw [k2, if_neg Bool.false_ne_true]
  exact ⟨k3, k1, k4⟩

/-- It does not while there is no clock. -/
theorem timer_no_clock_violation : ¬ TimerEnds := by
  intro h
  obtain ⟨N, hN⟩ := h exH { exAt22 with countdown := true, ends := 100 } nowStart rfl (by decide) rfl rfl rfl
  have hr : restart exH nowStart { exAt22 with countdown := true, ends := 100 } = { exAt22 with countdown := true, ends := 100 } := by decide +kernel
  have := hN (List.replicate N { nowStart with now := 5000 }) (by rw [List.length_replicate]; exact Nat.le_refl N)
    (fun m hm => by rw [List.eq_of_mem_replicate hm]; decide)
  rw [hr, timer_needs_clock exH _ (fun n hn => by rw [List.eq_of_mem_replicate hn]; rfl) _ rfl (by decide) rfl rfl] at this
  cases this

end Verif.Hvac.Mode
