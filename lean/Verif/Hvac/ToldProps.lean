import Verif.Hvac.Told
/-! # Thermostat: the time left is told truly -/
namespace Verif.Hvac.Told
open Verif.Hvac.Mode

/-! ### Specification -/

/-- The seconds the app shows at `now`, by the clock of the device. -/
def shows (d : Dev) (now : Int) : Int :=
  match d.srv with
  | none => 0
  | some m => max 0 (m.at_ + m.left - now)

/-- The clock read in an operation. -/
def clockOf : Mode.Op → Now
  | .target n _ _ => n
  | .apply n _ _ _ _ => n
  | .server n _ _ => n
  | .button n _ _ => n
  | .pass n => n

/-- A duration given on the device fits `int32_t`, one of the server fits its unsigned field. -/
def FitsDur : Mode.Op → Prop
  | .apply _ _ _ _ d => d < 2 ^ 31
  | .server _ _ d => d < 2 ^ 32
  | _ => True

/-- The clock read in an event. -/
def Ev.clock? : Ev → Option Now
  | .op o => some (clockOf o)
  | .registered => none
  | .connected n _ => some n

/-- The last time known after an event. -/
def Ev.time (t : Int) (v : Ev) : Int :=
  match v.clock? with
  | none => t
  | some n => if n.ready then n.now else t

/-- Durations fit. -/
def Ev.Fits : Ev → Prop
  | .op o => FitsDur o
  | _ => True

/-- The clock, when it is set, does not go back and shows a time before 2038. -/
def Forward : Int → List Ev → Prop
  | _, [] => True
  | t, v :: l => v.Fits ∧ t ≤ v.time t ∧ v.time t ≤ 2 ^ 31 ∧ Forward (v.time t) l

/-! ### The end of the countdown in the operations -/

theorem ends_ite {p : Prop} [Decidable p] (a b : St) (x : Int) (ha : a.ends = x) (hb : b.ends = x) : (if p then a else b).ends = x := by
  split <;> assumption

theorem setHeat_ends (e : Env) (t : Int) (s : St) : (setHeat e t s).ends = s.ends := (setHeat_frame e t s).2.2.2.2.2
theorem setCool_ends (e : Env) (t : Int) (s : St) : (setCool e t s).ends = s.ends := (setCool_frame e t s).2.2.2.2.2
theorem fix_ends (e : Env) (s : St) : (fix e s).ends = s.ends := (fix_frame e s).2.2.2.2.2

theorem setPlain_ends (e : Env) (m : Nat) (k : Bool) (s : St) : (setPlain e m k s).ends = s.ends := by
  unfold setPlain
  dsimp only
  refine ends_ite _ _ _ rfl (ends_ite _ _ _ rfl (ends_ite _ _ _ (ends_ite _ _ _ rfl rfl) ?_))
  rw [fix_ends]
  refine ends_ite _ _ _ ?_ ?_
  · refine ends_ite _ _ _ (ends_ite _ _ _ ?_ ?_) (ends_ite _ _ _ ?_ ?_)
    all_goals (repeat' split) <;> rfl
  · refine ends_ite _ _ _ (ends_ite _ _ _ ?_ ?_) (ends_ite _ _ _ ?_ ?_)
    all_goals (repeat' split) <;> rfl

theorem process_ends (e : Env) (n : Now) (s : St) : (process e n s).1.ends = s.ends := by
  unfold process
  dsimp only
  split
  · rfl
  split
  · rfl
  split
  · exact setPlain_ends ..
  split
  · exact ends_ite _ _ _ (setPlain_ends ..) rfl
  · rw [setCool_ends, setHeat_ends, setPlain_ends]

theorem onWeekly_ends (e : Env) (n : Now) (s : St) : (onWeekly e n s).1.ends = s.ends := by
  unfold onWeekly
  split
  · rfl
  · exact process_ends ..

theorem turnOn_ends (e : Env) (n : Now) (s : St) : (turnOn e n s).ends = s.ends := by
  unfold turnOn
  dsimp only
  refine ends_ite _ _ _ (onWeekly_ends ..) ?_
  rw [setPlain_ends]
  have h : ∀ t : St, t.ends = s.ends → ∀ (w : Val),
      (if w.coolSet = true then setCool e w.cool (if w.heatSet = true then setHeat e w.heat t else t)
        else (if w.heatSet = true then setHeat e w.heat t else t)).ends = s.ends := by
    intro t ht w
    have h1 : (if w.heatSet = true then setHeat e w.heat t else t).ends = s.ends := ends_ite _ _ _ ((setHeat_ends ..).trans ht) ht
    exact ends_ite _ _ _ ((setCool_ends ..).trans h1) h1
  apply h
  split <;> rfl

theorem setTarget_ends (e : Env) (n : Now) (m : Nat) (k : Bool) (s : St) : (setTarget e n m k s).ends = s.ends := by
  unfold setTarget
  dsimp only
  refine ends_ite _ _ _ (ends_ite _ _ _ rfl ?_) (ends_ite _ _ _ (ends_ite _ _ _ rfl (ends_ite _ _ _ rfl ?_)) (setPlain_ends ..))
  · rw [fix_ends]
    exact ends_ite _ _ _ ((turnOn_ends ..).trans (ends_ite _ _ _ rfl rfl)) (ends_ite _ _ _ rfl rfl)
  · exact ends_ite _ _ _ ((fix_ends ..).trans (onWeekly_ends ..)) (onWeekly_ends ..)

theorem resolve_ends (e : Env) (n : Now) (m : Nat) (tH tC : Int) (s : St) : (resolve e n m tH tC s).1.ends = s.ends := by
  unfold resolve
  have hp : (if m = 0 then (if (s.weekly && !e.swManual) = true then ({ s with over := (n.progId : Int) }, 9) else (s, 10)) else (s, m) : St × Nat).1.ends = s.ends := by
    (repeat' split) <;> rfl
  generalize (if m = 0 then (if (s.weekly && !e.swManual) = true then ({ s with over := (n.progId : Int) }, 9) else (s, 10)) else (s, m) : St × Nat) = p at *
  obtain ⟨x, y⟩ := p
  dsimp only at hp ⊢
  (repeat' split) <;> exact hp

theorem setTemps_ends (e : Env) (m : Nat) (tH tC : Int) (s : St) : (setTemps e m tH tC s).ends = s.ends := by
  unfold setTemps
  dsimp only
  exact ends_ite _ _ _ ((setCool_ends ..).trans (setHeat_ends ..)) rfl

theorem applyBody_ends (e : Env) (n : Now) (m : Nat) (tH tC dur : Int) (s : St) : (applyBody e n m tH tC dur s).ends = s.ends := by
  unfold applyBody
  dsimp only
  rw [(remember_v ..).2.2.2.2]
  exact ends_ite _ _ _ ((setTemps_ends ..).trans (setTarget_ends ..)) ((setTemps_ends ..).trans (setTarget_ends ..))

/-- A command leaves the end, clears it or sets it. -/
theorem apply_ends (e : Env) (n : Now) (m : Nat) (tH tC dur : Int) (s : St) :
    (Mode.apply e n m tH tC dur s).1.ends = s.ends ∨ (Mode.apply e n m tH tC dur s).1.ends = 1 ∨
    (n.ready = true ∧ 0 < dur ∧ (Mode.apply e n m tH tC dur s).1.ends = n.now + dur) := by
  unfold Mode.apply
  dsimp only
  have hr : (resolve e n m tH tC (if m = 9 then { s with over := -1 } else s)).1.ends = s.ends :=
    (resolve_ends ..).trans (ends_ite _ _ _ rfl rfl)
  generalize resolve e n m tH tC (if m = 9 then { s with over := -1 } else s) = r at *
  split
  · exact Or.inl hr
  split
  · rename_i hd
    split
    · rename_i hn
      refine Or.inr (Or.inr ⟨hn, hd, ?_⟩)
      rw [applyBody_ends]
      exact ends_ite _ _ _ rfl rfl
    · exact Or.inl hr
  · right; left
    rw [applyBody_ends]

theorem pass_ends (e : Env) (n : Now) (s : St) :
    (passMode e n s).ends = if s.countdown = true ∧ s.ends ≤ (if n.ready then n.now else 0) then 1 else s.ends := by
  have hx : (expire e n s).ends = if s.countdown = true ∧ s.ends ≤ (if n.ready then n.now else 0) then 1 else s.ends := by
    unfold expire
    generalize (if n.ready = true then n.now else 0) = k
    split <;> rfl
  unfold passMode
  dsimp only
  have h2 : (if e.sup (expire e n s).v.mode = true then expire e n s else setTarget e n 1 false (expire e n s)).ends =
      if s.countdown = true ∧ s.ends ≤ (if n.ready then n.now else 0) then 1 else s.ends :=
    ends_ite _ _ _ hx ((setTarget_ends ..).trans hx)
  exact ends_ite _ _ _ ((process_ends ..).trans h2) h2

/-- Any operation leaves the end, clears it, or sets it to a duration from now. -/
theorem op_ends (e : Env) (s : St) (o : Mode.Op) (hf : FitsDur o) :
    (o.run e s).ends = s.ends ∨ (o.run e s).ends = 1 ∨
    ((clockOf o).ready = true ∧ ∃ dur, 0 < dur ∧ dur < 2 ^ 31 ∧ (o.run e s).ends = (clockOf o).now + dur) := by
  cases o with
  | target n m k => exact Or.inl (setTarget_ends ..)
  | apply n m tH tC d =>
    rcases apply_ends e n m tH tC d s with h | h | ⟨h1, h2, h3⟩
    · exact Or.inl h
    · exact Or.inr (Or.inl h)
    · exact Or.inr (Or.inr ⟨h1, d, h2, hf, h3⟩)
  | server n v d =>
    simp only [Mode.Op.run, Mode.server]
    generalize hD : (if d < 2 ^ 31 then (d : Int) else (d : Int) - 2 ^ 32) = D
    have hlt : 0 < D → D < 2 ^ 31 := by
      intro h0
      by_cases hd : d < 2 ^ 31
      · rw [if_pos hd] at hD; omega
      · rw [if_neg hd] at hD
        have hf' : d < 2 ^ 32 := hf
        omega
    generalize (if v.mode = 9 then unset else if (v.coolSet && e.inRoom v.cool) = true then v.cool else s.manCool) = c
    generalize (if v.mode = 9 then unset else if (v.heatSet && e.inRoom v.heat) = true then v.heat else s.manHeat) = h
    rcases apply_ends e n v.mode h c D s with h | h | ⟨h1, h2, h3⟩
    · exact Or.inl h
    · exact Or.inr (Or.inl h)
    · exact Or.inr (Or.inr ⟨h1, D, h2, hlt h2, h3⟩)
  | button n a b =>
    have key : ∀ x y, (Mode.apply e n 0 x y 0 s).1.ends = s.ends ∨ (Mode.apply e n 0 x y 0 s).1.ends = 1 := by
      intro x y
      rcases apply_ends e n 0 x y 0 s with h | h | ⟨_, h2, _⟩
      · exact Or.inl h
      · exact Or.inr h
      · omega
    have : (changeBy e n a b s).ends = s.ends ∨ (changeBy e n a b s).ends = 1 := by
      unfold changeBy
      dsimp only
      cases e.fn <;> exact key _ _
    rcases this with h | h
    · exact Or.inl h
    · exact Or.inr (Or.inl h)
  | pass n =>
    simp only [Mode.Op.run, pass_ends]
    generalize (if n.ready = true then n.now else 0) = k
    split
    · exact Or.inr (Or.inl rfl)
    · exact Or.inl rfl

/-! ### What the server knows -/

/-- The invariant: what was marked as told is what the server was told. -/
structure Inv (t : Int) (d : Dev) : Prop where
  lo : 1 ≤ d.s.ends
  hi : d.s.ends ≤ t + (2 ^ 31 - 1)
  t1 : 1 ≤ t
  t2 : t ≤ 2 ^ 31
  srv : d.mark = 0 ∨ ∃ m, d.srv = some m ∧ m.at_ ≤ t ∧ m.left = max 0 ((d.mark : Int) - m.at_)

theorem inv_init : Inv 1 Dev.init := ⟨by decide, by decide, by decide, by decide, Or.inl rfl⟩

theorem connected_told (n : Now) (real : Int) (d : Dev) (h1 : 1 ≤ d.s.ends) (h2 : d.s.ends ≤ n.now + (2 ^ 31 - 1)) (h3 : n.now ≤ 2 ^ 31)
    (hr : n.ready = true) (hm : (d.mark : Int) ≠ d.s.ends) :
    (connected n real d).s = d.s ∧ ((connected n real d).mark : Int) = d.s.ends ∧
    (connected n real d).srv = some ⟨n.now, real, max 0 (d.s.ends - n.now), d.s.wm⟩ := by
  have e1 : endAfter d.s.ends n.now = d.s.ends := by
    unfold endAfter
    rw [if_neg (by omega)]
  have e2 : leftAt d.s.ends n.now = max 0 (d.s.ends - n.now) := by
    unfold leftAt
    split
    · rw [if_neg (by omega)]; omega
    · omega
  unfold connected
  rw [if_pos ⟨hm, hr⟩, e1, e2]
  refine ⟨rfl, ?_, rfl⟩
  dsimp only
  omega

theorem inv_step (e : Env) (t : Int) (d : Dev) (v : Ev) (h : Inv t d) (hf : v.Fits) (h1 : t ≤ v.time t) (h2 : v.time t ≤ 2 ^ 31) :
    Inv (v.time t) (step e d v) := by
  obtain ⟨i1, i2, i3, i4, i5⟩ := h
  have i5' : d.mark = 0 ∨ ∃ m, d.srv = some m ∧ m.at_ ≤ v.time t ∧ m.left = max 0 ((d.mark : Int) - m.at_) := by
    rcases i5 with h | ⟨m, a, b, c⟩
    · exact Or.inl h
    · exact Or.inr ⟨m, a, by omega, c⟩
  cases v with
  | op o =>
    refine ⟨?_, ?_, by omega, h2, i5'⟩
    · rcases op_ends e d.s o hf with h | h | ⟨hr, dur, a, b, c⟩
      · simp only [step, h]; omega
      · simp only [step, h]; omega
      · have : (Ev.op o).time t = (clockOf o).now := by simp [Ev.time, Ev.clock?, hr]
        simp only [step, c]; omega
    · rcases op_ends e d.s o hf with h | h | ⟨hr, dur, a, b, c⟩
      · simp only [step, h]; omega
      · simp only [step, h]; omega
      · have : (Ev.op o).time t = (clockOf o).now := by simp [Ev.time, Ev.clock?, hr]
        simp only [step, c]; omega
  | registered => exact ⟨i1, i2, i3, i4, Or.inl rfl⟩
  | connected n real =>
    simp only [step]
    by_cases hc : (d.mark : Int) ≠ d.s.ends ∧ n.ready = true
    · have ht : (Ev.connected n real).time t = n.now := by simp [Ev.time, Ev.clock?, hc.2]
      rw [ht] at h1 h2 ⊢
      obtain ⟨c1, c2, c3⟩ := connected_told n real d i1 (by omega) h2 hc.2 hc.1
      refine ⟨by rw [c1]; exact i1, by rw [c1]; omega, by omega, h2, Or.inr ⟨_, c3, Int.le_refl _, ?_⟩⟩
      rw [c2]
    · unfold connected
      rw [if_neg hc]
      exact ⟨i1, by omega, by omega, h2, i5'⟩

/-- The last time known after a history. -/
def last (t : Int) (l : List Ev) : Int := l.foldl Ev.time t

theorem inv_run (e : Env) (l : List Ev) : ∀ t d, Inv t d → Forward t l → Inv (last t l) (run e d l) := by
  induction l with
  | nil => intro t d h _; exact h
  | cons v l ih =>
    intro t d h hf
    obtain ⟨f1, f2, f3, f4⟩ := hf
    exact ih _ _ (inv_step e t d v h f1 f2 f3) f4

theorem forward_append (l : List Ev) (l' : List Ev) : ∀ t, Forward t (l ++ l') ↔ Forward t l ∧ Forward (last t l) l' := by
  induction l with
  | nil => intro t; simp [Forward, last]
  | cons v l ih =>
    intro t
    have := ih (v.time t)
    simp only [List.cons_append, Forward, last, List.foldl_cons] at this ⊢
    rw [this]
    constructor
    · rintro ⟨a, b, c, d, f⟩; exact ⟨⟨a, b, c, d⟩, f⟩
    · rintro ⟨⟨a, b, c, d⟩, f⟩; exact ⟨a, b, c, d, f⟩

theorem run_append (e : Env) (d : Dev) (l l' : List Ev) : run e d (l ++ l') = run e (run e d l) l' := by
  unfold run; rw [List.foldl_append]

/-! ### Theorems -/

/-- **The app shows the time left.**  After any history, once the loop has turned while registered and the clock is set, the app shows exactly the time
that is left until the end of the countdown, then and at every later moment until something changes; telling it changes nothing in the thermostat. -/
theorem app_shows_time_left (e : Env) (l : List Ev) (n : Now) (real : Int) (hr : n.ready = true) (hf : Forward 1 (l ++ [.connected n real]))
    (now : Int) (hn : n.now ≤ now) :
    (run e Dev.init (l ++ [.connected n real])).s = (run e Dev.init l).s ∧
    shows (run e Dev.init (l ++ [.connected n real])) now = max 0 ((run e Dev.init l).s.ends - now) := by
  rw [forward_append] at hf
  obtain ⟨f1, f2⟩ := hf
  have hi := inv_run e l 1 Dev.init inv_init f1
  rw [run_append]
  generalize run e Dev.init l = d at *
  generalize last 1 l = t at *
  obtain ⟨i1, i2, i3, i4, i5⟩ := hi
  obtain ⟨-, g1, g2, -⟩ := f2
  have ht : (Ev.connected n real).time t = n.now := by simp [Ev.time, Ev.clock?, hr]
  rw [ht] at g1 g2
  simp only [run, List.foldl_cons, List.foldl_nil, step]
  by_cases hm : (d.mark : Int) = d.s.ends
  · have hc : connected n real d = d := by
      unfold connected
      rw [if_neg (by simp [hm])]
    rw [hc]
    refine ⟨rfl, ?_⟩
    rcases i5 with h | ⟨m, a, b, c⟩
    · omega
    · unfold shows
      rw [a]
      dsimp only
      rw [c, hm]
      omega
  · obtain ⟨c1, c2, c3⟩ := connected_told n real d i1 (by omega) g2 hr hm
    refine ⟨c1, ?_⟩
    unfold shows
    rw [c3]
    dsimp only
    omega

/-- **The display agrees.**  The time left on the device's own display is the one the app shows. -/
theorem display_agrees (e : Env) (l : List Ev) (n : Now) (real : Int) (hr : n.ready = true) (hf : Forward 1 (l ++ [.connected n real])) :
    remaining n (run e Dev.init (l ++ [.connected n real])).s = shows (run e Dev.init (l ++ [.connected n real])) n.now := by
  obtain ⟨h1, h2⟩ := app_shows_time_left e l n real hr hf n.now (Int.le_refl _)
  rw [h1, h2]
  rw [forward_append] at hf
  obtain ⟨f1, f2⟩ := hf
  have hi := inv_run e l 1 Dev.init inv_init f1
  generalize run e Dev.init l = d at *
  generalize last 1 l = t at *
  obtain ⟨i1, i2, i3, i4, i5⟩ := hi
  obtain ⟨-, g1, g2, -⟩ := f2
  have ht : (Ev.connected n real).time t = n.now := by simp [Ev.time, Ev.clock?, hr]
  rw [ht] at g1 g2
  clear i5 h1 h2 ht
  unfold remaining
  have hw : w32 (d.s.ends - n.now) = d.s.ends - n.now := by unfold w32; omega
  rw [hw]
  by_cases he : d.s.ends ≤ 1
  · rw [if_pos he]; omega
  · rw [if_neg he, if_neg (by simp [hr])]
    split <;> omega

/-- **Told again.**  After a registration the first turn of the loop with a set clock tells the time left and the mode that will come back. -/
theorem told_after_registration (e : Env) (l : List Ev) (n : Now) (real : Int) (hr : n.ready = true)
    (hf : Forward 1 (l ++ [.registered, .connected n real])) :
    (run e Dev.init (l ++ [.registered, .connected n real])).srv =
      some ⟨n.now, real, max 0 ((run e Dev.init l).s.ends - n.now), (run e Dev.init l).s.wm⟩ := by
  rw [forward_append] at hf
  obtain ⟨f1, f2⟩ := hf
  have hi := inv_run e l 1 Dev.init inv_init f1
  rw [run_append]
  generalize run e Dev.init l = d at *
  generalize last 1 l = t at *
  obtain ⟨i1, i2, i3, i4, i5⟩ := hi
  obtain ⟨-, -, -, -, g1, g2, -⟩ := f2
  have e0 : Ev.time t Ev.registered = t := rfl
  have ht : (Ev.connected n real).time t = n.now := by simp [Ev.time, Ev.clock?, hr]
  rw [e0, ht] at g1 g2
  simp only [run, List.foldl_cons, List.foldl_nil, step]
  exact (connected_told n real { d with mark := 0 } i1 (by dsimp only; omega) g2 hr (by dsimp only; omega)).2.2

/-- **A new timer.**  A countdown started by an accepted command lasts as long as asked for, and the next turn of the loop tells so. -/
theorem new_timer_told (e : Env) (l : List Ev) (n n' : Now) (real : Int) (m : Nat) (tH tC dur : Int) (hb : e.blocked = false) (hm : Manual e m)
    (hd : 0 < dur) (hr : n.ready = true) (hc : (run e Dev.init l).s.countdown = false) (hr' : n'.ready = true) (hn : n'.now ≤ n.now + dur)
    (hf : Forward 1 (l ++ [.op (.apply n m tH tC dur), .connected n' real])) :
    shows (run e Dev.init (l ++ [.op (.apply n m tH tC dur), .connected n' real])) n'.now = n.now + dur - n'.now := by
  have h1 : l ++ [Ev.op (.apply n m tH tC dur), .connected n' real] = (l ++ [.op (.apply n m tH tC dur)]) ++ [.connected n' real] := by simp
  rw [h1] at hf ⊢
  have h2 := (app_shows_time_left e _ n' real hr' hf n'.now (Int.le_refl _)).2
  rw [h2, run_append]
  generalize run e Dev.init l = d at *
  have h3 := (start_timer e n m tH tC dur d.s hb hm hd hr hc).2.2.2.1
  simp only [run, List.foldl_cons, List.foldl_nil, step, Mode.Op.run]
  rw [h3]
  omega

/-! ### Where it is not so -/

/-- The claim: a countdown is shown only while it counts. -/
def ShownOnlyWhileCounting (e : Env) : Prop :=
  ∀ (l : List Ev) (n : Now) (real : Int), n.ready = true → Forward 1 (l ++ [.connected n real]) →
    0 < shows (run e Dev.init (l ++ [.connected n real])) n.now → (run e Dev.init l).s.countdown = true

/-- **A lost countdown goes on being shown.**  A pass that forgets a countdown before its end leaves the end as it was; by `app_shows_time_left` the app
goes on showing it. -/
theorem lost_countdown (e : Env) (n : Now) (s : St) (h : (if n.ready then n.now else 0) < s.ends) : (passMode e n s).ends = s.ends := by
  rw [pass_ends, if_neg (by omega)]

/-- The weekly schedule for an hour: the next pass forgets the countdown, the app shows it to its end. -/
theorem shown_violation : ¬ ShownOnlyWhileCounting exH := by
  intro h
  have := h [.op (.apply (exNow 100) 9 unset unset 3600), .op (.pass (exNow 101))] (exNow 102) 102 rfl
    (by simp [Forward, Ev.Fits, FitsDur, Ev.time, Ev.clock?, clockOf, exNow]) (by decide +kernel)
  revert this
  decide +kernel

/-- The claim: the countdown the app shows ends when that of the device does, in real time, also after the clock was corrected. -/
def RightAfterCorrection (e : Env) : Prop :=
  ∀ (l : List Ev) (n : Now) (real : Int), n.ready = true → n.now < (run e Dev.init l).s.ends →
    ∃ m, (run e Dev.init (l ++ [.connected n real])).srv = some m ∧ m.real + m.left = (run e Dev.init l).s.ends + (real - n.now)

/-- **Not after a correction.**  What was told is not told again, so the app is wrong by exactly the correction of the clock. -/
theorem wrong_by_correction (n : Now) (real : Int) (d : Dev) (m : Msg) (hs : d.srv = some m) (hm : (d.mark : Int) = d.s.ends)
    (hl : m.left = d.s.ends - m.at_) :
    (connected n real d).srv = some m ∧ (d.s.ends + (real - n.now)) - (m.real + m.left) = (real - n.now) - (m.real - m.at_) := by
  unfold connected
  rw [if_neg (by simp [hm])]
  exact ⟨hs, by omega⟩

/-- A timer of an hour; the clock is put back by ten minutes: the app shows the end ten minutes too early. -/
theorem correction_violation : ¬ RightAfterCorrection exH := by
  intro h
  obtain ⟨m, h1, h2⟩ := h [.op (.apply (exNow 1000000) 2 2300 unset 3600), .connected (exNow 1000000) 1000000] (exNow 999410) 1000010 rfl
    (by decide +kernel)
  have hk : (run exH Dev.init [.op (.apply (exNow 1000000) 2 2300 unset 3600), .connected (exNow 1000000) 1000000]).s.ends = 1003600 := by decide +kernel
  have hs : (run exH Dev.init ([.op (.apply (exNow 1000000) 2 2300 unset 3600), .connected (exNow 1000000) 1000000] ++ [.connected (exNow 999410) 1000010])).srv =
      some ⟨1000000, 1000000, 3600, ⟨0, 0, 0, false, false⟩⟩ := by decide +kernel
  rw [hs] at h1
  rw [hk] at h2
  cases h1
  revert h2
  decide

/-! ### The hypotheses are met -/

example : Forward 1 ([.registered, .op (.apply (exNow 100) 2 2300 unset 3600), .op (.pass (exNow 150))] ++ [.connected (exNow 200) 200]) := by
  simp [Forward, Ev.Fits, FitsDur, Ev.time, Ev.clock?, clockOf, exNow]

example : shows (run exH Dev.init ([.registered, .op (.apply (exNow 100) 2 2300 unset 3600), .op (.pass (exNow 150))] ++ [.connected (exNow 200) 200])) 1000 = 2700 := by
  decide +kernel

example : Manual exH 2 := ⟨Or.inr (Or.inl rfl), rfl⟩

end Verif.Hvac.Told
