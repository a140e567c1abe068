import Verif.Relay.Spec
/-!
# C23 and C24: timed turn-on and restart of a relay
-/

namespace Verif.Relay

/-! ## Reachable relays -/

/-- Invariant of a running relay. -/
structure Ok (c : Config) (s : Relay) : Prop where
  keep : s.keep = s.timed
  stored : s.stored < 2 ^ 32
  dur : s.durationMs < 2 ^ 32
  min : s.minDur < 2 ^ 16
  high : s.highIsOn = c.highIsOn
  init : (c.default < 0 ∧ s.stateOnInit < 0) ∨ (¬ c.default < 0 ∧ s.stateOnInit = c.default)

theorem fixed_of_keep {s : Relay} (h : s.keep = s.timed) :
    (s.keep || s.isStair || s.isImpulse) = s.timed := by
  unfold Relay.timed at *; rw [h]; cases s.isStair <;> cases s.isImpulse <;> rfl

theorem isOn_turnOn (t d : Nat) (s : Relay) : (turnOn t d s).isOn = true := by
  simp [turnOn, Relay.isOn]

theorem isOn_turnOff (t d : Nat) (s : Relay) : (turnOff t d s).isOn = false := by
  unfold turnOff Relay.isOn; cases s.highIsOn <;> rfl

theorem turnOn_ok {c : Config} {s : Relay} (t d : Nat) (h : Ok c s) : Ok c (turnOn t d s) := by
  have hd : d % 2 ^ 32 < 2 ^ 32 := Nat.mod_lt _ (by decide)
  have hs := h.stored
  refine ⟨h.keep, ?_, ?_, h.min, h.high, h.init⟩
  · simp only [turnOn]; split <;> assumption
  · simp only [turnOn]; repeat' split
    all_goals assumption

theorem turnOff_ok {c : Config} {s : Relay} (t d : Nat) (h : Ok c s) : Ok c (turnOff t d s) :=
  ⟨h.keep, h.stored, Nat.mod_lt _ (by decide), h.min, h.high, h.init⟩

theorem withStored_ok {c : Config} {s : Relay} (d : Nat) (hd : d < 2 ^ 32) (h : Ok c s) :
    Ok c { s with stored := d } :=
  ⟨h.keep, hd, h.dur, h.min, h.high, h.init⟩

theorem toggle_ok {c : Config} {s : Relay} (t d : Nat) (h : Ok c s) : Ok c (toggle t d s) := by
  unfold toggle; split
  · exact turnOff_ok t d h
  · exact turnOn_ok t d h

theorem setFunction_ok {c : Config} {s : Relay} (f : Nat) (h : Ok c s) :
    Ok c (setFunction f s) := by
  unfold setFunction
  simp only []
  split
  · rename_i hk
    exact ⟨hk.symm, h.stored, h.dur, h.min, h.high, h.init⟩
  · rename_i hk
    refine ⟨?_, (by decide : 0 < 2 ^ 32), h.dur, h.min, h.high, h.init⟩
    show false = _
    exact (Bool.not_eq_true _ |>.mp hk).symm

theorem step_ok {c : Config} {s : Relay} (e : Nat × Op) (h : Ok c s) : Ok c (step s e) := by
  obtain ⟨t, o⟩ := e
  cases o with
  | turnOn d => exact turnOn_ok t d h
  | turnOff d => exact turnOff_ok t d h
  | toggle d => exact toggle_ok t d h
  | action a =>
    cases a with
    | turnOn => exact turnOn_ok t 0 h
    | turnOff => exact turnOff_ok t 0 h
    | toggle => exact toggle_ok t 0 h
    | turnOnWithoutTimer =>
      exact withStored_ok _ h.stored (turnOn_ok t 0 (withStored_ok 0 (by decide) h))
  | server v d =>
    show Ok c (server t v d s)
    unfold server
    split
    · exact h
    split
    · simp only []
      have hd : (if d % 2 ^ 32 < s.minDur then s.minDur else d % 2 ^ 32) < 2 ^ 32 := by
        have := h.min; split <;> omega
      generalize (if d % 2 ^ 32 < s.minDur then s.minDur else d % 2 ^ 32) = d' at hd
      have h1 : Ok c (if s.isImpulse then { s with stored := d' } else s) := by
        split
        · exact withStored_ok _ hd h
        · exact h
      generalize (if s.isImpulse then { s with stored := d' } else s) = s1 at h1
      refine withStored_ok _ h1.stored (turnOn_ok t d' ?_)
      split
      · exact withStored_ok _ (by decide) h1
      · exact h1
    split
    · split
      · exact turnOff_ok t 0 h
      · exact turnOff_ok t d h
    · exact h
  | config f time =>
    show Ok c (applyConfig f time s)
    have h1 := setFunction_ok f h
    unfold applyConfig
    cases time with
    | none => exact h1
    | some d =>
      simp only []
      split
      · exact withStored_ok _ (Nat.mod_lt _ (by decide)) h1
      · exact h1
  | defFunction f => exact ⟨h.keep, h.stored, h.dur, h.min, h.high, h.init⟩
  | setMin d =>
    refine ⟨h.keep, h.stored, h.dur, ?_, h.high, h.init⟩
    show (if d > 65535 then 65535 else d) < 2 ^ 16
    split <;> omega
  | setCountdown b => exact ⟨h.keep, h.stored, h.dur, h.min, h.high, h.init⟩
  | pass =>
    show Ok c (pass t s)
    unfold pass
    split
    · exact toggle_ok t 0 h
    · exact h

theorem fresh_ok (c : Config) (pin : Bool) : Ok c (fresh c pin) := by
  refine ⟨rfl, (by decide : (0:Nat) < 2 ^ 32), (by decide : (0:Nat) < 2 ^ 32), ?_, rfl, ?_⟩
  · show min c.minDur 65535 < 2 ^ 16
    omega
  · show (c.default < 0 ∧ c.default < 0) ∨ _
    by_cases h : c.default < 0
    · exact .inl ⟨h, h⟩
    · exact .inr ⟨h, rfl⟩

theorem load_ok {c : Config} {s : Relay} (b : List Nat) (h : Ok c s) : Ok c (load b s) := by
  unfold load
  split
  · rename_i b0 b1 b2 b3 flags
    have h1 : Ok c { s with stored := (b0 + b1 * 256 + b2 * 65536 + b3 * 16777216) % 2 ^ 32 } :=
      withStored_ok _ (Nat.mod_lt _ (by decide)) h
    generalize { s with stored := (b0 + b1 * 256 + b2 * 65536 + b3 * 16777216) % 2 ^ 32 } = s1 at h1
    have h2 : Ok c (loadOn flags s1) := by
      unfold loadOn
      split
      · rename_i hi
        refine ⟨h1.keep, h1.stored, h1.dur, h1.min, h1.high, ?_⟩
        rcases h1.init with hh | hh
        · refine .inl ⟨hh.1, ?_⟩
          show (if flags % 2 = 1 then (-2 : Int) else -3) < 0
          split <;> decide
        · exact absurd (hh.2 ▸ hi) hh.1
      · exact h1
    generalize loadOn flags s1 = s2 at h2
    have h3 : Ok c (loadFunction flags s2) := by
      unfold loadFunction
      repeat' split
      · exact setFunction_ok _ h2
      · exact setFunction_ok _ h2
      · exact h2
    generalize loadFunction flags s2 = s3 at h3
    unfold loadTimer
    split
    · exact h3
    · refine ⟨h3.keep, (by decide : 0 < 2 ^ 32), ?_, h3.min, h3.high, h3.init⟩
      show (if s3.stateOnInit < 0 then s3.stored else s3.durationMs) < 2 ^ 32
      split
      · exact h3.stored
      · exact h3.dur
  · exact h

theorem onInit_ok {c : Config} {s : Relay} (t : Nat) (m : List Bool) (soft : Bool) (h : Ok c s) :
    Ok c (onInit t m soft s) := by
  unfold onInit
  simp only []
  cases soft <;> simp only [Bool.false_eq_true, if_false, if_true] <;> split
  · exact turnOn_ok _ _ (turnOn_ok _ _ h)
  · exact turnOff_ok _ _ (turnOff_ok _ _ h)
  · exact turnOn_ok _ _ h
  · exact turnOff_ok _ _ h

theorem boot_ok (c : Config) (pin : Bool) (saved : Option (List Nat)) (t : Nat) (m : List Bool)
    (soft : Bool) : Ok c (boot c pin saved t m soft) := by
  unfold boot
  apply onInit_ok
  cases saved
  · exact fresh_ok c pin
  · exact load_ok _ (fresh_ok c pin)

theorem run_ok {c : Config} (h : List (Nat × Op)) : ∀ {s : Relay}, Ok c s → Ok c (run s h) := by
  induction h with
  | nil => exact fun h => h
  | cons e h ih => exact fun hs => ih (step_ok e hs)

theorem reachable_ok {c : Config} {s : Relay} (h : Reachable c s) : Ok c s := by
  obtain ⟨pin, saved, t, m, soft, h, rfl⟩ := h
  exact run_ok h (boot_ok ..)

/-! ## C23 -/

theorem turnOn_dur (s : Relay) (hk : s.keep = s.timed) (t d : Nat) :
    (turnOn t d s).durationMs = onCommand.fixedOr s (d % 2 ^ 32) := by
  simp only [turnOn, fixed_of_keep hk, onCommand.fixedOr]
  cases s.timed
  · simp
  · simp only [if_true]
    by_cases h1 : s.minDur > 0 <;> by_cases h2 : s.stored = 0 <;> simp [h1, h2]

theorem turnOn_ts (s : Relay) (t d : Nat) (h : (turnOn t d s).durationMs ≠ 0) :
    (turnOn t d s).ts = clk t := by
  simp only [turnOn] at *
  rw [if_pos h]

/-- Running timer of a relay that is on. -/
def Running (t d : Nat) (s : Relay) : Prop := s.isOn = true ∧ s.durationMs = d ∧ s.ts = clk t

/-- A turn-on command starts the timer with the specified duration. -/
theorem command_running {s : Relay} (hk : s.keep = s.timed) (hm : s.minDur < 2 ^ 16) {t d : Nat} {o : Op}
    (h : onCommand s o = some d) (hd : d ≠ 0) : Running t d (step s (t, o)) := by
  have base : ∀ x, onCommand.fixedOr s (x % 2 ^ 32) = d → Running t d (turnOn t x s) := by
    intro x hx
    have h1 := turnOn_dur s hk t x
    rw [hx] at h1
    exact ⟨isOn_turnOn .., h1, turnOn_ts _ _ _ (by omega)⟩
  cases o with
  | turnOn x => exact base x (Option.some.inj h)
  | turnOff x => cases h
  | toggle x =>
    simp only [onCommand] at h
    split at h
    · cases h
    · rename_i hn
      show Running t d (toggle t x s)
      unfold toggle
      rw [if_neg hn]
      exact base x (Option.some.inj h)
  | action a =>
    cases a with
    | turnOn => exact base 0 (Option.some.inj h)
    | turnOff => cases h
    | toggle =>
      simp only [onCommand] at h
      split at h
      · cases h
      · rename_i hn
        show Running t d (toggle t 0 s)
        unfold toggle
        rw [if_neg hn]
        exact base 0 (Option.some.inj h)
    | turnOnWithoutTimer => exact absurd (Option.some.inj h).symm hd
  | server v x =>
    by_cases hv : v = 1
    · subst hv
      simp only [onCommand] at h
      show Running t d (server t 1 x s)
      unfold server
      split at h
      · cases h
      · rename_i hf
        rw [if_neg hf, if_pos rfl]
        simp only [] at h ⊢
        have hx : (if x % 2 ^ 32 < s.minDur then s.minDur else x % 2 ^ 32)
            = max (x % 2 ^ 32) s.minDur := by
          split <;> omega
        rw [hx]
        have hlt : max (x % 2 ^ 32) s.minDur < 2 ^ 32 := by omega
        have hmin : s.minDur ≤ max (x % 2 ^ 32) s.minDur := by omega
        generalize max (x % 2 ^ 32) s.minDur = y at h hlt hmin
        have hy : y % 2 ^ 32 = y := Nat.mod_eq_of_lt hlt
        have h := Option.some.inj h
        -- the state turnOn is applied to
        have key : ∀ s2 : Relay, s2.keep = s2.timed → onCommand.fixedOr s2 y = d →
            ∀ z, Running t d { turnOn t y s2 with stored := z } := by
          intro s2 hk2 hfx z
          have h1 := turnOn_dur s2 hk2 t y
          rw [hy, hfx] at h1
          refine ⟨?_, h1, turnOn_ts _ _ _ (by omega)⟩
          have := isOn_turnOn t y s2
          simpa [Relay.isOn] using this
        by_cases hi : s.isImpulse = true
        · rw [if_pos hi] at h
          subst h
          rw [if_pos hi]
          have hns : s.isStair = false := by
            unfold Relay.isStair Relay.isImpulse at *
            simp only [Bool.or_eq_true, beq_iff_eq] at hi
            rw [beq_eq_false_iff_ne]
            intro h
            rw [h] at hi
            revert hi; decide
          have hs1 : ({ s with stored := y } : Relay).isStair = false := hns
          rw [if_neg (by rw [hs1]; simp)]
          refine key { s with stored := y } hk ?_ _
          have ht : ({ s with stored := y } : Relay).timed = true := by
            show (_ || _) = true
            rw [show ({ s with stored := y } : Relay).isImpulse = s.isImpulse from rfl, hi]
            exact Bool.or_true _
          unfold onCommand.fixedOr
          rw [if_pos ht]
          exact ite_self y
        · rw [if_neg hi] at h
          rw [if_neg hi]
          by_cases hs : s.isStair = true
          · by_cases hy0 : y = 0
            · rw [if_neg (by simp [hy0])] at h
              omega
            · rw [if_pos ⟨hs, hy0⟩] at h
              rw [if_neg (by simp [hy0])]
              exact key _ hk h _
          · rw [if_neg (by simp [hs])] at h
            rw [if_neg (by simp [hs])]
            refine key _ hk ?_ _
            unfold onCommand.fixedOr
            have : s.timed = false := by
              unfold Relay.timed; simp [hs, hi]
            rw [this]
            exact h
    · exfalso
      simp only [onCommand] at h
      split at h <;> simp_all
  | config f time => cases h
  | defFunction f => cases h
  | setMin d => cases h
  | setCountdown b => cases h
  | pass => cases h

/-- Quiet operations other than a pass change neither the output nor the timer. -/
theorem quiet_keeps {e : Nat × Op} (hq : e.2.quiet = true) (hp : e.2 ≠ .pass) (s : Relay) :
    (step s e).isOn = s.isOn ∧ (step s e).durationMs = s.durationMs ∧ (step s e).ts = s.ts := by
  obtain ⟨t, o⟩ := e
  cases o with
  | config f time =>
    show (applyConfig f time s).isOn = _ ∧ (applyConfig f time s).durationMs = _ ∧
      (applyConfig f time s).ts = _
    unfold applyConfig setFunction
    simp only []
    repeat' split
    all_goals exact ⟨rfl, rfl, rfl⟩
  | defFunction f => exact ⟨rfl, rfl, rfl⟩
  | setMin d => exact ⟨rfl, rfl, rfl⟩
  | setCountdown b => exact ⟨rfl, rfl, rfl⟩
  | pass => exact absurd rfl hp
  | _ => cases hq

theorem off_stays (h : List (Nat × Op)) : ∀ s : Relay, (∀ e ∈ h, e.2.quiet = true) →
    s.durationMs = 0 → (run s h).isOn = s.isOn := by
  induction h with
  | nil => intros; rfl
  | cons e h ih =>
    intro s hq hd
    have hq' := fun e he => hq e (List.mem_cons_of_mem _ he)
    show (run (step s e) h).isOn = _
    by_cases hp : e.2 = .pass
    · have : step s e = s := by
        obtain ⟨x, o⟩ := e
        cases hp
        show pass x s = s
        unfold pass
        rw [if_neg (by simp [hd])]
      rw [this]
      exact ih s hq' hd
    · have hk := quiet_keeps (hq e List.mem_cons_self) hp s
      rw [ih _ hq' (hk.2.1.trans hd)]
      exact hk.1

theorem passes_cons_pass (t : Nat) (h : List (Nat × Op)) :
    passes ((t, .pass) :: h) = t :: passes h := rfl

theorem passes_cons_other {e : Nat × Op} (hp : e.2 ≠ .pass) (h : List (Nat × Op)) :
    passes (e :: h) = passes h := by
  obtain ⟨t, o⟩ := e
  cases o <;> first | rfl | exact absurd rfl hp

/-- A running timer ends at the first pass later than its duration. -/
theorem running_ends {t d g : Nat} (hd : d ≠ 0) (hg : d + g < 2 ^ 32) (h : List (Nat × Op)) :
    ∀ (s : Relay) (u : Nat), (∀ e ∈ h, e.2.quiet = true) → t ≤ u → u ≤ t + d →
      Steady g u (passes h) → Running t d s →
      ((run s h).isOn = true ↔ ∀ x ∈ passes h, x ≤ t + d) := by
  induction h with
  | nil =>
    intro s u _ _ _ _ hr
    exact ⟨fun _ x hx => (by cases hx), fun _ => hr.1⟩
  | cons e h ih =>
    intro s u hq htu hud hst hr
    have hq' := fun e he => hq e (List.mem_cons_of_mem _ he)
    by_cases hp : e.2 = .pass
    · obtain ⟨x, o⟩ := e
      cases hp
      rw [passes_cons_pass] at hst ⊢
      obtain ⟨h1, h2, h3⟩ := hst
      show (run (pass x s) h).isOn = true ↔ _
      have hsince : since (clk x) s.ts = x - t := by
        rw [hr.2.2]; exact since_clk_eq _ _ (by omega) (by omega)
      by_cases hx : x ≤ t + d
      · have : pass x s = s := by
          unfold pass
          rw [if_neg (by rw [hsince, hr.2.1]; omega)]
        rw [this, ih s x hq' (by omega) hx h3 hr]
        exact ⟨fun hh y hy => by
          rcases List.mem_cons.mp hy with rfl | hy
          · exact hx
          · exact hh y hy, fun hh y hy => hh y (List.mem_cons_of_mem _ hy)⟩
      · have hps : pass x s = turnOff x 0 s := by
          unfold pass
          rw [if_pos (by rw [hsince, hr.2.1]; omega)]
          unfold toggle
          rw [if_pos hr.1]
        rw [hps, off_stays h _ hq' rfl, isOn_turnOff]
        exact ⟨fun hh => (by cases hh), fun hh => absurd (hh x List.mem_cons_self) hx⟩
    · rw [passes_cons_other hp] at hst ⊢
      have hk := quiet_keeps (hq e List.mem_cons_self) hp s
      exact ih (step s e) u hq' htu hud hst
        ⟨hk.1.trans hr.1, hk.2.1.trans hr.2.1, hk.2.2.trans hr.2.2⟩

/-- C23 (partial: passes must come often enough that the 32-bit elapsed time cannot wrap between
two of them, `d + g < 2^32`). -/
theorem timed_on_ends_partial (c : Config) (s : Relay) (hs : Reachable c s) (t : Nat) (o : Op)
    (d g : Nat) (ho : onCommand s o = some d) (hd : d ≠ 0) (hg : d + g < 2 ^ 32)
    (h : List (Nat × Op)) (hq : ∀ e ∈ h, e.2.quiet = true) (hst : Steady g t (passes h)) :
    (run (step s (t, o)) h).isOn = true ↔ ∀ x ∈ passes h, x ≤ t + d := by
  have ok := reachable_ok hs
  exact running_ends hd hg h _ t hq (Nat.le_refl _) (by omega) hst
    (command_running ok.keep ok.min ho hd)

example : Reachable {} (boot {} false none 0 [] true) ∧
    onCommand (boot {} false none 0 [] true) (.turnOn 1000) = some 1000 ∧
    Steady 500 (2 ^ 32 - 100) [2 ^ 32, 2 ^ 32 + 400, 2 ^ 32 + 900, 2 ^ 32 + 901] := by
  refine ⟨⟨false, none, 0, [], true, [], rfl⟩, rfl, ?_⟩
  simp [Steady]

example : (run (step (boot {} false none 0 [] true) (2 ^ 32 - 100, .turnOn 1000))
    [(2 ^ 32, .pass), (2 ^ 32 + 900, .pass)]).isOn = true ∧
    (run (step (boot {} false none 0 [] true) (2 ^ 32 - 100, .turnOn 1000))
    [(2 ^ 32, .pass), (2 ^ 32 + 900, .pass), (2 ^ 32 + 901, .pass)]).isOn = false := by decide

/-- C23 fails when no pass comes for 2^32 ms: the elapsed time wraps. -/
theorem timed_on_wrap_violation : ¬ TimedOnEnds := by
  intro h
  have := h {} (boot {} false none 0 [] true) ⟨false, none, 0, [], true, [], rfl⟩ 0 (.turnOn 1000) 1000 rfl
    (by decide) [(2 ^ 32 + 5, .pass)] (by simp [Op.quiet]) (by simp [passes, Ordered])
  simp only [passes, List.filterMap_cons, List.filterMap_nil, List.mem_singleton, forall_eq] at this
  have h2 := this.mp (by decide)
  omega

/-- A turn-on whose duration is 0 is without end: the relay stays on until told otherwise. -/
theorem untimed_on_stays (c : Config) (s : Relay) (hs : Reachable c s) (t d : Nat)
    (ht : s.timed = false) (hd : d % 2 ^ 32 = 0) (h : List (Nat × Op))
    (hq : ∀ e ∈ h, e.2.quiet = true) : (run (step s (t, .turnOn d)) h).isOn = true := by
  have ok := reachable_ok hs
  have h0 : (turnOn t d s).durationMs = 0 := by
    rw [turnOn_dur s ok.keep]; simp [onCommand.fixedOr, ht, hd]
  show (run (turnOn t d s) h).isOn = true
  rw [off_stays h _ hq h0, isOn_turnOn]

/-- An ordinary relay turned off for `d` ms comes back on at the first pass later than that and
stays on. -/
theorem timed_off_ends_partial (c : Config) (s : Relay) (hs : Reachable c s) (t d g : Nat)
    (hd0 : d ≠ 0) (hg : d + g < 2 ^ 32) (h : List (Nat × Op))
    (hq : ∀ e ∈ h, e.2 = .pass) (ht : s.timed = false) (hst : Steady g t (passes h)) :
    (run (step s (t, .turnOff d)) h).isOn = false ↔ ∀ x ∈ passes h, x ≤ t + d := by
  have ok := reachable_ok hs
  have aux : ∀ (h : List (Nat × Op)) (s : Relay) (u : Nat), (∀ e ∈ h, e.2 = .pass) → t ≤ u →
      u ≤ t + d → Steady g u (passes h) → s.isOn = false → s.durationMs = d → s.ts = clk t →
      s.keep = s.timed → s.timed = false →
      ((run s h).isOn = false ↔ ∀ x ∈ passes h, x ≤ t + d) := by
    intro h
    induction h with
    | nil =>
      intro s u _ _ _ _ h1 _ _ _ _
      exact ⟨fun _ x hx => (by cases hx), fun _ => h1⟩
    | cons e h ih =>
      intro s u hq htu hud hst h1 h2 h3 hk h4
      have hq' := fun e he => hq e (List.mem_cons_of_mem _ he)
      obtain ⟨x, o⟩ := e
      cases (hq _ List.mem_cons_self : o = .pass)
      rw [passes_cons_pass] at hst ⊢
      obtain ⟨g1, g2, g3⟩ := hst
      show (run (pass x s) h).isOn = false ↔ _
      have hsince : since (clk x) s.ts = x - t := by
        rw [h3]; exact since_clk_eq _ _ (by omega) (by omega)
      by_cases hx : x ≤ t + d
      · have : pass x s = s := by
          unfold pass
          rw [if_neg (by rw [hsince, h2]; omega)]
        rw [this, ih s x hq' (by omega) hx g3 h1 h2 h3 hk h4]
        exact ⟨fun hh y hy => by
          rcases List.mem_cons.mp hy with rfl | hy
          · exact hx
          · exact hh y hy, fun hh y hy => hh y (List.mem_cons_of_mem _ hy)⟩
      · have hps : pass x s = turnOn x 0 s := by
          unfold pass
          rw [if_pos (by rw [hsince, h2]; omega)]
          unfold toggle
          rw [if_neg (by simp [h1])]
        have h0 : (turnOn x 0 s).durationMs = 0 := by
          rw [turnOn_dur s hk]; simp [onCommand.fixedOr, h4]
        rw [hps, off_stays h _ (fun e he => by rw [hq' e he]; rfl) h0, isOn_turnOn]
        exact ⟨fun hh => (by cases hh), fun hh => absurd (hh x List.mem_cons_self) hx⟩
  have hd : d % 2 ^ 32 = d := Nat.mod_eq_of_lt (by omega)
  refine aux h _ t hq (Nat.le_refl _) (by omega) hst (isOn_turnOff t d s) hd ?_ ok.keep ht
  show (if d % 2 ^ 32 ≠ 0 then clk t else 0) = clk t
  rw [hd, if_pos hd0]

/-! ## C24 -/

theorem le32_load (x : Nat) (hx : x < 2 ^ 32) :
    (x % 256 + x / 256 % 256 * 256 + x / 65536 % 256 * 65536 + x / 16777216 % 256 * 16777216)
      % 2 ^ 32 = x := by omega

theorem foldl_last (m : List Bool) : ∀ b : Bool, m.foldl (fun _ x => x) b = m.getLast?.getD b := by
  induction m with
  | nil => intro b; rfl
  | cons x m ih => intro b; rw [List.foldl_cons, ih, List.getLast?_cons]; cases m.getLast? <;> rfl

/-- `onInit` in terms of the state it ends in. -/
theorem onInit_eq (t : Nat) (m : List Bool) (soft : Bool) (s : Relay) :
    onInit t m soft s =
      if m.getLast?.getD (s.stateOnInit == 1 || s.stateOnInit == -2) then
        (if soft then turnOn t s.durationMs s else turnOn t s.durationMs (turnOn t s.durationMs s))
      else turnOff t s.durationMs s := by
  unfold onInit
  rw [foldl_last]
  simp only []
  split
  · cases soft <;> rfl
  · cases soft <;> rfl

/-- What `onLoadState` restores from the bytes of `onSaveState`, on a fresh relay. -/
theorem load_le32 (c : Config) (pin : Bool) (x fl : Nat) (hx : x < 2 ^ 32) (on : Bool)
    (stair imp : Bool)
    (hfl : fl = (if stair then 2 else if imp then 4 else 0) + (if on then 1 else 0)) :
    let r := load (le32 x ++ [fl]) (fresh c pin)
    r.highIsOn = c.highIsOn ∧ r.isStair = stair ∧ r.isImpulse = (!stair && imp) ∧
    r.keep = r.timed ∧ r.stateOnInit = (if c.default < 0 then if on then -2 else -3 else c.default) ∧
    r.stored = (if stair || imp then x else 0) ∧
    r.durationMs = (if stair || imp then 0 else if c.default < 0 then x else 0) := by
  have hl := le32_load x hx
  subst hfl
  simp only [le32, List.cons_append, List.nil_append, load, hl]
  have hf : (fresh c pin).stateOnInit = c.default := rfl
  simp only [hf]
  by_cases hd : c.default < 0 <;> cases stair <;> cases imp <;> cases on <;>
    simp [hd, loadOn, loadFunction, loadTimer, setFunction, Relay.isStair, Relay.isImpulse, Relay.timed, fresh, fnGate, fnStaircase,
      fnDoor, fnGateway, fnGarage]

theorem turnOn_high (t d : Nat) (s : Relay) : (turnOn t d s).highIsOn = s.highIsOn := rfl

theorem timer_turnOn (t d : Nat) (s : Relay) :
    timer t (turnOn t d s) =
      if (turnOn t d s).durationMs = 0 then none else some (turnOn t d s).durationMs := by
  unfold timer
  split
  · rfl
  · rename_i h
    rw [turnOn_ts s t d h, since_clk_self, Nat.sub_zero]

theorem timer_turnOff (t d : Nat) (s : Relay) :
    timer t (turnOff t d s) = if d % 2 ^ 32 = 0 then none else some (d % 2 ^ 32) := by
  show (if d % 2 ^ 32 = 0 then none
    else some (d % 2 ^ 32 - since (clk t) (if d % 2 ^ 32 ≠ 0 then clk t else 0))) = _
  split
  · rfl
  · rename_i h
    rw [since_clk_self, Nat.sub_zero]

/-- Excluded from C24: an ordinary restoring relay with the countdown function disabled, or saved
while its timer is due but not yet handled. -/
def Restorable (c : Config) (t : Nat) (s : Relay) : Prop :=
  s.timed = true ∨ c.default ≠ -1 ∨
    (s.countdown = true ∧ (s.durationMs = 0 ∨ since (clk t) s.ts < s.durationMs))

instance (c : Config) (t : Nat) (s : Relay) : Decidable (Restorable c t s) :=
  inferInstanceAs (Decidable (_ ∨ _))

/-- C24 (partial: `Restorable`). -/
theorem restart_survives_partial (c : Config)
    (hc : c.default = -1 ∨ c.default = 0 ∨ c.default = 1) (s : Relay) (hs : Reachable c s)
    (t t' : Nat) (pin : Bool) (motion : List Bool) (soft : Bool) (hr : Restorable c t s) :
    Survives c motion t t' s (boot c pin (some (save t s)) t' motion soft) := by
  have ok := reachable_ok hs
  -- the saved record
  obtain ⟨x, hx, hsave, hxt, hxu⟩ : ∃ x, x < 2 ^ 32 ∧
      save t s = le32 x ++ [(if s.isStair then 2 else if s.isImpulse then 4 else 0) +
        (if c.default < 0 && s.isOn then 1 else 0)] ∧
      (s.timed = true → x = s.stored) ∧
      (s.timed = false → c.default < 0 → (if x = 0 then none else some x) = timer t s) := by
    have hst := ok.stored
    have hdu := ok.dur
    have hfl : savedFlags s = (if s.isStair then 2 else if s.isImpulse then 4 else 0) +
        (if c.default < 0 && s.isOn then 1 else 0) := by
      unfold savedFlags
      rcases ok.init with h | h
      · rw [if_pos h.2]; simp [h.1]
      · have hn : ¬ s.stateOnInit < 0 := h.2 ▸ h.1
        simp [h.1, hn]
    refine ⟨savedDuration t s, ?_, (by unfold save; rw [hfl]), ?_, ?_⟩ <;> unfold savedDuration
    · repeat' split
      all_goals omega
    · intro ht
      unfold Relay.timed at ht
      by_cases h1 : s.isStair = true
      · rw [if_pos h1]
      · by_cases h2 : s.isImpulse = true
        · rw [if_neg h1, if_pos h2]
        · simp [h1, h2] at ht
    · intro ht hneg
      have h1 : s.isStair = false ∧ s.isImpulse = false := by
        simpa [Relay.timed] using ht
      rcases hr with hr | hr | ⟨hcd, hr⟩
      · rw [hr] at ht; cases ht
      · omega
      · have hi : s.stateOnInit < 0 := by
          rcases ok.init with h | h
          · exact h.2
          · exact absurd hneg h.1
        have e1 : ¬ s.isStair = true := by simp [h1.1]
        have e2 : ¬ s.isImpulse = true := by simp [h1.2]
        rw [if_neg e1, if_neg e2, if_pos (show s.countdown = true ∧ s.stateOnInit < 0 from ⟨hcd, hi⟩)]
        unfold timer
        by_cases hd : s.durationMs = 0
        · simp [hd]
        · rcases hr with hr | hr
          · exact absurd hr hd
          · rw [if_pos hd, if_neg hd, if_pos hr, if_neg (by omega)]
  have hboot : boot c pin (some (save t s)) t' motion soft =
      onInit t' motion soft (load (save t s) (fresh c pin)) := rfl
  rw [hboot, hsave]
  have hL := load_le32 c pin x _ hx (c.default < 0 && s.isOn) s.isStair s.isImpulse rfl
  simp only [] at hL
  generalize load (le32 x ++ _) (fresh c pin) = r at hL
  obtain ⟨h1, h2, h3, h4, h5, h6, h7⟩ := hL
  have hex : s.isImpulse = true → s.isStair = false := by
    intro h
    unfold Relay.isStair Relay.isImpulse at *
    simp only [Bool.or_eq_true, beq_iff_eq] at h
    rw [beq_eq_false_iff_ne]
    intro h'
    rw [h'] at h
    revert h; decide
  have h3' : r.isImpulse = s.isImpulse := by
    rw [h3]
    cases hI : s.isImpulse
    · exact Bool.and_false _
    · rw [hex hI]; rfl
  have ht : r.timed = s.timed := by unfold Relay.timed; rw [h2, h3']
  have htimed : (s.isStair || s.isImpulse) = s.timed := rfl
  rw [htimed] at h6 h7
  -- chosen state
  have hon : motion.getLast?.getD (r.stateOnInit == 1 || r.stateOnInit == -2) =
      expectedOn c motion s := by
    unfold expectedOn
    cases motion.getLast? with
    | some m => rfl
    | none =>
      show (r.stateOnInit == 1 || r.stateOnInit == -2) = _
      rw [h5]
      rcases hc with hc | hc | hc <;> rw [hc] <;> cases s.isOn <;> rfl
  -- durations
  have hdur : r.durationMs < 2 ^ 32 := by
    rw [h7]
    repeat' split
    all_goals first | exact hx | decide
  have hdm : r.durationMs % 2 ^ 32 = r.durationMs := Nat.mod_eq_of_lt hdur
  rw [onInit_eq, hon]
  -- the state after the first turnOn behaves like the state before
  have hfix : ∀ q : Relay, q.keep = q.timed → q.timed = s.timed → q.durationMs < 2 ^ 32 →
      (s.timed = true → q.stored = s.stored) →
      onCommand.fixedOr q (r.durationMs % 2 ^ 32) =
        if s.timed then (if s.stored = 0 ∧ q.minDur > 0 then r.durationMs else s.stored)
        else r.durationMs := by
    intro q _ hq2 _ hq4
    unfold onCommand.fixedOr
    rw [hq2, hdm]
    by_cases hT : s.timed = true
    · rw [if_pos hT, if_pos hT, hq4 hT]
    · rw [if_neg hT, if_neg hT]
  have hres : ∀ q : Relay, q.keep = q.timed → q.timed = s.timed → q.durationMs < 2 ^ 32 →
      (s.timed = true → q.stored = s.stored) →
      (turnOn t' r.durationMs q).durationMs = (if s.timed then s.stored else r.durationMs) ∧
      (s.timed = true → (turnOn t' r.durationMs q).stored = s.stored) := by
    intro q hq1 hq2 hq3 hq4
    refine ⟨?_, ?_⟩
    · rw [turnOn_dur q hq1, hfix q hq1 hq2 hq3 hq4]
      by_cases hT : s.timed = true
      · rw [if_pos hT, if_pos hT]
        split
        · rename_i hh
          rw [h7, if_pos hT]; exact hh.1.symm
        · rfl
      · rw [if_neg hT, if_neg hT]
    · intro hT
      show (if q.minDur > 0 ∧ q.stored = 0 then r.durationMs % 2 ^ 32 else q.stored) = _
      split
      · rename_i hh
        rw [h7, if_pos hT, ← hq4 hT, hh.2]
      · exact hq4 hT
  have hrst : s.timed = true → r.stored = s.stored := fun hT => by
    rw [h6, if_pos hT]; exact hxt hT
  have hdurv : s.timed = false → (if r.durationMs = 0 then none else some r.durationMs) =
      if c.default = -1 then timer t s else none := by
    intro hT
    have hd : r.durationMs = if c.default < 0 then x else 0 := by
      rw [h7]; simp [hT]
    rw [hd]
    by_cases hn : c.default < 0
    · rw [if_pos hn, hxu hT hn, if_pos (show c.default = -1 by omega)]
    · rw [if_neg hn, if_neg (show ¬ c.default = -1 by omega)]; rfl
  have hdurt : s.timed = true → r.durationMs = 0 := fun hT => by rw [h7, if_pos hT]
  by_cases hE : expectedOn c motion s = true
  · rw [if_pos hE]
    have hfin : ∃ q : Relay, q.keep = q.timed ∧ q.timed = s.timed ∧ q.durationMs < 2 ^ 32 ∧
        (s.timed = true → q.stored = s.stored) ∧ q.isStair = s.isStair ∧
        q.isImpulse = s.isImpulse ∧
        (if soft then turnOn t' r.durationMs r
          else turnOn t' r.durationMs (turnOn t' r.durationMs r)) = turnOn t' r.durationMs q := by
      cases soft
      · have hh := hres r h4 ht hdur hrst
        refine ⟨turnOn t' r.durationMs r, h4, ht, ?_, hh.2, h2, h3', rfl⟩
        rw [hh.1]
        have := ok.stored
        split <;> assumption
      · exact ⟨r, h4, ht, hdur, hrst, h2, h3', rfl⟩
    obtain ⟨q, q1, q2, q3, q4, q5, q6, q7⟩ := hfin
    have hq := hres q q1 q2 q3 q4
    rw [q7]
    refine ⟨?_, q5, q6, hq.2, ?_⟩
    · rw [hE]; exact isOn_turnOn ..
    · rw [timer_turnOn, hq.1]
      unfold expectedTimer
      by_cases hT : s.timed = true
      · simp only [if_pos hT, hE, true_and]
        by_cases hz : s.stored = 0
        · rw [if_pos hz, if_neg (by simp [hz])]
        · rw [if_neg hz, if_pos hz]
      · have hT' : s.timed = false := by simpa using hT
        simp only [if_neg hT]
        exact hdurv hT'
  · rw [if_neg hE]
    refine ⟨?_, h2, h3', hrst, ?_⟩
    · rw [isOn_turnOff]; simpa using hE
    · rw [timer_turnOff, hdm]
      unfold expectedTimer
      by_cases hT : s.timed = true
      · rw [if_pos hT, hdurt hT, if_pos rfl, if_neg (fun hh => hE hh.1)]
      · have hT' : s.timed = false := by simpa using hT
        rw [if_neg hT]
        exact hdurv hT'

/-- A restoring relay, on for 10 s since 3 s. -/
example : Restorable { default := -1 } 5000
    (run (boot { default := -1 } false none 0 [] true) [(2000, .turnOn 10000), (4000, .pass)]) := by
  decide

example : timer 777 (boot { default := -1 } false (some (save 5000
    (run (boot { default := -1 } false none 0 [] true) [(2000, .turnOn 10000), (4000, .pass)])))
    777 [] true) = some 7000 := by decide

/-- A staircase relay keeps its function and time. -/
example : (boot { default := -1 } true (some (save 5000
    (run (boot { default := -1 } false none 0 [] true)
      [(0, .config 300 (some 8000)), (2000, .turnOn 0), (4000, .pass)]))) 777 [] false).isStair = true ∧
    timer 777 (boot { default := -1 } true (some (save 5000
    (run (boot { default := -1 } false none 0 [] true)
      [(0, .config 300 (some 8000)), (2000, .turnOn 0), (4000, .pass)]))) 777 [] false) = some 8000 := by
  decide

/-- C24 fails: a state saved in the millisecond in which the timer is due (not yet expired for
`iterateAlways`, already expired for `onSaveState`) is restored as "on, no timer". -/
theorem restart_due_violation : ¬ RestartSurvives := by
  intro h
  have := (h { default := -1 } (.inl rfl)
    (run (boot { default := -1 } false none 0 [] true) [(2000, .turnOn 1000), (3000, .pass)])
    ⟨_, _, _, _, _, _, rfl⟩ 3000 0 false [] true).timer
  revert this
  decide

/-- C24 fails: with the countdown function disabled and a minimum duration set, a relay that is off
with no timer running comes back with a timer, and so turns itself on. -/
theorem restart_turns_on_violation :
    ∃ (c : Config) (s : Relay), Reachable c s ∧ s.isOn = false ∧ timer 9000 s = none ∧
      (∀ h : List (Nat × Op), (∀ e ∈ h, e.2.quiet = true) → (run s h).isOn = false) ∧
      ∃ h : List (Nat × Op), (∀ e ∈ h, e.2 = .pass) ∧
        (run (boot c false (some (save 9000 s)) 0 [] true) h).isOn = true := by
  refine ⟨{ default := -1, minDur := 500, countdown := false },
    run (boot { default := -1, minDur := 500, countdown := false } false none 0 [] true)
      [(1000, .turnOn 700), (1200, .turnOff 0)], ⟨_, _, _, _, _, _, rfl⟩, by decide, by decide,
      ?_, [(701, .pass)], by simp, by decide⟩
  intro h hq
  rw [off_stays h _ hq (by decide)]
  decide

end Verif.Relay
