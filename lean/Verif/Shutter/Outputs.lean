import Verif.Shutter.Spec
/-!
# C25 and C26: the motor outputs

The part of the state that concerns the outputs is `Io`. Every timer pass performs at most one of
three actions on it.
-/

namespace Verif.Shutter

/-- The state relevant to the outputs. -/
structure Io where
  dir : Dir
  up : Bool
  down : Bool
  log : List Snap
  motor : Nat
  pause : Nat

/-- The outputs of a state. -/
def RS.io (s : RS) : Io := ⟨s.dir, s.upOn, s.downOn, s.log, s.motor, s.pause⟩

/-- Effect of `stopMovement`. -/
def Io.stop (t : Nat) (i : Io) : Io :=
  { i with
    dir := .stop, pause := clk t, up := false, down := false
    log := i.log ++ [if i.motor = 2 then ⟨t, i.up, false⟩ else ⟨t, false, i.down⟩] ++ [⟨t, false, false⟩] }

/-- Effect of `startOpening`. -/
def Io.open (t : Nat) (i : Io) : Io :=
  { i with
    dir := .up, up := i.motor ≠ 2, down := i.motor = 2
    log := i.log ++ [if i.motor = 2 then ⟨t, false, i.down⟩ else ⟨t, i.up, false⟩] ++
      [⟨t, i.motor ≠ 2, i.motor = 2⟩] }

/-- Effect of `startClosing`. -/
def Io.close (t : Nat) (i : Io) : Io :=
  { i with
    dir := .down, up := i.motor = 2, down := i.motor ≠ 2
    log := i.log ++ [if i.motor = 2 then ⟨t, i.up, false⟩ else ⟨t, false, i.down⟩] ++
      [⟨t, i.motor = 2, i.motor ≠ 2⟩] }

theorem stopMovement_io (t : Nat) (s : RS) : (stopMovement t s).io = s.io.stop t := by
  by_cases h : s.motor = 2 <;>
    simp [stopMovement, switchOff, relayUp, relayDown, write, RS.upPin, RS.downPin, RS.io, Io.stop, h]

theorem startOpening_io (t : Nat) (s : RS) : (startOpening t s).io = s.io.open t := by
  by_cases h : s.motor = 2 <;>
    simp [startOpening, relayUp, relayDown, write, RS.upPin, RS.downPin, RS.io, Io.open, h]

theorem startClosing_io (t : Nat) (s : RS) : (startClosing t s).io = s.io.close t := by
  by_cases h : s.motor = 2 <;>
    simp [startClosing, relayUp, relayDown, write, RS.upPin, RS.downPin, RS.io, Io.close, h]

/-- At most one action on the outputs. -/
inductive Act (t : Nat) (i : Io) : Io → Prop
  | keep : Act t i i
  | stop : Act t i (i.stop t)
  | open (h : i.dir ≠ .down) : Act t i (i.open t)
  | close (h : i.dir ≠ .up) : Act t i (i.close t)

theorem setTarget_io (n : Int) (s : RS) : (setTarget n s).io = s.io := rfl

theorem setPosition_io (n : Int) (s : RS) : (setPosition n s).io = s.io := rfl

theorem timeoutStage_io (t : Nat) (s : RS) : (timeoutStage t s).io = s.io := by
  unfold timeoutStage; split <;> rfl

theorem calEnd_act (t : Nat) (s : RS) : Act t s.io (calEnd t s).io := by
  unfold calEnd
  split
  · simp only []
    rw [stopMovement_io]
    have : ∀ p, ((if (setPosition p s).target < 0 then setTarget stopPos (setPosition p s)
        else setPosition p s)).io = s.io := by
      intro p; split <;> rfl
    rw [this]
    exact .stop
  · exact .keep

theorem calEnd_noop {t : Nat} {s : RS} (h : s.calTime = 0 ∨ s.started = clk t) :
    calEnd t s = s := by
  unfold calEnd
  rw [if_neg]
  rintro ⟨h1, h2⟩
  rcases h with h | h
  · exact h1 h
  · rw [h, since_clk_self] at h2; omega

theorem calBegin_act {t : Nat} {s : RS} (h0 : s.calTime = 0) :
    Act t s.io (calBegin t s).io ∧ ((calBegin t s).calTime = 0 ∨ (calBegin t s).started = clk t) := by
  have hst : ∀ q : RS, (stopMovement t q).calTime = q.calTime := by
    intro q
    by_cases hm : q.motor = 2 <;>
      simp [stopMovement, switchOff, relayUp, relayDown, write, RS.upPin, RS.downPin, hm]
  have hc : ∀ q : RS, (startClosing t q).started = clk t := by
    intro q
    by_cases hm : q.motor = 2 <;>
      simp [startClosing, relayUp, relayDown, write, RS.upPin, RS.downPin, hm]
  have ho : ∀ q : RS, (startOpening t q).started = clk t := by
    intro q
    by_cases hm : q.motor = 2 <;>
      simp [startOpening, relayUp, relayDown, write, RS.upPin, RS.downPin, hm]
  unfold calBegin
  split
  · split
    · rw [stopMovement_io]
      exact ⟨.stop, .inl ((hst _).trans h0)⟩
    · rename_i hd
      rw [startClosing_io]
      exact ⟨.close (i := s.io) hd, .inr (hc _)⟩
  · split
    · rw [stopMovement_io]
      exact ⟨.stop, .inl ((hst _).trans h0)⟩
    · rename_i hd
      rw [startOpening_io]
      exact ⟨.open (i := s.io) hd, .inr (ho _)⟩

theorem calStart_act {t : Nat} {s s' : RS} (h0 : s.calTime = 0) (h : calStart t s = some s') :
    Act t s.io s'.io ∧ (s'.calTime = 0 ∨ s'.started = clk t) := by
  have hb := calBegin_act (t := t) h0
  unfold calStart at h
  split at h
  · cases h
  · injection h with h
    subst h
    refine ⟨hb.1, ?_⟩
    rcases hb.2 with h | h
    · left; show (calBegin t s).calTime * 11 / 10 = 0; rw [h]
    · exact .inr h

theorem calStage_act {t : Nat} {s s' : RS} (h : calStage t s = some s') : Act t s.io s'.io := by
  unfold calStage at h
  split at h
  · split at h
    · rename_i h0
      cases hc : calStart t s with
      | none => rw [hc] at h; cases h
      | some r =>
        rw [hc] at h
        injection h with h
        have hr := calStart_act h0 hc
        rw [calEnd_noop hr.2] at h
        subst h
        exact hr.1
    · injection h with h
      subst h
      exact calEnd_act t s
  · injection h with h
    subst h
    exact .keep

theorem redirect_act (t : Nat) (d : Dir) (s : RS) : Act t s.io (redirect t d s).io := by
  unfold redirect
  split
  · exact .keep
  · split
    · rename_i hs
      simp only []
      split
      · rw [startClosing_io]
        exact .close (i := s.io) (by show s.dir ≠ _; rw [hs]; decide)
      · rw [startOpening_io]
        exact .open (i := s.io) (by show s.dir ≠ _; rw [hs]; decide)
    · rw [stopMovement_io]
      exact .stop

theorem moveUpStage_act {F : Fp} {t : Nat} {s s' : RS} (h : moveUpStage F t s = some s') :
    Act t s.io s'.io := by
  unfold moveUpStage at h
  cases hp : posUp F s.opening s.startPos (since (clk t) s.started) with
  | none => rw [hp] at h; cases h
  | some p =>
    rw [hp] at h
    simp only [Option.bind_eq_bind, Option.bind_some] at h
    split at h
    · split at h
      · cases hm : marginValue F (setPosition p s).margin (setPosition p s).opening with
        | none => rw [hm] at h; cases h
        | some m =>
          rw [hm] at h
          injection h with h
          subst h
          exact .keep
      · injection h with h
        subst h
        rw [stopMovement_io]
        exact .stop
    · injection h with h
      subst h
      exact .keep

theorem moveDownStage_act {F : Fp} {t : Nat} {s s' : RS} (h : moveDownStage F t s = some s') :
    Act t s.io s'.io := by
  unfold moveDownStage at h
  cases hp : posDown F s.closing s.startPos (since (clk t) s.started) with
  | none => rw [hp] at h; cases h
  | some p =>
    rw [hp] at h
    simp only [Option.bind_eq_bind, Option.bind_some] at h
    split at h
    · split at h
      · cases hm : marginValue F (setPosition p s).margin (setPosition p s).closing with
        | none => rw [hm] at h; cases h
        | some m =>
          rw [hm] at h
          injection h with h
          subst h
          exact .keep
      · injection h with h
        subst h
        rw [stopMovement_io]
        exact .stop
    · injection h with h
      subst h
      exact .keep

theorem knownStage_act {F : Fp} {t : Nat} {s s' : RS} (h : knownStage F t s = some s') :
    Act t s.io s'.io := by
  unfold knownStage at h
  split at h
  · split at h
    · exact moveUpStage_act h
    · split at h
      · exact moveDownStage_act h
      · injection h with h
        subst h
        exact .keep
  · split at h
    · cases hc : choose F s with
      | none => rw [hc] at h; cases h
      | some c =>
        rw [hc] at h
        injection h with h
        subst h
        exact redirect_act t c.1 { s with timeout := c.2 }
    · injection h with h
      subst h
      exact .keep

theorem unknownStage_act (t : Nat) (s : RS) : Act t s.io (unknownStage t s).io := by
  unfold unknownStage
  have h := redirect_act t (blindDir s.target) { s with pos := unknownPos, timeout := defaultTimeout }
  simp only []
  split
  · split
    · exact h
    · exact h
  · exact .keep

theorem body_act {F : Fp} {t : Nat} {s s' : RS} (h : body F t s = some s') : Act t s.io s'.io := by
  unfold body at h
  split at h
  · exact calStage_act h
  · split at h
    · exact knownStage_act h
    · injection h with h
      subst h
      exact unknownStage_act t s

theorem stopMovement_target (t : Nat) (s : RS) : (stopMovement t s).target = s.target := by
  by_cases hm : s.motor = 2 <;>
    simp [stopMovement, switchOff, relayUp, relayDown, write, RS.upPin, RS.downPin, hm]

/-- After a stop nothing more happens in the same pass. -/
theorem body_stopped {F : Fp} {t : Nat} {s s' : RS} (h : body F t s = some s') (h1 : s.target = stopPos)
    (h2 : s.dir = .stop) (h3 : s.newTarget = false) : s'.io = s.io := by
  unfold body at h
  split at h
  · unfold calStage at h
    rw [if_neg (by simp [h1])] at h
    injection h with h
    rw [h]
  · split at h
    · unfold knownStage at h
      rw [if_neg (by simp [h2]), if_neg (by simp [h3])] at h
      injection h with h
      rw [h]
    · injection h with h
      rw [← h]
      unfold unknownStage
      rw [if_neg (by simp [h3])]
      rfl

/-- A pass that is not suppressed by the pause performs at most one action on the outputs. -/
theorem pass_act {F : Fp} {t : Nat} {s s' : RS} (h : pass F t s = some s') :
    (s.pause ≠ 0 ∧ since (clk t) s.pause < 500 ∧ s' = s) ∨
    ((s.pause = 0 ∨ since (clk t) s.pause ≥ 500) ∧ Act t { s.io with pause := 0 } s'.io) := by
  unfold pass at h
  split at h
  · rename_i hp
    injection h with h
    exact .inl ⟨hp.1, hp.2, h.symm⟩
  · rename_i hp
    refine .inr ⟨by omega, ?_⟩
    have hs0 : ({ s with pause := 0 } : RS).io = { s.io with pause := 0 } := rfl
    have hi0 : ({ s with pause := 0 } : RS).inMove = s.inMove := rfl
    rw [← hs0]
    generalize ({ s with pause := 0 } : RS) = q at *
    cases hb : body F t (stopStage t q) with
    | none => rw [hb] at h; cases h
    | some r =>
      rw [hb] at h
      injection h with h
      subst h
      rw [timeoutStage_io]
      unfold stopStage at hb
      split at hb
      · rename_i ht
        split at hb
        · have := body_stopped hb ((stopMovement_target t q).trans ht) rfl rfl
          rw [this]
          show Act t q.io (stopMovement t q).io
          rw [stopMovement_io]
          exact .stop
        · have := body_act hb
          exact this
      · exact body_act hb

theorem setTimes_io (c o : Nat) (s : RS) : (setTimes c o s).io = s.io := by
  unfold setTimes; split <;> rfl

theorem orStop_io (n : Int) (s : RS) : (orStop n s).io = s.io := by
  unfold orStop; split <;> rfl

theorem stepByStep_io (s : RS) : (stepByStep s).io = s.io := by
  unfold stepByStep; repeat' split
  all_goals rfl

/-- Other operations leave the outputs alone; only the wiring setting may change. -/
theorem other_io {F : Fp} {t : Nat} {o : Op} {s s' : RS} (ho : o ≠ .pass)
    (h : step F s (t, o) = some s') : s'.io = { s.io with motor := s'.motor } := by
  cases o with
  | pass => exact absurd rfl ho
  | server d k =>
    injection h with h
    subst h
    have hio : (server d k s).io = s.io := by
      unfold server
      simp only []
      repeat' split
      all_goals first
        | rw [orStop_io, setTimes_io] | rw [stepByStep_io, setTimes_io] | exact setTimes_io _ _ s
    rw [hio, show (server d k s).motor = (server d k s).io.motor from rfl, hio]
  | action a =>
    injection h with h
    subst h
    have hio : (handleAction a s).io = s.io := by
      cases a <;> first | rfl | exact orStop_io _ s | exact stepByStep_io s
    rw [hio, show (handleAction a s).motor = (handleAction a s).io.motor from rfl, hio]
  | target n => injection h with h; subst h; rfl
  | times c o =>
    injection h with h
    subst h
    have hio := setTimes_io c o s
    rw [hio, show (setTimes c o s).motor = (setTimes c o s).io.motor from rfl, hio]
  | config c =>
    injection h with h
    subst h
    unfold applyConfig
    simp only []
    have hio : (if c.opening ≥ 0 ∧ c.closing ≥ 0 then setTimes c.closing.toNat c.opening.toNat s
        else s).io = s.io := by
      split
      · exact setTimes_io _ _ s
      · rfl
    generalize (if c.opening ≥ 0 ∧ c.closing ≥ 0 then setTimes c.closing.toNat c.opening.toNat s
        else s) = q at *
    have hio2 : (if q.inMove then q else setTarget stopPos q).io = s.io := by
      split
      · exact hio
      · exact hio
    generalize (if q.inMove then q else setTarget stopPos q) = r at *
    rw [← hio2]
    rfl
  | recalibrate => injection h with h; subst h; rfl
  | calibrationNeeded => injection h with h; subst h; rfl
  | position n => injection h with h; subst h; rfl
  | notCalibrated => injection h with h; subst h; rfl
  | calibrationOngoing n => injection h with h; subst h; rfl
  | calibrationFinished => injection h with h; subst h; rfl
  | motorEnabled b => injection h with h; subst h; rfl
  | motorValue v =>
    injection h with h
    subst h
    split <;> rfl
  | marginEnabled b => injection h with h; subst h; rfl
  | marginValue v =>
    injection h with h
    subst h
    split <;> rfl
  | comfortUp n => injection h with h; subst h; rfl
  | comfortDown n => injection h with h; subst h; rfl

/-! ## C25 -/

/-- Invariant: no instant with both outputs on, including now. -/
def Safe (i : Io) : Prop := Interlock i.log ∧ ¬ (i.up = true ∧ i.down = true)

theorem interlock_two {l : List Snap} (h : Interlock l) (x y : Snap)
    (hx : ¬ (x.up = true ∧ x.down = true)) (hy : ¬ (y.up = true ∧ y.down = true)) :
    Interlock (l ++ [x] ++ [y]) := by
  intro z hz
  simp only [List.append_assoc, List.mem_append, List.mem_singleton] at hz
  rcases hz with hz | hz | hz
  · exact h z hz
  · rw [hz]; exact hx
  · rw [hz]; exact hy

theorem act_safe {t : Nat} {i i' : Io} (h : Act t i i') (hs : Safe i) : Safe i' := by
  obtain ⟨h1, h2⟩ := hs
  cases h with
  | keep => exact ⟨h1, h2⟩
  | stop =>
    refine ⟨interlock_two h1 _ _ ?_ (by simp), by simp [Io.stop]⟩
    split <;> simp
  | «open» =>
    refine ⟨interlock_two h1 _ _ ?_ (by simp), by simp [Io.open]⟩
    split <;> simp
  | close =>
    refine ⟨interlock_two h1 _ _ ?_ (by simp), by simp [Io.close]⟩
    split <;> simp

theorem step_safe {F : Fp} {e : Nat × Op} {s s' : RS} (h : step F s e = some s')
    (hs : Safe s.io) : Safe s'.io := by
  obtain ⟨t, o⟩ := e
  by_cases ho : o = .pass
  · subst ho
    rcases pass_act (show pass F t s = some s' from h) with ⟨_, _, rfl⟩ | ⟨_, ha⟩
    · exact hs
    · exact act_safe ha hs
  · rw [other_io ho h]
    exact hs

theorem run_safe {F : Fp} (h : List (Nat × Op)) : ∀ {s s' : RS}, run F s h = some s' →
    Safe s.io → Safe s'.io := by
  induction h with
  | nil => intro s s' hr hs; injection hr with hr; subst hr; exact hs
  | cons e h ih =>
    intro s s' hr hs
    unfold run at hr
    cases he : step F s e with
    | none => rw [he] at hr; cases hr
    | some q => rw [he] at hr; exact ih hr (step_safe he hs)

/-- C25: the two motor outputs are never on at the same time: not at any pin write of any history
of operations, for any start configuration and any clock readings. -/
theorem outputs_interlocked (F : Fp) (b : Boot) (h : List (Nat × Op)) (s : RS)
    (hr : run F (boot b) h = some s) : Interlock s.log ∧ ¬ (s.upOn = true ∧ s.downOn = true) := by
  exact run_safe h hr ⟨by intro x hx; simp [boot, RS.io] at hx; subst hx; simp, by simp [boot, RS.io]⟩

/-- A history with movement in both directions. -/
example : ((run ⟨.exact, .exact⟩ (boot { t := 1, closing := 10000, opening := 10000, pos := 50 })
    [(5, .action .moveDown), (10, .pass), (20, .pass), (30, .action .moveUp), (40, .pass), (50, .pass),
     (600, .pass), (610, .pass)]).map (fun s => (s.upOn, s.downOn, s.log.length))) =
    some (true, false, 7) := by decide +kernel

/-! ## C26 -/

/-- A phase of an output ended at `τ`. -/
def Ended (log : List Snap) (τ : Nat) : Prop :=
  ∃ pre a b post, log = pre ++ a :: b :: post ∧ b.t = τ ∧
    ((a.up = true ∧ b.up = false) ∨ (a.down = true ∧ b.down = false))

/-- Where the last two snapshots of an extended log lie. -/
theorem split_snoc {l pre post : List Snap} {x a b : Snap} (h : l ++ [x] = pre ++ a :: b :: post) :
    (∃ post', post = post' ++ [x] ∧ l = pre ++ a :: b :: post') ∨ (post = [] ∧ b = x ∧ l = pre ++ [a]) := by
  rcases List.eq_nil_or_concat post with rfl | ⟨post', y, rfl⟩
  · right
    have h' : l ++ [x] = (pre ++ [a]) ++ [b] := by simpa using h
    have := List.append_inj' h' rfl
    exact ⟨rfl, (List.singleton_inj.mp this.2).symm, this.1⟩
  · left
    have h' : l ++ [x] = (pre ++ a :: b :: post') ++ [y] := by simpa using h
    have := List.append_inj' h' rfl
    exact ⟨post', by rw [List.singleton_inj.mp this.2]; simp, this.1⟩

theorem pauseOk_snoc {l : List Snap} {x : Snap} (h : PauseOk l)
    (hx : (x.up = true ∨ x.down = true) → ∀ τ, Ended l τ → τ + 500 ≤ x.t)
    (hl : ∀ a, l.getLast? = some a → (a.up = true ∧ x.up = false → x.down = false) ∧
      (a.down = true ∧ x.down = false → x.up = false)) : PauseOk (l ++ [x]) := by
  intro pre a b post he
  rcases split_snoc he with ⟨post', rfl, hl'⟩ | ⟨rfl, rfl, hl'⟩
  · have hp := h pre a b post' hl'
    refine ⟨fun hab c hc hd => ?_, fun hab c hc hd => ?_⟩
    · rw [← List.cons_append, List.mem_append, List.mem_singleton] at hc
      rcases hc with hc | rfl
      · exact hp.1 hab c hc hd
      · exact hx (.inr hd) _ ⟨pre, a, b, post', hl', rfl, .inl hab⟩
    · rw [← List.cons_append, List.mem_append, List.mem_singleton] at hc
      rcases hc with hc | rfl
      · exact hp.2 hab c hc hd
      · exact hx (.inl hd) _ ⟨pre, a, b, post', hl', rfl, .inr hab⟩
  · have hlast : l.getLast? = some a := by rw [hl']; simp
    have := hl a hlast
    refine ⟨fun hab c hc hd => ?_, fun hab c hc hd => ?_⟩
    · simp at hc; subst hc
      rw [this.1 hab] at hd; cases hd
    · simp at hc; subst hc
      rw [this.2 hab] at hd; cases hd

theorem ended_snoc {l : List Snap} {x : Snap} {τ : Nat} (h : Ended (l ++ [x]) τ) :
    Ended l τ ∨ (τ = x.t ∧ ∃ a, l.getLast? = some a ∧
      ((a.up = true ∧ x.up = false) ∨ (a.down = true ∧ x.down = false))) := by
  obtain ⟨pre, a, b, post, he, ht, hab⟩ := h
  rcases split_snoc he with ⟨post', rfl, hl'⟩ | ⟨rfl, rfl, hl'⟩
  · exact .inl ⟨pre, a, b, post', hl', ht, hab⟩
  · exact .inr ⟨ht.symm, a, by rw [hl']; simp, hab⟩

/-- Invariant for C26; `u` is the time of the last operation. -/
structure Paused (i : Io) (u : Nat) : Prop where
  ok : PauseOk i.log
  last : ∃ a, i.log.getLast? = some a ∧ a.up = i.up ∧ a.down = i.down
  stopped : i.dir = .stop → i.up = false ∧ i.down = false
  opening : i.dir = .up → i.up = decide (i.motor ≠ 2) ∧ i.down = decide (i.motor = 2)
  closing : i.dir = .down → i.up = decide (i.motor = 2) ∧ i.down = decide (i.motor ≠ 2)
  ends : ∀ τ, Ended i.log τ → τ + 500 ≤ u ∨ (i.pause ≠ 0 ∧ ∃ σ, i.pause = clk σ ∧ σ ≤ u ∧ τ ≤ σ)

/-- Two writes of a pass, given that all earlier phases ended 500 ms ago. -/
theorem two_writes {l : List Snap} {t : Nat} {up dn : Bool} {x y : Snap} (hok : PauseOk l)
    (hlast : ∃ a, l.getLast? = some a ∧ a.up = up ∧ a.down = dn)
    (hends : ∀ τ, Ended l τ → τ + 500 ≤ t) (hx : x.t = t) (hy : y.t = t)
    (h1 : (up = true ∧ x.up = false → x.down = false) ∧ (dn = true ∧ x.down = false → x.up = false))
    (h2 : (up = true ∧ x.up = false) ∨ (dn = true ∧ x.down = false) → y.up = false ∧ y.down = false)
    (h3 : (x.up = true ∧ y.up = false → y.down = false) ∧ (x.down = true ∧ y.down = false → y.up = false)) :
    PauseOk (l ++ [x] ++ [y]) := by
  obtain ⟨a, ha, rfl, rfl⟩ := hlast
  have hX : PauseOk (l ++ [x]) := pauseOk_snoc hok (fun _ τ hτ => hx ▸ hends τ hτ) (by
    intro a' ha'
    rw [ha] at ha'
    cases ha'
    exact h1)
  refine pauseOk_snoc hX ?_ ?_
  · intro hyon τ hτ
    rcases ended_snoc hτ with hτ | ⟨_, a', ha', hab⟩
    · exact hy ▸ hends τ hτ
    · rw [ha] at ha'
      cases ha'
      have := h2 hab
      rcases hyon with h | h
      · rw [this.1] at h; cases h
      · rw [this.2] at h; cases h
  · intro a' ha'
    simp at ha'
    subst ha'
    exact h3

/-- Without a phase ending between them, two writes create no new ends. -/
theorem ended_two {l : List Snap} {x y : Snap} {τ : Nat} (h : Ended (l ++ [x] ++ [y]) τ) :
    Ended l τ ∨ τ = x.t ∨ τ = y.t := by
  rcases ended_snoc h with h | ⟨h, _⟩
  · rcases ended_snoc h with h | ⟨h, _⟩
    · exact .inl h
    · exact .inr (.inl h)
  · exact .inr (.inr h)

theorem ended_two_none {l : List Snap} {up dn : Bool} {x y : Snap} {τ : Nat}
    (hlast : ∃ a, l.getLast? = some a ∧ a.up = up ∧ a.down = dn)
    (h1 : ¬ ((up = true ∧ x.up = false) ∨ (dn = true ∧ x.down = false)))
    (h2 : ¬ ((x.up = true ∧ y.up = false) ∨ (x.down = true ∧ y.down = false)))
    (h : Ended (l ++ [x] ++ [y]) τ) : Ended l τ := by
  obtain ⟨a, ha, rfl, rfl⟩ := hlast
  rcases ended_snoc h with h | ⟨_, a', ha', hab⟩
  · rcases ended_snoc h with h | ⟨_, a', ha', hab⟩
    · exact h
    · rw [ha] at ha'
      cases ha'
      exact absurd hab h1
  · simp at ha'
    subst ha'
    exact absurd hab h2

theorem act_paused {t u : Nat} {i i' : Io} (ht : clk t ≠ 0)
    (hends : ∀ τ, Ended i.log τ → τ + 500 ≤ t) (h : Act t i i') (hs : Paused i u) :
    Paused i' t := by
  have hl := hs.last
  cases h with
  | keep => exact ⟨hs.ok, hs.last, hs.stopped, hs.opening, hs.closing, fun τ hτ => .inl (hends τ hτ)⟩
  | stop =>
    refine ⟨?_, ⟨⟨t, false, false⟩, by simp [Io.stop]⟩, fun _ => ⟨rfl, rfl⟩, fun hd => (by cases hd),
      fun hd => (by cases hd), ?_⟩
    · refine two_writes hs.ok hl hends (by split <;> rfl) rfl ?_ (fun _ => ⟨rfl, rfl⟩) (by simp)
      cases hd : i.dir with
      | stop =>
        have := hs.stopped hd
        split <;> simp [this]
      | up =>
        have := hs.opening hd
        by_cases hm : i.motor = 2
        · rw [if_pos hm]; simp [this, hm]
        · rw [if_neg hm]; simp [this, hm]
      | down =>
        have := hs.closing hd
        by_cases hm : i.motor = 2
        · rw [if_pos hm]; simp [this, hm]
        · rw [if_neg hm]; simp [this, hm]
    · intro τ hτ
      refine .inr ⟨ht, t, rfl, Nat.le_refl _, ?_⟩
      rcases ended_two hτ with h | h | h
      · have := hends τ h; omega
      · rw [h]; split <;> exact Nat.le_refl _
      · rw [h]; exact Nat.le_refl _
  | «open» hd =>
    have hnow : i.up = (if i.dir = .up then decide (i.motor ≠ 2) else false) ∧
        i.down = (if i.dir = .up then decide (i.motor = 2) else false) := by
      cases hdir : i.dir with
      | stop => simp [hs.stopped hdir]
      | up => simp [hs.opening hdir]
      | down => exact absurd hdir hd
    refine ⟨?_, ⟨⟨t, decide (i.motor ≠ 2), decide (i.motor = 2)⟩, by simp [Io.open]⟩,
      fun hd => (by cases hd), fun _ => ⟨rfl, rfl⟩, fun hd => (by cases hd), ?_⟩
    · refine two_writes hs.ok hl hends (by split <;> rfl) rfl ?_ ?_ ?_
      all_goals
        by_cases hm : i.motor = 2
        · rw [if_pos hm]; simp only [hnow.1, hnow.2]; by_cases hu : i.dir = .up <;> simp [hm, hu]
        · rw [if_neg hm]; simp only [hnow.1, hnow.2]; by_cases hu : i.dir = .up <;> simp [hm, hu]
    · intro τ hτ
      left
      apply hends
      refine ended_two_none hl ?_ ?_ hτ
      all_goals
        by_cases hm : i.motor = 2
        · rw [if_pos hm]; simp only [hnow.1, hnow.2]; by_cases hu : i.dir = .up <;> simp [hm, hu]
        · rw [if_neg hm]; simp only [hnow.1, hnow.2]; by_cases hu : i.dir = .up <;> simp [hm, hu]
  | close hd =>
    have hnow : i.up = (if i.dir = .down then decide (i.motor = 2) else false) ∧
        i.down = (if i.dir = .down then decide (i.motor ≠ 2) else false) := by
      cases hdir : i.dir with
      | stop => simp [hs.stopped hdir]
      | down => simp [hs.closing hdir]
      | up => exact absurd hdir hd
    refine ⟨?_, ⟨⟨t, decide (i.motor = 2), decide (i.motor ≠ 2)⟩, by simp [Io.close]⟩,
      fun hd => (by cases hd), fun hd => (by cases hd), fun _ => ⟨rfl, rfl⟩, ?_⟩
    · refine two_writes hs.ok hl hends (by split <;> rfl) rfl ?_ ?_ ?_
      all_goals
        by_cases hm : i.motor = 2
        · rw [if_pos hm]; simp only [hnow.1, hnow.2]; by_cases hu : i.dir = .down <;> simp [hm, hu]
        · rw [if_neg hm]; simp only [hnow.1, hnow.2]; by_cases hu : i.dir = .down <;> simp [hm, hu]
    · intro τ hτ
      left
      apply hends
      refine ended_two_none hl ?_ ?_ hτ
      all_goals
        by_cases hm : i.motor = 2
        · rw [if_pos hm]; simp only [hnow.1, hnow.2]; by_cases hu : i.dir = .down <;> simp [hm, hu]
        · rw [if_neg hm]; simp only [hnow.1, hnow.2]; by_cases hu : i.dir = .down <;> simp [hm, hu]

theorem run_paused {F : Fp} (h : List (Nat × Op)) : ∀ {s s' : RS} {u : Nat}, Ordered u h →
    Calm F s h → run F s h = some s' → Paused s.io u → PauseOk s'.log := by
  induction h with
  | nil => intro s s' u _ _ hr hs; injection hr with hr; subst hr; exact hs.ok
  | cons e h ih =>
    intro s s' u ho hc hr hs
    obtain ⟨t, o⟩ := e
    unfold run at hr
    cases he : step F s (t, o) with
    | none => rw [he] at hr; cases hr
    | some q =>
      rw [he] at hr
      simp only [Calm, he] at hc
      obtain ⟨hclk, hmot, hc⟩ := hc
      refine ih ho.2 hc hr ?_
      have hut := ho.1
      by_cases hop : o = .pass
      · subst hop
        rcases pass_act (show pass F t s = some q from he) with ⟨_, _, rfl⟩ | ⟨hp, ha⟩
        · refine ⟨hs.ok, hs.last, hs.stopped, hs.opening, hs.closing, fun τ hτ => ?_⟩
          rcases hs.ends τ hτ with h | ⟨h1, σ, h2, h3, h4⟩
          · exact .inl (by omega)
          · exact .inr ⟨h1, σ, h2, by omega, h4⟩
        · refine act_paused (i := { s.io with pause := 0 }) (u := t) (hclk rfl) ?_ ha ?_
          · intro τ hτ
            rcases hs.ends τ hτ with h | ⟨h1, σ, h2, h3, h4⟩
            · omega
            · have h2' : s.pause = clk σ := h2
              rcases hp with hp | hp
              · exact absurd hp h1
              · have := since_clk_le t σ (by omega)
                rw [← h2'] at this
                omega
          · refine ⟨hs.ok, hs.last, hs.stopped, hs.opening, hs.closing, fun τ hτ => ?_⟩
            left
            rcases hs.ends τ hτ with h | ⟨h1, σ, h2, h3, h4⟩
            · omega
            · have h2' : s.pause = clk σ := h2
              rcases hp with hp | hp
              · exact absurd hp h1
              · have := since_clk_le t σ (by omega)
                rw [← h2'] at this
                omega
      · have hio := other_io hop he
        rw [hio]
        refine ⟨hs.ok, hs.last, hs.stopped, fun hd => ?_, fun hd => ?_, fun τ hτ => ?_⟩
        · have hne : s.dir ≠ .stop := by
            intro h'
            rw [show s.dir = Dir.up from hd] at h'
            cases h'
          have := hs.opening hd
          have hm := hmot hne
          exact ⟨this.1.trans (decide_eq_decide.mpr (not_congr hm.symm)),
            this.2.trans (decide_eq_decide.mpr hm.symm)⟩
        · have hne : s.dir ≠ .stop := by
            intro h'
            rw [show s.dir = Dir.down from hd] at h'
            cases h'
          have := hs.closing hd
          have hm := hmot hne
          exact ⟨this.1.trans (decide_eq_decide.mpr hm.symm),
            this.2.trans (decide_eq_decide.mpr (not_congr hm.symm))⟩
        · rcases hs.ends τ hτ with h | ⟨h1, σ, h2, h3, h4⟩
          · exact .inl (by show τ + 500 ≤ t; omega)
          · exact .inr ⟨h1, σ, h2, by show σ ≤ t; omega, h4⟩

theorem boot_paused (b : Boot) : Paused (boot b).io b.t := by
  refine ⟨?_, ⟨_, rfl, rfl, rfl⟩, fun _ => ⟨rfl, rfl⟩, fun h => (by cases h), fun h => (by cases h), ?_⟩
  · intro pre x y post h
    have := congrArg List.length h
    simp [boot, RS.io] at this
    omega
  · rintro τ ⟨pre, x, y, post, h, _⟩
    have := congrArg List.length h
    simp [boot, RS.io] at this
    omega

/-- C26 (partial: `Calm`). -/
theorem pause_before_reversing_partial (F : Fp) (b : Boot) (h : List (Nat × Op)) (s : RS)
    (ho : Ordered b.t h) (hc : Calm F (boot b) h) (hr : run F (boot b) h = some s) :
    PauseOk s.log :=
  run_paused h ho hc hr (boot_paused b)

/-- A reversal meets the hypotheses. -/
example : let ops : List (Nat × Op) := [(5, .action .moveUp), (10, .pass), (20, .config ⟨20000, 20000, 1, 1, -1⟩),
      (30, .action .moveDown), (40, .pass), (50, .pass), (540, .pass)]
    let b : Boot := { t := 1, closing := 10000, opening := 10000, pos := 50 }
    Ordered b.t ops ∧ Calm ⟨.exact, .exact⟩ (boot b) ops ∧
    (run ⟨.exact, .exact⟩ (boot b) ops).map (fun s => (s.upOn, s.downOn)) = some (false, true) := by
  decide +kernel

/-- C26 fails: one configuration message that changes the times and the motor wiring while the
shutter is moving makes the next timer pass switch straight to the opposite output. -/
theorem pause_config_violation : ¬ Pauses := by
  intro h
  let ops : List (Nat × Op) := [(5, .action .moveUp), (10, .pass),
    (20, .config ⟨20000, 20000, 2, 1, -1⟩), (30, .pass)]
  cases hr : run ⟨.exact, .exact⟩ (boot { t := 1, closing := 10000, opening := 10000, pos := 50 }) ops with
  | none => exact absurd hr (by decide +kernel)
  | some s =>
    have hp := h _ _ ops s (by simp [ops, Ordered]) hr
    have hlog : s.log = [⟨1, false, false⟩, ⟨10, false, false⟩, ⟨10, true, false⟩,
        ⟨30, false, false⟩, ⟨30, false, true⟩] := by
      have : (run ⟨.exact, .exact⟩ (boot { t := 1, closing := 10000, opening := 10000, pos := 50 })
          ops).map RS.log = some [⟨1, false, false⟩, ⟨10, false, false⟩, ⟨10, true, false⟩,
        ⟨30, false, false⟩, ⟨30, false, true⟩] := by decide +kernel
      rw [hr] at this
      exact Option.some.inj this
    have := (hp [⟨1, false, false⟩, ⟨10, false, false⟩] ⟨10, true, false⟩ ⟨30, false, false⟩
      [⟨30, false, true⟩] hlog).1 ⟨rfl, rfl⟩ ⟨30, false, true⟩ (by simp) rfl
    exact absurd this (by decide)

/-- C26 fails: a stop at the millisecond at which the clock reads 0 leaves no pause. -/
theorem pause_clock_violation : ¬ ∀ F b h s, Ordered b.t h → run F (boot b) h = some s →
    (∀ e ∈ h, e.2 = .pass ∨ ∃ a, e.2 = .action a) → PauseOk s.log := by
  intro h
  let ops : List (Nat × Op) := [(2 ^ 32 - 20, .action .moveUp), (2 ^ 32 - 10, .pass),
    (2 ^ 32 - 1, .action .moveDown), (2 ^ 32, .pass), (2 ^ 32 + 10, .pass)]
  cases hr : run ⟨.exact, .exact⟩ (boot { t := 1, closing := 10000, opening := 10000, pos := 50 }) ops with
  | none => exact absurd hr (by decide +kernel)
  | some s =>
    have hp := h _ _ ops s (by simp [ops, Ordered]) hr (by simp [ops])
    have hlog : s.log = [⟨1, false, false⟩, ⟨2 ^ 32 - 10, false, false⟩, ⟨2 ^ 32 - 10, true, false⟩,
        ⟨2 ^ 32, false, false⟩, ⟨2 ^ 32, false, false⟩, ⟨2 ^ 32 + 10, false, false⟩,
        ⟨2 ^ 32 + 10, false, true⟩] := by
      have : (run ⟨.exact, .exact⟩ (boot { t := 1, closing := 10000, opening := 10000, pos := 50 })
          ops).map RS.log = some [⟨1, false, false⟩, ⟨2 ^ 32 - 10, false, false⟩,
        ⟨2 ^ 32 - 10, true, false⟩, ⟨2 ^ 32, false, false⟩, ⟨2 ^ 32, false, false⟩,
        ⟨2 ^ 32 + 10, false, false⟩, ⟨2 ^ 32 + 10, false, true⟩] := by decide +kernel
      rw [hr] at this
      exact Option.some.inj this
    have := (hp [⟨1, false, false⟩, ⟨2 ^ 32 - 10, false, false⟩] ⟨2 ^ 32 - 10, true, false⟩
      ⟨2 ^ 32, false, false⟩ [⟨2 ^ 32, false, false⟩, ⟨2 ^ 32 + 10, false, false⟩,
        ⟨2 ^ 32 + 10, false, true⟩] hlog).1 ⟨rfl, rfl⟩ ⟨2 ^ 32 + 10, false, true⟩ (by simp) rfl
    exact absurd this (by decide)

end Verif.Shutter
