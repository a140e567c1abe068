import Verif.Shutter.Frames
/-!
# C27: the position
-/

namespace Verif.Shutter

/-! ## Range -/

theorem setPosition_ok (n : Int) (s : RS) : PosOk (setPosition n s).pos := by
  right
  show 0 ≤ (if n < 0 then 0 else if n > 100 then 100 else n) ∧ (if n < 0 then 0 else if n > 100 then 100 else n) ≤ 100
  split
  · omega
  · split <;> omega

theorem stopStage_pos (t : Nat) (s : RS) : (stopStage t s).pos = s.pos := by
  unfold stopStage
  obtain ⟨l, h⟩ := stopMovement_eq t s
  rw [h]
  split
  · split <;> rfl
  · rfl

theorem calBegin_pos (t : Nat) (s : RS) : (calBegin t s).pos = s.pos := by
  unfold calBegin
  split
  · split
    · obtain ⟨l, h⟩ := stopMovement_eq t { s with timeout := 0 }
      rw [h]
    · obtain ⟨a, b, l, h⟩ := startClosing_eq t { s with
        calTime := s.closing, timeout := if s.closing = 0 then defaultTimeout else 0 }
      rw [h]
  · split
    · obtain ⟨l, h⟩ := stopMovement_eq t { s with timeout := 0 }
      rw [h]
    · obtain ⟨a, b, l, h⟩ := startOpening_eq t { s with
        calTime := s.opening, timeout := if s.opening = 0 then defaultTimeout else 0 }
      rw [h]

theorem stopMovement_pos (t : Nat) (s : RS) : (stopMovement t s).pos = s.pos := by
  obtain ⟨l, h⟩ := stopMovement_eq t s
  rw [h]

theorem calEnd_ok {t : Nat} {s : RS} (h : PosOk s.pos) : PosOk (calEnd t s).pos := by
  unfold calEnd
  split
  · simp only []
    rw [stopMovement_pos]
    have h1 : ∀ x, (if (setPosition x s).target < 0 then setTarget stopPos (setPosition x s)
        else setPosition x s).pos = (setPosition x s).pos := by intro x; split <;> rfl
    rw [h1]
    exact setPosition_ok _ s
  · exact h

theorem redirect_pos (t : Nat) (d : Dir) (s : RS) : (redirect t d s).pos = s.pos := by
  unfold redirect
  split
  · rfl
  · split
    · simp only []
      split
      · obtain ⟨a, b, l, h⟩ := startClosing_eq t { s with newTarget := false, startPos := s.pos }
        rw [h]
      · obtain ⟨a, b, l, h⟩ := startOpening_eq t { s with newTarget := false, startPos := s.pos }
        rw [h]
    · exact stopMovement_pos t s

/-- What the stage for a known position while moving up can do. -/
theorem moveUpStage_cases {F : Fp} {t : Nat} {s s' : RS} (h : moveUpStage F t s = some s') :
    ∃ p, posUp F s.opening s.startPos (since (clk t) s.started) = some p ∧
      ((¬ ((setPosition p s).target ≥ 0 ∧ (setPosition p s).pos ≤ (setPosition p s).target) ∧ s' = setPosition p s) ∨
       ((setPosition p s).target = 0 ∧ (setPosition p s).pos ≤ 0 ∧
         ∃ m, marginValue F s.margin s.opening = some m ∧
           s' = { setPosition p s with timeout := m, started := clk t }) ∨
       ((setPosition p s).target ≥ 0 ∧ (setPosition p s).target ≠ 0 ∧
         (setPosition p s).pos ≤ (setPosition p s).target ∧ s' = stopMovement t (setPosition p s))) := by
  unfold moveUpStage at h
  cases hp : posUp F s.opening s.startPos (since (clk t) s.started) with
  | none => rw [hp] at h; cases h
  | some p =>
    rw [hp] at h
    simp only [Option.bind_eq_bind, Option.bind_some] at h
    refine ⟨p, rfl, ?_⟩
    split at h
    · rename_i hc
      split at h
      · rename_i h0
        cases hm : marginValue F (setPosition p s).margin (setPosition p s).opening with
        | none => rw [hm] at h; cases h
        | some m =>
          rw [hm] at h
          injection h with h
          exact .inr (.inl ⟨h0, by rw [← h0]; exact hc.2, m, hm, h.symm⟩)
      · rename_i h0
        injection h with h
        exact .inr (.inr ⟨hc.1, h0, hc.2, h.symm⟩)
    · rename_i hc
      injection h with h
      exact .inl ⟨hc, h.symm⟩

/-- What the stage for a known position while moving down can do. -/
theorem moveDownStage_cases {F : Fp} {t : Nat} {s s' : RS} (h : moveDownStage F t s = some s') :
    ∃ p, posDown F s.closing s.startPos (since (clk t) s.started) = some p ∧
      ((¬ ((setPosition p s).target ≥ 0 ∧ (setPosition p s).pos ≥ (setPosition p s).target) ∧ s' = setPosition p s) ∨
       ((setPosition p s).target = 100 ∧ (setPosition p s).pos ≥ 100 ∧
         ∃ m, marginValue F s.margin s.closing = some m ∧
           s' = { setPosition p s with timeout := m, started := clk t }) ∨
       ((setPosition p s).target ≥ 0 ∧ (setPosition p s).target ≠ 100 ∧
         (setPosition p s).pos ≥ (setPosition p s).target ∧ s' = stopMovement t (setPosition p s))) := by
  unfold moveDownStage at h
  cases hp : posDown F s.closing s.startPos (since (clk t) s.started) with
  | none => rw [hp] at h; cases h
  | some p =>
    rw [hp] at h
    simp only [Option.bind_eq_bind, Option.bind_some] at h
    refine ⟨p, rfl, ?_⟩
    split at h
    · rename_i hc
      split at h
      · rename_i h0
        cases hm : marginValue F (setPosition p s).margin (setPosition p s).closing with
        | none => rw [hm] at h; cases h
        | some m =>
          rw [hm] at h
          injection h with h
          exact .inr (.inl ⟨h0, by rw [← h0]; exact hc.2, m, hm, h.symm⟩)
      · rename_i h0
        injection h with h
        exact .inr (.inr ⟨hc.1, h0, hc.2, h.symm⟩)
    · rename_i hc
      injection h with h
      exact .inl ⟨hc, h.symm⟩

theorem body_ok {F : Fp} {t : Nat} {s s' : RS} (h : body F t s = some s') (hs : PosOk s.pos) :
    PosOk s'.pos := by
  unfold body at h
  split at h
  · unfold calStage at h
    split at h
    · split at h
      · cases hc : calStart t s with
        | none => rw [hc] at h; cases h
        | some r =>
          rw [hc] at h
          injection h with h
          subst h
          apply calEnd_ok
          unfold calStart at hc
          split at hc
          · cases hc
          · injection hc with hc
            subst hc
            rw [show ({ calBegin t s with calTime := (calBegin t s).calTime * 11 / 10 } : RS).pos
              = (calBegin t s).pos from rfl, calBegin_pos]
            exact hs
      · injection h with h
        subst h
        exact calEnd_ok hs
    · injection h with h
      subst h
      exact hs
  · split at h
    · unfold knownStage at h
      split at h
      · split at h
        · obtain ⟨p, _, hc⟩ := moveUpStage_cases h
          have := setPosition_ok p s
          rcases hc with ⟨_, rfl⟩ | ⟨_, _, m, _, rfl⟩ | ⟨_, _, _, rfl⟩
          · exact this
          · exact this
          · rw [stopMovement_pos]; exact this
        · split at h
          · obtain ⟨p, _, hc⟩ := moveDownStage_cases h
            have := setPosition_ok p s
            rcases hc with ⟨_, rfl⟩ | ⟨_, _, m, _, rfl⟩ | ⟨_, _, _, rfl⟩
            · exact this
            · exact this
            · rw [stopMovement_pos]; exact this
          · injection h with h
            subst h
            exact hs
      · split at h
        · cases hc : choose F s with
          | none => rw [hc] at h; cases h
          | some c =>
            rw [hc] at h
            injection h with h
            subst h
            rw [redirect_pos]
            exact hs
        · injection h with h
          subst h
          exact hs
    · injection h with h
      subst h
      left
      unfold unknownStage
      split
      · simp only []
        split
        · exact redirect_pos t _ _
        · exact redirect_pos t _ _
      · rfl

theorem timeoutStage_pos (t : Nat) (s : RS) : (timeoutStage t s).pos = s.pos := by
  unfold timeoutStage; split <;> rfl

theorem pass_ok {F : Fp} {t : Nat} {s s' : RS} (h : pass F t s = some s') (hs : PosOk s.pos) :
    PosOk s'.pos := by
  unfold pass at h
  split at h
  · injection h with h; subst h; exact hs
  · cases hb : body F t (stopStage t { s with pause := 0 }) with
    | none => rw [hb] at h; cases h
    | some r =>
      rw [hb] at h
      injection h with h
      subst h
      rw [timeoutStage_pos]
      refine body_ok hb ?_
      rw [stopStage_pos]
      exact hs

theorem setTimes_ok (c o : Nat) {s : RS} (hs : PosOk s.pos) : PosOk (setTimes c o s).pos := by
  unfold setTimes
  split
  · exact setPosition_ok unknownPos { s with closing := c % 2 ^ 32, opening := o % 2 ^ 32 }
  · exact hs

theorem stepByStep_pos (s : RS) : (stepByStep s).pos = s.pos := by
  unfold stepByStep; repeat' split
  all_goals rfl

theorem orStop_pos (n : Int) (s : RS) : (orStop n s).pos = s.pos := by
  unfold orStop; split <;> rfl

theorem step_ok {F : Fp} {e : Nat × Op} {s s' : RS} (h : step F s e = some s') (hs : PosOk s.pos) :
    PosOk s'.pos := by
  obtain ⟨t, o⟩ := e
  cases o with
  | pass => exact pass_ok h hs
  | server d k =>
    injection h with h
    subst h
    unfold server
    have := setTimes_ok (d % 65536 * 100) (d / 65536 % 65536 * 100) hs
    simp only []
    repeat' split
    all_goals first
      | exact this
      | (rw [orStop_pos]; exact this)
      | (rw [stepByStep_pos]; exact this)
  | action a =>
    injection h with h
    subst h
    cases a
    all_goals first
      | exact hs
      | (show PosOk (orStop _ s).pos; rw [orStop_pos]; exact hs)
      | (show PosOk (stepByStep s).pos; rw [stepByStep_pos]; exact hs)
  | target n => injection h with h; subst h; exact hs
  | times c o => injection h with h; subst h; exact setTimes_ok c o hs
  | config c =>
    injection h with h
    subst h
    unfold applyConfig
    simp only []
    have hq : PosOk (if c.opening ≥ 0 ∧ c.closing ≥ 0 then setTimes c.closing.toNat c.opening.toNat s
        else s).pos := by
      split
      · exact setTimes_ok _ _ hs
      · exact hs
    generalize (if c.opening ≥ 0 ∧ c.closing ≥ 0 then setTimes c.closing.toNat c.opening.toNat s
        else s) = q at *
    have hr : (if q.inMove then q else setTarget stopPos q).pos = q.pos := by split <;> rfl
    rw [hr]
    exact hq
  | recalibrate => injection h with h; subst h; exact setPosition_ok unknownPos s
  | calibrationNeeded => injection h with h; subst h; exact setPosition_ok unknownPos s
  | position n => injection h with h; subst h; exact setPosition_ok n s
  | notCalibrated => injection h with h; subst h; exact .inl rfl
  | calibrationOngoing n => injection h with h; subst h; exact hs
  | calibrationFinished => injection h with h; subst h; exact hs
  | motorEnabled b => injection h with h; subst h; exact hs
  | motorValue v => injection h with h; subst h; split <;> exact hs
  | marginEnabled b => injection h with h; subst h; exact hs
  | marginValue v => injection h with h; subst h; split <;> exact hs
  | comfortUp n => injection h with h; subst h; exact hs
  | comfortDown n => injection h with h; subst h; exact hs

theorem run_ok {F : Fp} (h : List (Nat × Op)) : ∀ {s s' : RS}, run F s h = some s' → PosOk s.pos →
    PosOk s'.pos := by
  induction h with
  | nil => intro s s' hr hs; injection hr with hr; subst hr; exact hs
  | cons e h ih =>
    intro s s' hr hs
    unfold run at hr
    cases he : step F s e with
    | none => rw [he] at hr; cases hr
    | some q => rw [he] at hr; exact ih hr (step_ok he hs)

/-- C27, first half: after any history whatever the position is 0 to 100, or unknown, if it was so
when the device started (a saved position is one that was reported before). -/
theorem position_in_range (F : Fp) (b : Boot) (h : List (Nat × Op)) (s : RS) (hb : PosOk b.pos)
    (hr : run F (boot b) h = some s) : PosOk s.pos :=
  run_ok h hr hb

/-- Half way down. -/
example : ((run ⟨.milli, .milli⟩ (boot { t := 1, closing := 10000, opening := 10000, pos := 10 })
    [(5, .action .moveDown), (10, .pass), (2020, .pass), (5010, .pass)]).map RS.pos) = some 59 := by
  decide +kernel

/-- C27 fails: new travel times that arrive while the shutter moves down make the reported position
jump up (`setCalibrationNeeded` stores "unknown" through a setter that clamps it to 0). -/
theorem position_jump_violation : ¬ AlwaysDirected := by
  intro h
  let F : Fp := ⟨.exact, .exact⟩
  let b : Boot := { t := 1, closing := 10000, opening := 10000, pos := 50 }
  let ops : List (Nat × Op) := [(5, .action .moveDown), (10, .pass)]
  let e : Nat × Op := (20, .times 20000 20000)
  cases hr : run F (boot b) ops with
  | none => exact absurd hr (by decide +kernel)
  | some s =>
    have hpos : (run F (boot b) ops).map (fun s => (s.pos, s.dir, (step F s e).map RS.pos)) =
        some (50, .down, some 0) := by decide +kernel
    rw [hr] at hpos
    have hpos := Option.some.inj hpos
    injection hpos with h1 h2
    injection h2 with h2 h3
    cases he : step F s e with
    | none => rw [he] at h3; cases h3
    | some s' =>
      rw [he] at h3
      have h3 : s'.pos = 0 := Option.some.inj h3
      have := (h F b ops s e s' (by decide) (by decide) hr he (by rw [h1]; decide) (by rw [h3]; decide)).2 h2
      rw [h1, h3] at this
      exact absurd this (by decide)

/-- Undefined behaviour is reachable: a shutter that moves up without travel times is given times
and then a position while it calibrates; the next pass converts a negative value to `uint32_t`. -/
theorem position_undefined_violation : ∃ b h, PosOk b.pos ∧ Ordered b.t h ∧
    run ⟨.exact, .exact⟩ (boot b) h = none :=
  ⟨{ t := 1 }, [(5, .action .moveUp), (10, .pass), (20, .times 10000 10000), (30, .pass),
    (40, .position 50), (50, .pass)], by decide, by decide, by decide +kernel⟩

/-! ## Monotonicity -/

/-- What operations other than timer passes never touch. -/
theorem other_frame {F : Fp} {t : Nat} {o : Op} {s s' : RS} (ho : o ≠ .pass)
    (h : step F s (t, o) = some s') :
    s'.dir = s.dir ∧ s'.startPos = s.startPos ∧ s'.started = s.started ∧ s'.timeAvail = s.timeAvail ∧
    s'.pause = s.pause := by
  have hT : ∀ c o, (setTimes c o s).startPos = s.startPos ∧ (setTimes c o s).started = s.started ∧
      (setTimes c o s).timeAvail = s.timeAvail := by
    intro c o; unfold setTimes; split <;> exact ⟨rfl, rfl, rfl⟩
  have hS : ∀ q : RS, (stepByStep q).startPos = q.startPos ∧ (stepByStep q).started = q.started ∧
      (stepByStep q).timeAvail = q.timeAvail := by
    intro q; unfold stepByStep; repeat' split
    all_goals exact ⟨rfl, rfl, rfl⟩
  have hO : ∀ n (q : RS), (orStop n q).startPos = q.startPos ∧ (orStop n q).started = q.started ∧
      (orStop n q).timeAvail = q.timeAvail := by
    intro n q; unfold orStop; split <;> exact ⟨rfl, rfl, rfl⟩
  have hio := other_io ho h
  have hd : s'.dir = s.dir := congrArg Io.dir hio
  have hp : s'.pause = s.pause := congrArg Io.pause hio
  have key : s'.startPos = s.startPos ∧ s'.started = s.started ∧ s'.timeAvail = s.timeAvail := by
    clear hio hd hp
    cases o with
    | pass => exact absurd rfl ho
    | server d k =>
      injection h with h
      subst h
      unfold server
      have := hT (d % 65536 * 100) (d / 65536 % 65536 * 100)
      simp only []
      generalize setTimes (d % 65536 * 100) (d / 65536 % 65536 * 100) s = q at *
      rw [← this.1, ← this.2.1, ← this.2.2]
      repeat' split
      all_goals first
        | exact ⟨rfl, rfl, rfl⟩
        | exact hO _ q
        | exact hS q
    | action a =>
      injection h with h
      subst h
      cases a
      all_goals first
        | exact ⟨rfl, rfl, rfl⟩
        | exact hO _ s
        | exact hS s
    | times c o => injection h with h; subst h; exact hT c o
    | config c =>
      injection h with h
      subst h
      unfold applyConfig
      simp only []
      have hq : (if c.opening ≥ 0 ∧ c.closing ≥ 0 then setTimes c.closing.toNat c.opening.toNat s
          else s).startPos = s.startPos ∧ (if c.opening ≥ 0 ∧ c.closing ≥ 0 then
          setTimes c.closing.toNat c.opening.toNat s else s).started = s.started ∧
          (if c.opening ≥ 0 ∧ c.closing ≥ 0 then
          setTimes c.closing.toNat c.opening.toNat s else s).timeAvail = s.timeAvail := by
        split
        · exact hT _ _
        · exact ⟨rfl, rfl, rfl⟩
      generalize (if c.opening ≥ 0 ∧ c.closing ≥ 0 then setTimes c.closing.toNat c.opening.toNat s
          else s) = q at *
      rw [← hq.1, ← hq.2.1, ← hq.2.2]
      have hr : (if q.inMove then q else setTarget stopPos q).startPos = q.startPos ∧
          (if q.inMove then q else setTarget stopPos q).started = q.started ∧
          (if q.inMove then q else setTarget stopPos q).timeAvail = q.timeAvail := by
        split <;> exact ⟨rfl, rfl, rfl⟩
      exact hr
    | motorValue v => injection h with h; subst h; split <;> exact ⟨rfl, rfl, rfl⟩
    | marginValue v => injection h with h; subst h; split <;> exact ⟨rfl, rfl, rfl⟩
    | _ => injection h with h; subst h; exact ⟨rfl, rfl, rfl⟩
  exact ⟨hd, key.1, key.2.1, key.2.2, hp⟩

/-- Movement bookkeeping: `u` is the time of the last operation, `t0` the start of the history. -/
structure Track (F : Fp) (t0 u : Nat) (s : RS) : Prop where
  known : s.calibrated = true → 0 ≤ s.pos ∧ s.pos ≤ 100
  up : s.calibrated = true → s.dir = .up → s.pos = 0 ∨ (0 ≤ s.startPos ∧ s.startPos ≤ 100 ∧
    ∃ τ, t0 ≤ τ ∧ τ ≤ u ∧ s.started = clk τ ∧
      ∀ e p, u - τ ≤ e → posUp F s.opening s.startPos e = some p → p ≤ s.pos)
  down : s.calibrated = true → s.dir = .down → s.pos = 100 ∨ (0 ≤ s.startPos ∧ s.startPos ≤ 100 ∧
    ∃ τ, t0 ≤ τ ∧ τ ≤ u ∧ s.started = clk τ ∧
      ∀ e p, u - τ ≤ e → posDown F s.closing s.startPos e = some p → s.pos ≤ p)

theorem Track.later {F : Fp} {t0 u u' : Nat} {s : RS} (h : Track F t0 u s) (hu : u ≤ u') :
    Track F t0 u' s := by
  refine ⟨h.known, fun hc hd => ?_, fun hc hd => ?_⟩
  · rcases h.up hc hd with h | ⟨h1, h2, τ, h3, h4, h5, h6⟩
    · exact .inl h
    · exact .inr ⟨h1, h2, τ, h3, by omega, h5, fun e p he hp => h6 e p (by omega) hp⟩
  · rcases h.down hc hd with h | ⟨h1, h2, τ, h3, h4, h5, h6⟩
    · exact .inl h
    · exact .inr ⟨h1, h2, τ, h3, by omega, h5, fun e p he hp => h6 e p (by omega) hp⟩

/-- `Track` depends only on these fields. -/
theorem Track.congr {F : Fp} {t0 u : Nat} {s s' : RS} (h : Track F t0 u s)
    (h1 : s'.dir = s.dir) (h2 : s'.startPos = s.startPos) (h3 : s'.started = s.started)
    (h4 : s'.timeAvail = s.timeAvail) (h5 : s'.pos = s.pos) (h6 : s'.closing = s.closing)
    (h7 : s'.opening = s.opening) (h8 : s'.calibrate = s.calibrate) : Track F t0 u s' := by
  have hc : s'.calibrated = s.calibrated := by unfold RS.calibrated; rw [h4, h5, h6, h7, h8]
  refine ⟨?_, ?_, ?_⟩
  · rw [hc, h5]; exact h.known
  · rw [hc, h1, h2, h3, h5, h7]; exact h.up
  · rw [hc, h1, h2, h3, h5, h6]; exact h.down

theorem Track.stopped {F : Fp} {t0 u : Nat} {s : RS} (hd : s.dir = .stop)
    (hk : s.calibrated = true → 0 ≤ s.pos ∧ s.pos ≤ 100) : Track F t0 u s :=
  ⟨hk, fun _ h => (by rw [hd] at h; cases h), fun _ h => (by rw [hd] at h; cases h)⟩

theorem Track.uncalibrated {F : Fp} {t0 u : Nat} {s : RS} (hc : s.calibrated = false) :
    Track F t0 u s :=
  ⟨fun h => (by rw [hc] at h; cases h), fun h => (by rw [hc] at h; cases h),
    fun h => (by rw [hc] at h; cases h)⟩

theorem setPosition_pos {p : Int} {s : RS} (h0 : 0 ≤ p) (h1 : p ≤ 100) : (setPosition p s).pos = p := by
  show (if p < 0 then 0 else if p > 100 then 100 else p) = p
  rw [if_neg (by omega), if_neg (by omega)]

theorem calibrated_calibrate {s : RS} (h : s.calibrated = true) : s.calibrate = false := by
  unfold RS.calibrated at h
  cases hc : s.calibrate with
  | false => rfl
  | true => rw [hc] at h; simp at h

theorem moveUp_track {F : Fp} {t0 t : Nat} {s s' : RS} (h : moveUpStage F t s = some s')
    (hs : Track F t0 t s) (hc : s.calibrated = true) (hd : s.dir = .up) (hp : s.pos > 0)
    (ht : t < t0 + 2 ^ 32) : s'.pos ≤ s.pos ∧ Track F t0 t s' := by
  obtain ⟨p, hpos, hcase⟩ := moveUpStage_cases h
  rcases hs.up hc hd with h0 | ⟨ha, hb, τ, h3, h4, h5, h6⟩
  · omega
  have hsince : since (clk t) s.started = t - τ := by
    rw [h5]; exact since_clk_eq t τ h4 (by omega)
  rw [hsince] at hpos
  have hr := posUp_range ha hb hpos
  have hle := h6 (t - τ) p (Nat.le_refl _) hpos
  have hk := hs.known hc
  have hsp : (setPosition p s).pos = p := setPosition_pos hr.1 (by omega)
  have hcal := calibrated_calibrate hc
  rcases hcase with ⟨_, rfl⟩ | ⟨h1, h2, m, _, rfl⟩ | ⟨h1, h2, h3, rfl⟩
  · refine ⟨by rw [hsp]; exact hle, fun _ => by rw [hsp]; omega, fun _ _ => .inr ⟨ha, hb, τ, h3, h4, h5, ?_⟩,
      fun _ hd' => ?_⟩
    · intro e q he hq
      rw [hsp]
      exact posUp_mono ha hb he hpos hq
    · rw [show (setPosition p s).dir = s.dir from rfl, hd] at hd'; cases hd'
  · have hpz : p = 0 := by omega
    refine ⟨?_, fun _ => ?_, fun _ _ => .inl ?_, fun _ hd' => ?_⟩
    · show (setPosition p s).pos ≤ s.pos; rw [hsp]; exact hle
    · show 0 ≤ (setPosition p s).pos ∧ (setPosition p s).pos ≤ 100; rw [hsp]; omega
    · show (setPosition p s).pos = 0; rw [hsp]; exact hpz
    · rw [show (({ setPosition p s with timeout := m, started := clk t } : RS)).dir = s.dir from rfl, hd] at hd'
      cases hd'
  · refine ⟨?_, Track.stopped rfl fun _ => ?_⟩
    · rw [stopMovement_pos, hsp]; exact hle
    · rw [stopMovement_pos, hsp]; omega

theorem moveDown_track {F : Fp} {t0 t : Nat} {s s' : RS} (h : moveDownStage F t s = some s')
    (hs : Track F t0 t s) (hc : s.calibrated = true) (hd : s.dir = .down) (hp : s.pos < 100)
    (ht : t < t0 + 2 ^ 32) : s.pos ≤ s'.pos ∧ Track F t0 t s' := by
  obtain ⟨p, hpos, hcase⟩ := moveDownStage_cases h
  rcases hs.down hc hd with h0 | ⟨ha, hb, τ, h3, h4, h5, h6⟩
  · omega
  have hsince : since (clk t) s.started = t - τ := by
    rw [h5]; exact since_clk_eq t τ h4 (by omega)
  rw [hsince] at hpos
  have hr := posDown_range ha hb hpos
  have hle := h6 (t - τ) p (Nat.le_refl _) hpos
  have hk := hs.known hc
  have hsp : (setPosition p s).pos = p := setPosition_pos (by omega) hr.2
  rcases hcase with ⟨_, rfl⟩ | ⟨h1, h2, m, _, rfl⟩ | ⟨h1, h2, h3, rfl⟩
  · refine ⟨by rw [hsp]; exact hle, fun _ => by rw [hsp]; omega, fun _ hd' => ?_,
      fun _ _ => .inr ⟨ha, hb, τ, h3, h4, h5, ?_⟩⟩
    · rw [show (setPosition p s).dir = s.dir from rfl, hd] at hd'; cases hd'
    · intro e q he hq
      rw [hsp]
      exact posDown_mono ha hb he hpos hq
  · have hpz : p = 100 := by omega
    refine ⟨?_, fun _ => ?_, fun _ hd' => ?_, fun _ _ => .inl ?_⟩
    · show s.pos ≤ (setPosition p s).pos; rw [hsp]; exact hle
    · show 0 ≤ (setPosition p s).pos ∧ (setPosition p s).pos ≤ 100; rw [hsp]; omega
    · rw [show (({ setPosition p s with timeout := m, started := clk t } : RS)).dir = s.dir from rfl, hd] at hd'
      cases hd'
    · show (setPosition p s).pos = 100; rw [hsp]; exact hpz
  · refine ⟨?_, Track.stopped rfl fun _ => ?_⟩
    · rw [stopMovement_pos, hsp]; exact hle
    · rw [stopMovement_pos, hsp]; omega

theorem redirect_track {F : Fp} {t0 t : Nat} (d : Dir) {s : RS} (ht0 : t0 ≤ t)
    (hs : Track F t0 t s) : Track F t0 t (redirect t d s) := by
  unfold redirect
  split
  · exact hs.congr rfl rfl rfl rfl rfl rfl rfl rfl
  · split
    · simp only []
      split
      · obtain ⟨a, b, l, h⟩ := startClosing_eq t { s with newTarget := false, startPos := s.pos }
        rw [h]
        refine ⟨hs.known, fun _ hd => (by cases hd), fun hc _ => .inr ?_⟩
        have hk := hs.known hc
        exact ⟨hk.1, hk.2, t, ht0, Nat.le_refl _, rfl, fun e p _ hp => (posDown_range hk.1 hk.2 hp).1⟩
      · obtain ⟨a, b, l, h⟩ := startOpening_eq t { s with newTarget := false, startPos := s.pos }
        rw [h]
        refine ⟨hs.known, fun hc _ => .inr ?_, fun _ hd => (by cases hd)⟩
        have hk := hs.known hc
        exact ⟨hk.1, hk.2, t, ht0, Nat.le_refl _, rfl, fun e p _ hp => (posUp_range hk.1 hk.2 hp).2⟩
    · obtain ⟨l, h⟩ := stopMovement_eq t s
      rw [h]
      exact .stopped rfl hs.known

theorem calEnd_track {F : Fp} {t0 t : Nat} {s : RS} (hcal : s.calibrate = true) :
    Track F t0 t (calEnd t s) := by
  unfold calEnd
  split
  · simp only []
    refine .stopped rfl fun _ => ?_
    rw [stopMovement_pos]
    have h1 : ∀ x, (if (setPosition x s).target < 0 then setTarget stopPos (setPosition x s)
        else setPosition x s).pos = (setPosition x s).pos := by intro x; split <;> rfl
    rw [h1]
    split
    · rw [setPosition_pos (by omega) (by omega)]; omega
    · rw [setPosition_pos (by omega) (by omega)]; omega
  · refine .uncalibrated ?_
    unfold RS.calibrated
    rw [hcal]
    simp

theorem calEnd_directed {t : Nat} {s : RS} (hp : PosOk s.pos) : Directed s (calEnd t s) := by
  unfold calEnd
  split
  · simp only []
    intro hk _
    rw [stopMovement_pos]
    have h1 : ∀ x, (if (setPosition x s).target < 0 then setTarget stopPos (setPosition x s)
        else setPosition x s).pos = (setPosition x s).pos := by intro x; split <;> rfl
    rw [h1]
    rcases hp with hp | hp
    · exact absurd hp hk
    · refine ⟨fun hd => ?_, fun hd => ?_⟩
      · rw [if_pos hd, setPosition_pos (by omega) (by omega)]; exact hp.1
      · rw [if_neg (by rw [hd]; decide), setPosition_pos (by omega) (by omega)]; exact hp.2
  · intro _ _
    exact ⟨fun _ => Int.le_refl _, fun _ => Int.le_refl _⟩

theorem calRequested_calibrate {s : RS} (h : s.calRequested = true) : s.calibrate = true := by
  unfold RS.calRequested at h
  cases hc : s.calibrate with
  | true => rfl
  | false => rw [hc] at h; simp at h

theorem calBegin_calibrate (t : Nat) (s : RS) : (calBegin t s).calibrate = s.calibrate := by
  unfold calBegin
  split
  · split
    · obtain ⟨l, h⟩ := stopMovement_eq t { s with timeout := 0 }
      rw [h]
    · obtain ⟨a, b, l, h⟩ := startClosing_eq t { s with
        calTime := s.closing, timeout := if s.closing = 0 then defaultTimeout else 0 }
      rw [h]
  · split
    · obtain ⟨l, h⟩ := stopMovement_eq t { s with timeout := 0 }
      rw [h]
    · obtain ⟨a, b, l, h⟩ := startOpening_eq t { s with
        calTime := s.opening, timeout := if s.opening = 0 then defaultTimeout else 0 }
      rw [h]

theorem directed_same {s s' : RS} (h : s'.pos = s.pos) : Directed s s' := by
  intro _ _
  rw [h]
  exact ⟨fun _ => Int.le_refl _, fun _ => Int.le_refl _⟩

theorem body_track {F : Fp} {t0 t : Nat} {s s' : RS} (h : body F t s = some s') (ht0 : t0 ≤ t)
    (ht : t < t0 + 2 ^ 32) (hp : PosOk s.pos) (hs : Track F t0 t s) :
    Directed s s' ∧ Track F t0 t s' := by
  unfold body at h
  split at h
  · rename_i hreq
    have hcal := calRequested_calibrate hreq
    unfold calStage at h
    split at h
    · split at h
      · rename_i h0
        cases hc : calStart t s with
        | none => rw [hc] at h; cases h
        | some r =>
          rw [hc] at h
          injection h with h
          have hr := calStart_act h0 hc
          rw [calEnd_noop hr.2] at h
          subst h
          unfold calStart at hc
          split at hc
          · cases hc
          · injection hc with hc
            subst hc
            refine ⟨directed_same (calBegin_pos t s), .uncalibrated ?_⟩
            have h1 : ({ calBegin t s with calTime := (calBegin t s).calTime * 11 / 10 } : RS).calibrate = true :=
              (calBegin_calibrate t s).trans hcal
            unfold RS.calibrated
            rw [h1]
            simp
      · injection h with h
        subst h
        exact ⟨calEnd_directed hp, calEnd_track hcal⟩
    · injection h with h
      subst h
      exact ⟨directed_same rfl, hs⟩
  · split at h
    · rename_i hc
      unfold knownStage at h
      split at h
      · split at h
        · rename_i hd
          have := moveUp_track h hs hc hd.1 hd.2 ht
          exact ⟨fun _ _ => ⟨fun _ => this.1, fun h' => by rw [hd.1] at h'; cases h'⟩, this.2⟩
        · split at h
          · rename_i hd
            have := moveDown_track h hs hc hd.1 hd.2 ht
            exact ⟨fun _ _ => ⟨fun h' => (by rw [hd.1] at h'; cases h'), fun _ => this.1⟩, this.2⟩
          · injection h with h
            subst h
            exact ⟨directed_same rfl, hs⟩
      · split at h
        · cases hc : choose F s with
          | none => rw [hc] at h; cases h
          | some c =>
            rw [hc] at h
            injection h with h
            subst h
            exact ⟨directed_same (redirect_pos t c.1 _),
              redirect_track c.1 ht0 (hs.congr rfl rfl rfl rfl rfl rfl rfl rfl)⟩
        · injection h with h
          subst h
          exact ⟨directed_same rfl, hs⟩
    · rename_i hreq hc
      injection h with h
      subst h
      have hpos : (unknownStage t s).pos = unknownPos := by
        unfold unknownStage
        split
        · simp only []
          split
          · exact redirect_pos t _ _
          · exact redirect_pos t _ _
        · rfl
      refine ⟨fun _ h => absurd hpos h, .uncalibrated ?_⟩
      -- neither times nor calibration change
      have hR : ∀ d (q : RS), (redirect t d q).timeAvail = q.timeAvail ∧ (redirect t d q).calibrate = q.calibrate ∧
          (redirect t d q).opening = q.opening ∧ (redirect t d q).closing = q.closing := by
        intro d q
        unfold redirect
        split
        · exact ⟨rfl, rfl, rfl, rfl⟩
        · split
          · simp only []
            split
            · obtain ⟨a, b, l, h⟩ := startClosing_eq t { q with newTarget := false, startPos := q.pos }
              rw [h]; exact ⟨rfl, rfl, rfl, rfl⟩
            · obtain ⟨a, b, l, h⟩ := startOpening_eq t { q with newTarget := false, startPos := q.pos }
              rw [h]; exact ⟨rfl, rfl, rfl, rfl⟩
          · obtain ⟨l, h⟩ := stopMovement_eq t q
            rw [h]; exact ⟨rfl, rfl, rfl, rfl⟩
      have hU : (unknownStage t s).timeAvail = s.timeAvail ∧ (unknownStage t s).calibrate = s.calibrate ∧
          (unknownStage t s).opening = s.opening ∧ (unknownStage t s).closing = s.closing := by
        unfold unknownStage
        split
        · have := hR (blindDir s.target) { s with pos := unknownPos, timeout := defaultTimeout }
          simp only []
          split
          · exact this
          · exact this
        · exact ⟨rfl, rfl, rfl, rfl⟩
      have hc' : s.calibrated = false := by simpa using hc
      unfold RS.calibrated at hc' ⊢
      rw [hU.1, hU.2.1, hU.2.2.1, hU.2.2.2, hpos]
      split at hc'
      · rename_i hta; rw [if_pos hta]; exact hc'
      · rename_i hta; rw [if_neg hta]; simp

theorem pass_track {F : Fp} {t0 t : Nat} {s s' : RS} (h : pass F t s = some s') (ht0 : t0 ≤ t)
    (ht : t < t0 + 2 ^ 32) (hp : PosOk s.pos) (hs : Track F t0 t s) :
    Directed s s' ∧ Track F t0 t s' := by
  unfold pass at h
  split at h
  · injection h with h; subst h; exact ⟨directed_same rfl, hs⟩
  · cases hb : body F t (stopStage t { s with pause := 0 }) with
    | none => rw [hb] at h; cases h
    | some r =>
      rw [hb] at h
      injection h with h
      have hstop : Track F t0 t (stopStage t { s with pause := 0 }) ∧
          ((stopStage t { s with pause := 0 }).dir = s.dir ∨
            r.pos = s.pos ∨ r.pos = unknownPos) := by
        unfold stopStage at hb ⊢
        split at hb
        · rename_i hst
          split at hb
          · rename_i hm
            have hst' : ({ s with pause := 0 } : RS).target = stopPos := hst
            obtain ⟨l, hl⟩ := stopMovement_eq t { s with pause := 0 }
            rw [if_pos hst, if_pos hm]
            rw [hl] at hb ⊢
            refine ⟨.stopped rfl hs.known, .inr ?_⟩
            unfold body at hb
            split at hb
            · unfold calStage at hb
              rw [if_neg (by simp [show s.target = stopPos from hst])] at hb
              injection hb with hb
              rw [← hb]
              exact .inl rfl
            · split at hb
              · unfold knownStage at hb
                rw [if_neg (by simp), if_neg (by simp)] at hb
                injection hb with hb
                rw [← hb]
                exact .inl rfl
              · injection hb with hb
                rw [← hb]
                unfold unknownStage
                rw [if_neg (by simp)]
                exact .inr rfl
          · rename_i hm
            rw [if_pos hst, if_neg hm]
            exact ⟨hs.congr rfl rfl rfl rfl rfl rfl rfl rfl, .inl rfl⟩
        · rename_i hst
          rw [if_neg hst]
          exact ⟨hs.congr rfl rfl rfl rfl rfl rfl rfl rfl, .inl rfl⟩
      have hq := stopStage_pos t { s with pause := 0 }
      have hq : (stopStage t { s with pause := 0 }).pos = s.pos := hq
      generalize stopStage t { s with pause := 0 } = q at *
      have hbt := body_track hb ht0 ht (by rw [hq]; exact hp) hstop.1
      have hts : Track F t0 t s' := by
        subst h
        unfold timeoutStage
        split
        · exact hbt.2.congr rfl rfl rfl rfl rfl rfl rfl rfl
        · exact hbt.2
      have hpos : s'.pos = r.pos := by rw [← h]; exact timeoutStage_pos t r
      refine ⟨?_, hts⟩
      rcases hstop.2 with h1 | h1 | h1
      · intro ha hb'
        rw [hpos] at hb' ⊢
        have := hbt.1 (by rw [hq]; exact ha) hb'
        rw [hq, h1] at this
        exact this
      · exact directed_same (hpos.trans h1)
      · intro _ hb'
        exact absurd (hpos.trans h1) hb'

theorem run_track {F : Fp} {t0 : Nat} (h : List (Nat × Op)) : ∀ {s a a' : RS} {u : Nat} {e : Nat × Op},
    t0 ≤ u → Ordered u (h ++ [e]) → Quiet F t0 s (h ++ [e]) → PosOk s.pos → Track F t0 u s →
    run F s h = some a → step F a e = some a' → Directed a a' := by
  have one : ∀ {s s' : RS} {e : Nat × Op} {u : Nat} {r : List (Nat × Op)}, t0 ≤ u → u ≤ e.1 →
      Quiet F t0 s (e :: r) → PosOk s.pos → Track F t0 u s → step F s e = some s' →
      Directed s s' ∧ Track F t0 e.1 s' ∧ PosOk s'.pos ∧ Quiet F t0 s' r := by
    intro s s' e u r hu he hq hp hs hst
    obtain ⟨t, o⟩ := e
    simp only [Quiet, hst] at hq
    obtain ⟨hlt, hkeep, hq⟩ := hq
    have hok := step_ok hst hp
    by_cases ho : o = .pass
    · subst ho
      have := pass_track (show pass F t s = some s' from hst) (by simp at he; omega) hlt hp
        (hs.later he)
      exact ⟨this.1, this.2, hok, hq⟩
    · obtain ⟨h1, h2, h3, h4, h5⟩ := hkeep ho
      obtain ⟨f1, f2, f3, f4, _⟩ := other_frame ho hst
      exact ⟨directed_same h1, (hs.later he).congr f1 f2 f3 f4 h1 h2 h3 h4, hok, hq⟩
  induction h with
  | nil =>
    intro s a a' u e hu ho hq hp hs hr hst
    injection hr with hr
    subst hr
    exact (one hu ho.1 hq hp hs hst).1
  | cons x h ih =>
    intro s a a' u e hu ho hq hp hs hr hst
    unfold run at hr
    cases hx : step F s x with
    | none => rw [hx] at hr; cases hr
    | some q =>
      rw [hx] at hr
      obtain ⟨_, h1, h2, h3⟩ := one hu ho.1 hq hp hs hx
      exact ih (Nat.le_trans hu ho.1) ho.2 h3 h2 h1 hr hst

/-- C27, second half (partial). Take any history that leaves the shutter at rest (with its position
known if it is calibrated), followed by any further one in which only the timer moves the
position. Then at every operation of the latter the position changes in the direction of
movement. Missing: movements disturbed by new travel times, a new position or a calibration request
(see `position_jump_violation`), and 2^32 ms of continuous movement. -/
theorem position_directed_partial (F : Fp) (b : Boot) (h0 h : List (Nat × Op)) (e : Nat × Op)
    (s a a' : RS) (t0 : Nat) (hb : PosOk b.pos) (hr0 : run F (boot b) h0 = some s)
    (hrest : s.dir = .stop) (hknown : s.calibrated = true → s.pos ≠ unknownPos)
    (ho : Ordered t0 (h ++ [e])) (hq : Quiet F t0 s (h ++ [e]))
    (hr : run F s h = some a) (he : step F a e = some a') : Directed a a' := by
  have hp := position_in_range F b h0 s hb hr0
  refine run_track h (Nat.le_refl t0) ho hq hp (.stopped hrest fun hc => ?_) hr he
  rcases hp with hp | hp
  · exact absurd hp (hknown hc)
  · exact hp

/-- A movement down that is then reversed meets the hypotheses. -/
example : let F : Fp := ⟨.milli, .milli⟩
    let s := boot { t := 1, closing := 10000, opening := 10000, pos := 50 }
    let h : List (Nat × Op) := [(5, .action .moveDown), (10, .pass), (1000, .pass), (2000, .target 20),
      (2010, .pass), (3000, .pass), (4000, .pass)]
    Ordered 1 (h ++ [(4500, .pass)]) ∧ Quiet F 1 s (h ++ [(4500, .pass)]) ∧ s.dir = .stop ∧
    s.pos ≠ unknownPos ∧ (run F s h).map (fun a => (a.pos, a.dir, (step F a (4500, .pass)).map RS.pos)) =
      some (49, .up, some 44) := by
  decide +kernel

end Verif.Shutter
