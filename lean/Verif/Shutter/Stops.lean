import Verif.Shutter.Position
/-!
# C28: the motor stops
-/

namespace Verif.Shutter

theorem since_add {u t x : Nat} (hx : x < 2 ^ 32) (hut : u ≤ t)
    (h : since (clk u) x + (t - u) < 2 ^ 32) : since (clk t) x = since (clk u) x + (t - u) := by
  unfold since clk at *
  omega

/-! ## Violations -/

/-- C28 fails: removing the travel times during a movement to a position leaves the motor running
for ever. -/
theorem never_stops_violation : ¬ AlwaysStops := by
  intro h
  obtain ⟨B, hB⟩ := h 10000 100
  let F : Fp := ⟨.exact, .exact⟩
  let b : Boot := { t := 1, closing := 10000, opening := 10000, pos := 50 }
  let ops : List (Nat × Op) := [(5, .target 20), (10, .pass), (20, .config ⟨0, 0, 1, 1, -1⟩), (30, .pass)]
  let s : RS := (run F (boot b) ops).getD (boot b)
  have hr : run F (boot b) ops = some s := by
    have h1 : (run F (boot b) ops).isSome = true := by decide +kernel
    show _ = some ((run F (boot b) ops).getD (boot b))
    cases hx : run F (boot b) ops with
    | none => rw [hx] at h1; cases h1
    | some y => rfl
  -- every further pass changes nothing
  have hfix : ∀ t, pass F t s = some s := by
    have e1 : s.pause = 0 := by decide +kernel
    have e2 : s.target = 20 := by decide +kernel
    have e3 : s.calRequested = false := by decide +kernel
    have e4 : s.calibrated = false := by decide +kernel
    have e5 : s.newTarget = false := by decide +kernel
    have e6 : s.pos = unknownPos := by decide +kernel
    have e7 : s.timeout = 0 := by decide +kernel
    intro t
    generalize s = q at *
    obtain ⟨motor, buttons, margin, timeAvail, calibrate, dir, lastDir, pos, target, startPos, newTarget,
      closing, opening, calTime, started, pause, timeout, comfortDown, comfortUp, upOn, downOn, log⟩ := q
    simp only at e1 e2 e5 e6 e7
    subst e1 e2 e5 e6 e7
    unfold pass
    rw [if_neg (by simp)]
    have hst : ∀ q : RS, q.target = 20 → stopStage t q = q := by
      intro q hq
      unfold stopStage
      rw [if_neg (by rw [hq]; decide)]
    rw [hst _ rfl]
    unfold body
    rw [if_neg (by rw [e3]; decide), if_neg (by rw [e4]; decide)]
    rfl
  have hrun : ∀ ts : List Nat, run F s (ts.map fun t => (t, .pass)) = some s := by
    intro ts
    induction ts with
    | nil => rfl
    | cons t ts ih =>
      rw [List.map_cons]
      unfold run
      rw [show step F s (t, .pass) = pass F t s from rfl, hfix t]
      exact ih
  -- passes every 100 ms, past the bound
  let pts (n : Nat) : List Nat := (List.range' 1 n).map (fun i => 30 + 100 * i)
  have hev : ∀ n k, Every 100 (30 + 100 * k) ((List.range' (k + 1) n).map (fun i => 30 + 100 * i)) := by
    intro n
    induction n with
    | zero => intro k; trivial
    | succ n ih =>
      intro k
      rw [List.range'_succ, List.map_cons]
      exact ⟨by omega, by omega, ih (k + 1)⟩
  have hlast : ∀ n, lastTime 30 (pts (n + 1)) = 30 + 100 * (n + 1) := by
    intro n
    show ((List.range' 1 (n + 1)).map (fun i => 30 + 100 * i)).getLast?.getD 30 = _
    rw [List.range'_concat, List.map_append]
    simp
    omega
  have := hB F b ops s 30 (by decide) (by decide) (by decide) hr (by decide +kernel) (by decide +kernel)
    (pts (B + 1)) s (hev (B + 1) 0) (hrun _) (by rw [hlast]; omega)
  exact absurd this (by decide +kernel)

/-! ## Invariants -/

/-- Moving to a position not reached yet. -/
def Cruise (s : RS) : Prop := s.target ≥ 0 ∧ ((s.dir = .up ∧ s.pos > 0) ∨ (s.dir = .down ∧ s.pos < 100))

instance (s : RS) : Decidable (Cruise s) := inferInstanceAs (Decidable (_ ∧ _))

/-- The time of a movement to the end from where it started. -/
def req (s : RS) : Nat :=
  if s.dir = .up then s.opening * s.startPos.toNat / 100 else s.closing * (100 - s.startPos).toNat / 100

/-- Invariant of sane histories. -/
structure Sound (T : Nat) (s : RS) : Prop where
  avail : s.timeAvail = true
  tgt : ValidTarget s.target
  cl : TimeOk T s.closing
  op : TimeOk T s.opening
  tmo : s.timeout ≤ 2 * T + 60000
  cal : s.calTime ≤ 2 * T
  calDir : s.calTime ≠ 0 → s.dir ≠ .stop
  calReq : s.calTime ≠ 0 → s.calRequested = true
  mar : s.margin ≤ 101
  pau : s.dir ≠ .stop → s.pause = 0
  st32 : s.started < 2 ^ 32
  pa32 : s.pause < 2 ^ 32
  posk : s.opening ≠ 0 → s.closing ≠ 0 → 0 ≤ s.pos ∧ s.pos ≤ 100
  start : s.calibrated = true → s.dir ≠ .stop → 0 ≤ s.startPos ∧ s.startPos ≤ 100
  known : s.calibrated = true → s.dir ≠ .stop → s.newTarget = false → s.target ≠ stopPos →
    Cruise s ∨ s.timeout ≠ 0
  blind : Blind s → s.dir ≠ .stop → s.newTarget = false → s.target ≠ stopPos → s.timeout ≠ 0

theorem calRequested_iff {s : RS} (ha : s.timeAvail = true) :
    s.calRequested = true ↔ s.calibrate = true ∧ s.opening ≠ 0 ∧ s.closing ≠ 0 := by
  unfold RS.calRequested
  rw [ha]
  simp

theorem calibrated_iff {s : RS} (ha : s.timeAvail = true) :
    s.calibrated = true ↔ s.calibrate = false ∧ s.opening ≠ 0 ∧ s.closing ≠ 0 := by
  unfold RS.calibrated
  rw [ha]
  simp [and_assoc]

/-- How operations other than timer passes may change the fields relevant here. -/
structure Effect (s s' : RS) : Prop where
  tmo : s'.timeout = s.timeout
  mar : s.margin ≤ 101 → s'.margin ≤ 101
  new : s'.newTarget = true ∨ (s'.newTarget = s.newTarget ∧ s'.target = s.target)
  pos : (s'.pos = s.pos ∧ s'.closing = s.closing ∧ s'.opening = s.opening ∧ s'.calibrate = s.calibrate ∧
      s'.calTime = s.calTime) ∨ (s'.calibrate = true ∧ s'.pos = 0 ∧ s'.calTime = 0) ∨
    (s.dir = .stop ∧ s'.calibrate = false ∧ s'.calTime = 0 ∧ s'.closing = s.closing ∧
      s'.opening = s.opening ∧ (s'.pos = s.pos ∨ (0 ≤ s'.pos ∧ s'.pos ≤ 100)))

theorem setTimes_effect (c o : Nat) (s : RS) : Effect s (setTimes c o s) := by
  unfold setTimes
  split
  · exact ⟨rfl, id, .inr ⟨rfl, rfl⟩, .inr (.inl ⟨rfl, rfl, rfl⟩)⟩
  · exact ⟨rfl, id, .inr ⟨rfl, rfl⟩, .inl ⟨rfl, rfl, rfl, rfl, rfl⟩⟩

theorem Effect.retarget {s s' : RS} (h : Effect s s') (n : Int) : Effect s (setTarget n s') :=
  ⟨h.tmo, h.mar, .inl rfl, h.pos⟩

theorem Effect.refl (s : RS) : Effect s s := ⟨rfl, id, .inr ⟨rfl, rfl⟩, .inl ⟨rfl, rfl, rfl, rfl, rfl⟩⟩

theorem Effect.orStop {s s' : RS} (h : Effect s s') (n : Int) : Effect s (orStop n s') := by
  unfold Shutter.orStop; split <;> exact h.retarget _

theorem Effect.stepByStep {s s' : RS} (h : Effect s s') : Effect s (stepByStep s') := by
  unfold Shutter.stepByStep; repeat' split
  all_goals exact h.retarget _

theorem Effect.config {s s' : RS} (h : Effect s s') (a b : Nat) (m : Int) (hm : s'.margin ≤ 101 → m ≤ 101) :
    Effect s { s' with buttons := a, motor := b, margin := m } :=
  ⟨h.tmo, fun hs => hm (h.mar hs), h.new, h.pos⟩

theorem other_effect {F : Fp} {T t : Nat} {o : Op} {s s' : RS} (ho : o ≠ .pass)
    (h : step F s (t, o) = some s') (hs : Sane T s s' o) : Effect s s' := by
  cases o with
  | pass => exact absurd rfl ho
  | server d k =>
    injection h with h
    subst h
    clear hs
    unfold server
    have := setTimes_effect (d % 65536 * 100) (d / 65536 % 65536 * 100) s
    simp only []
    repeat' split
    all_goals first
      | exact this
      | exact this.retarget _
      | exact this.orStop _
      | exact this.stepByStep
  | action a =>
    injection h with h
    subst h
    clear hs
    cases a
    all_goals first
      | exact (Effect.refl s).retarget _
      | exact (Effect.refl s).orStop _
      | exact (Effect.refl s).stepByStep
  | target n => injection h with h; subst h; exact (Effect.refl s).retarget n
  | times c o => injection h with h; subst h; exact setTimes_effect c o s
  | config c =>
    injection h with h
    subst h
    clear hs
    unfold applyConfig
    simp only []
    have hq : Effect s (if c.opening ≥ 0 ∧ c.closing ≥ 0 then setTimes c.closing.toNat c.opening.toNat s
        else s) := by
      split
      · exact setTimes_effect _ _ s
      · exact .refl s
    generalize (if c.opening ≥ 0 ∧ c.closing ≥ 0 then setTimes c.closing.toNat c.opening.toNat s
        else s) = q at *
    have hr : Effect s (if q.inMove then q else setTarget stopPos q) := by
      split
      · exact hq
      · exact hq.retarget _
    generalize (if q.inMove then q else setTarget stopPos q) = r at *
    refine hr.config _ _ _ fun _ => ?_
    split
    · omega
    · split <;> omega
  | recalibrate =>
    injection h with h
    subst h
    exact ⟨rfl, id, .inl rfl, .inr (.inl ⟨rfl, rfl, rfl⟩)⟩
  | calibrationNeeded =>
    injection h with h
    subst h
    exact ⟨rfl, id, .inr ⟨rfl, rfl⟩, .inr (.inl ⟨rfl, rfl, rfl⟩)⟩
  | position n =>
    have hd : s.dir = .stop := hs.2.2.2.2
    injection h with h
    subst h
    refine ⟨rfl, id, .inr ⟨rfl, rfl⟩, .inr (.inr ⟨hd, rfl, rfl, rfl, rfl, .inr ?_⟩)⟩
    rcases setPosition_ok n s with h | h
    · exfalso
      have : (setPosition n s).pos ≥ 0 := by
        show (if n < 0 then 0 else if n > 100 then 100 else n) ≥ 0
        split
        · omega
        · split <;> omega
      rw [h] at this
      exact absurd this (by decide)
    · exact h
  | notCalibrated => exact absurd hs.2.2.2.2 id
  | calibrationOngoing n => exact absurd hs.2.2.2.2 id
  | calibrationFinished =>
    have hd : s.dir = .stop := hs.2.2.2.2
    injection h with h
    subst h
    exact ⟨rfl, id, .inr ⟨rfl, rfl⟩, .inr (.inr ⟨hd, rfl, rfl, rfl, rfl, .inl rfl⟩)⟩
  | motorEnabled b => injection h with h; subst h; exact ⟨rfl, id, .inr ⟨rfl, rfl⟩, .inl ⟨rfl, rfl, rfl, rfl, rfl⟩⟩
  | motorValue v =>
    injection h with h
    subst h
    clear hs
    split
    · exact ⟨rfl, id, .inr ⟨rfl, rfl⟩, .inl ⟨rfl, rfl, rfl, rfl, rfl⟩⟩
    · exact .refl s
  | marginEnabled b =>
    injection h with h
    subst h
    refine ⟨rfl, ?_, .inr ⟨rfl, rfl⟩, .inl ⟨rfl, rfl, rfl, rfl, rfl⟩⟩
    intro hm
    show (if b = true then (if s.margin = 0 then -1 else s.margin) else 0) ≤ 101
    split
    · split <;> omega
    · omega
  | marginValue v =>
    injection h with h
    subst h
    clear hs
    split
    · rename_i hv
      exact ⟨rfl, fun _ => (by show v ≤ 101; omega), .inr ⟨rfl, rfl⟩, .inl ⟨rfl, rfl, rfl, rfl, rfl⟩⟩
    · exact .refl s
  | comfortUp n => injection h with h; subst h; exact ⟨rfl, id, .inr ⟨rfl, rfl⟩, .inl ⟨rfl, rfl, rfl, rfl, rfl⟩⟩
  | comfortDown n => injection h with h; subst h; exact ⟨rfl, id, .inr ⟨rfl, rfl⟩, .inl ⟨rfl, rfl, rfl, rfl, rfl⟩⟩

theorem other_sound {F : Fp} {T t : Nat} {o : Op} {s s' : RS} (ho : o ≠ .pass)
    (h : step F s (t, o) = some s') (hsane : Sane T s s' o) (hs : Sound T s) : Sound T s' := by
  have he := other_effect ho h hsane
  obtain ⟨f1, f2, f3, f4, f5⟩ := other_frame ho h
  obtain ⟨n1, n2, n3, n4, _⟩ := hsane
  have hav : s'.timeAvail = true := f4.trans hs.avail
  refine ⟨hav, n3, n1, n2, by rw [he.tmo]; exact hs.tmo, ?_, ?_, ?_, he.mar hs.mar, by rw [f1, f5]; exact hs.pau,
    by rw [f3]; exact hs.st32, by rw [f5]; exact hs.pa32, ?_, ?_, ?_, ?_⟩
  · rcases he.pos with ⟨_, _, _, _, h⟩ | ⟨_, _, h⟩ | ⟨_, _, h, _⟩
    · rw [h]; exact hs.cal
    · omega
    · omega
  · rcases he.pos with ⟨_, _, _, _, h⟩ | ⟨_, _, h⟩ | ⟨_, _, h, _⟩
    · rw [h, f1]; exact hs.calDir
    · exact fun h' => absurd h h'
    · exact fun h' => absurd h h'
  · rcases he.pos with ⟨_, h2, h3, h4, h⟩ | ⟨_, _, h⟩ | ⟨_, _, h, _⟩
    · rw [h, show s'.calRequested = s.calRequested from by unfold RS.calRequested; rw [h2, h3, h4, f4]]
      exact hs.calReq
    · exact fun h' => absurd h h'
    · exact fun h' => absurd h h'
  · rcases he.pos with ⟨h1, h2, h3, _⟩ | ⟨_, h, _⟩ | ⟨_, _, _, h2, h3, h1 | h1⟩
    · rw [h1, h2, h3]; exact hs.posk
    · intro _ _; omega
    · rw [h1, h2, h3]; exact hs.posk
    · exact fun _ _ => h1
  · intro hc hd
    rw [calibrated_iff hav] at hc
    rw [f1] at hd
    rw [f2]
    rcases he.pos with ⟨h1, h2, h3, h4, _⟩ | ⟨h, _, _⟩ | ⟨h, _⟩
    · exact hs.start ((calibrated_iff hs.avail).mpr ⟨by rw [← h4]; exact hc.1, by rw [← h3]; exact hc.2.1,
        by rw [← h2]; exact hc.2.2⟩) hd
    · rw [h] at hc; exact absurd hc.1 (by decide)
    · exact absurd h hd
  · intro hc hd hn ht
    rw [calibrated_iff hav] at hc
    rw [f1] at hd
    have hnt : s'.newTarget = s.newTarget ∧ s'.target = s.target := by
      rcases he.new with h | h
      · rw [h] at hn; cases hn
      · exact h
    rcases he.pos with ⟨h1, h2, h3, h4, _⟩ | ⟨h, _, _⟩ | ⟨h, _⟩
    · have := hs.known ((calibrated_iff hs.avail).mpr ⟨by rw [← h4]; exact hc.1, by rw [← h3]; exact hc.2.1,
        by rw [← h2]; exact hc.2.2⟩) hd (by rw [← hnt.1]; exact hn) (by rw [← hnt.2]; exact ht)
      unfold Cruise at this ⊢
      rw [hnt.2, f1, h1, he.tmo]
      exact this
    · rw [h] at hc; exact absurd hc.1 (by decide)
    · exact absurd h hd
  · intro hb hd hn ht
    rw [f1] at hd
    have hnt : s'.newTarget = s.newTarget ∧ s'.target = s.target := by
      rcases he.new with h | h
      · rw [h] at hn; cases hn
      · exact h
    rw [he.tmo]
    rcases n4 hd hb with h | h
    · exact hs.blind h hd (by rw [← hnt.1]; exact hn) (by rw [← hnt.2]; exact ht)
    · rw [h] at hn; cases hn

/-! ## Timer passes -/

/-- Nothing is going on: the motor is off and will not be switched on by the timer. -/
def Idle (s : RS) : Prop :=
  s.dir = .stop ∧ (s.newTarget = false ∨ s.target = stopPos) ∧ (s.calRequested = true → s.target = stopPos)

/-- The target of the movement has been taken over. -/
def Settled (s : RS) : Prop :=
  s.dir ≠ .stop → s.target ≠ stopPos → s.calRequested = false → s.newTarget = false

/-- What holds after a pass at `u`, before the check of the operation timeout. -/
def Armed (s : RS) (u : Nat) : Prop :=
  (s.pause ≠ 0 → since (clk u) s.pause < 500) ∧
  (s.dir ≠ .stop → s.target ≠ stopPos →
    (s.calRequested = true → s.calTime ≠ 0 ∧ since (clk u) s.started ≤ s.calTime) ∧
    (s.calibrated = true → s.newTarget = false ∧ (Cruise s → since (clk u) s.started ≤ req s) ∧
      (¬ Cruise s → s.timeout ≠ 0)) ∧
    (Blind s → s.newTarget = false ∧ s.timeout ≠ 0))

/-- What holds after a pass at `u`. -/
def Fresh (s : RS) (u : Nat) : Prop :=
  Armed s u ∧ (s.dir ≠ .stop → s.target ≠ stopPos → s.timeout ≠ 0 → since (clk u) s.started ≤ s.timeout)

/-- Remaining part of the pause. -/
def wait (s : RS) (u : Nat) : Nat := if s.pause = 0 then 0 else 500 - since (clk u) s.pause

/-- Time a movement with known position may take. -/
def moveTime (T g : Nat) : Nat := 2 * T + 60000 + 3 * g

/-- When the shutter will be at rest at the latest, from its state after a pass at `u`. -/
def deadline (T g : Nat) (s : RS) (u : Nat) : Nat :=
  if s.dir = .stop then
    u + wait s u + g + (if s.calRequested = true then 2 * T + g + 500 + g + moveTime T g
      else if s.calibrated = true then moveTime T g else 60000 + 2 * g)
  else if s.target = stopPos then u + g
  else if s.calRequested = true then
    u + (s.calTime - since (clk u) s.started) + g + 500 + g + moveTime T g
  else if s.calibrated = true ∧ Cruise s then
    u + (req s - since (clk u) s.started) + 3 * g + T + 60000
  else u + (s.timeout - since (clk u) s.started) + 2 * g

theorem req_le {T : Nat} {s : RS} (hs : Sound T s) (h0 : 0 ≤ s.startPos) (h1 : s.startPos ≤ 100) :
    req s ≤ T := by
  have hT : ∀ n, TimeOk T n → n ≤ T := by intro n h; unfold TimeOk at h; omega
  have ho := hT _ hs.op
  have hc := hT _ hs.cl
  unfold req
  split
  · refine Nat.le_trans (Nat.div_le_of_le_mul ?_) ho
    rw [Nat.mul_comm]
    exact Nat.mul_le_mul_right _ (by omega)
  · refine Nat.le_trans (Nat.div_le_of_le_mul ?_) hc
    rw [Nat.mul_comm]
    exact Nat.mul_le_mul_right _ (by omega)

theorem Sound.halt {T : Nat} {s r : RS} (hs : Sound T s) (h1 : r.dir = .stop)
    (h2 : r.timeAvail = s.timeAvail) (h3 : ValidTarget r.target) (h4 : r.closing = s.closing)
    (h5 : r.opening = s.opening) (h6 : r.timeout ≤ 2 * T + 60000) (h7 : r.calTime = 0)
    (h8 : r.margin = s.margin) (h9 : r.started = s.started) (h10 : r.pause < 2 ^ 32)
    (h11 : s.opening ≠ 0 → s.closing ≠ 0 → 0 ≤ r.pos ∧ r.pos ≤ 100) : Sound T r := by
  refine ⟨h2.trans hs.avail, h3, h4 ▸ hs.cl, h5 ▸ hs.op, h6, by omega, fun h => absurd h7 h,
    fun h => absurd h7 h, h8 ▸ hs.mar, fun h => absurd h1 h, h9 ▸ hs.st32, h10, by rw [h4, h5]; exact h11,
    fun _ h => absurd h1 h, fun _ h => absurd h1 h, fun _ h => absurd h1 h⟩

theorem Sound.go {T : Nat} {s r : RS} (hs : Sound T s) (h1 : r.dir ≠ .stop)
    (h2 : r.timeAvail = s.timeAvail) (h3 : r.target = s.target) (h4 : r.closing = s.closing)
    (h5 : r.opening = s.opening) (h6 : r.timeout ≤ 2 * T + 60000) (h7 : r.calTime ≤ 2 * T)
    (h8 : r.margin = s.margin) (h9 : r.started < 2 ^ 32) (h10 : r.pause = 0)
    (h11 : s.opening ≠ 0 → s.closing ≠ 0 → 0 ≤ r.pos ∧ r.pos ≤ 100)
    (h12 : r.calibrated = true → 0 ≤ r.startPos ∧ r.startPos ≤ 100)
    (h13 : r.calibrated = true → r.newTarget = false → Cruise r ∨ r.timeout ≠ 0)
    (h14 : Blind r → r.newTarget = false → r.timeout ≠ 0)
    (h15 : r.calTime ≠ 0 → r.calRequested = true) : Sound T r := by
  refine ⟨h2.trans hs.avail, h3 ▸ hs.tgt, h4 ▸ hs.cl, h5 ▸ hs.op, h6, h7, fun _ => h1,
    h15, h8 ▸ hs.mar, fun _ => h10, h9, by rw [h10]; decide, by rw [h4, h5]; exact h11,
    fun h _ => h12 h, fun h _ h' _ => h13 h h', fun h _ h' _ => h14 h h'⟩

/-- What one pass achieves, apart from the pause, the stop command and the operation timeout. -/
structure Out (T g t : Nat) (s r : RS) : Prop where
  sound : Sound T r
  settled : Settled r
  armed : Settled s → Idle r ∨ Armed r t
  dead : ∀ u, Fresh s u → u ≤ t → t ≤ u + g →
    (r.dir ≠ .stop → r.timeout ≠ 0 → since (clk t) r.started ≤ r.timeout) →
    Idle r ∨ deadline T g r t ≤ deadline T g s u

theorem clk_self_pause (t : Nat) : clk t ≠ 0 → since (clk t) (clk t) < 500 := by
  intro _; rw [since_clk_self]; decide

theorem wait_le (s : RS) (u : Nat) : wait s u ≤ 500 := by unfold wait; split <;> omega

/-- Lower bounds of the deadline. -/
theorem deadline_ge {T g : Nat} {s : RS} {u : Nat} (h : s.target ≠ stopPos) :
    u + 2 * g ≤ deadline T g s u := by
  unfold deadline moveTime
  split
  · split
    · omega
    · split <;> omega
  · split
    · omega
    · split <;> omega

section stages
variable {F : Fp} {T g t : Nat} {s r : RS}

theorem timeOk_le {n : Nat} (h : TimeOk T n) : n ≤ T := by unfold TimeOk at h; omega

/-- A stop while a calibration is requested. -/
theorem out_cal_stop (hs : Sound T s) (hreq : s.calRequested = true) (ht : s.target ≠ stopPos)
    (h0 : s.calTime = 0) (hd : s.dir ≠ .stop) : Out T g t s (stopMovement t { s with timeout := 0 }) := by
  obtain ⟨l, hl⟩ := stopMovement_eq t { s with timeout := 0 }
  rw [hl]
  refine ⟨hs.halt rfl rfl hs.tgt rfl rfl (by show 0 ≤ _; omega) h0 rfl rfl (clk_lt t) hs.posk,
    fun h => absurd rfl h, fun _ => .inr ⟨clk_self_pause t, fun h => absurd rfl h⟩, ?_⟩
  intro u hf _ _ _
  exact absurd h0 ((hf.1.2 hd ht).1 hreq).1

theorem out_cal_start (d : Dir) (hd' : d ≠ .stop) (full : Nat) (hfull : full ≤ T) (hne : full ≠ 0) (a b : Bool) (l : List Snap)
    (hs : Sound T s) (hreq : s.calRequested = true) (ht : s.target ≠ stopPos) (hp : s.pause = 0)
    (h0 : s.calTime = 0) : Out T g t s
      { s with dir := d, started := clk t, upOn := a, downOn := b, log := l, calTime := full * 11 / 10, timeout := 0 } := by
  have hreq' : ∀ q : RS, q.calibrate = s.calibrate → q.timeAvail = s.timeAvail → q.closing = s.closing →
      q.opening = s.opening → q.calRequested = true := by
    intro q e1 e2 e3 e4
    rw [← hreq]; unfold RS.calRequested; rw [e1, e2, e3, e4]
  have hcr : ({ s with dir := d, started := clk t, upOn := a, downOn := b, log := l, calTime := full * 11 / 10, timeout := 0 } : RS).calRequested = true := hreq' _ rfl rfl rfl rfl
  have hcal := calRequested_calibrate hreq
  have hcn : ({ s with dir := d, started := clk t, upOn := a, downOn := b, log := l, calTime := full * 11 / 10, timeout := 0 } : RS).calibrated ≠ true := by
    intro h
    have := calibrated_calibrate h
    rw [show ({ s with dir := d, started := clk t, upOn := a, downOn := b, log := l, calTime := full * 11 / 10, timeout := 0 } : RS).calibrate = s.calibrate from rfl, hcal] at this
    cases this
  have hnb : ¬ Blind s := by
    have := (calRequested_iff hs.avail).mp hreq
    unfold Blind; omega
  refine ⟨hs.go hd' rfl rfl rfl rfl (by show 0 ≤ _; omega) (by show full * 11 / 10 ≤ _; omega) rfl (clk_lt t)
    hp hs.posk (fun h => absurd h hcn) (fun h => absurd h hcn) (fun h => absurd h hnb) (fun _ => hcr),
    fun _ _ h => (by rw [hcr] at h; cases h), fun _ => .inr ?_, ?_⟩
  · refine ⟨fun h => absurd hp h, fun _ _ => ⟨fun _ => ⟨?_, ?_⟩, fun h => absurd h hcn, fun h => absurd h hnb⟩⟩
    · show full * 11 / 10 ≠ 0; omega
    · show since (clk t) (clk t) ≤ _; rw [since_clk_self]; omega
  · intro u hf hut htg _
    right
    have hds : s.dir = .stop := by
      cases hx : s.dir with
      | stop => rfl
      | up => exact absurd h0 ((hf.1.2 (by rw [hx]; decide) ht).1 hreq).1
      | down => exact absurd h0 ((hf.1.2 (by rw [hx]; decide) ht).1 hreq).1
    unfold deadline
    rw [if_neg hd', if_neg ht, if_pos hcr, if_pos hds, if_pos hreq]
    show t + (full * 11 / 10 - since (clk t) (clk t)) + g + 500 + g + moveTime T g ≤ _
    rw [since_clk_self]
    omega

theorem out_calBegin (hs : Sound T s) (hreq : s.calRequested = true) (ht : s.target ≠ stopPos)
    (hp : s.pause = 0) (h0 : s.calTime = 0) :
    Out T g t s { calBegin t s with calTime := (calBegin t s).calTime * 11 / 10 } := by
  have hne := (calRequested_iff hs.avail).mp hreq
  have ho := timeOk_le hs.op
  have hc := timeOk_le hs.cl
  unfold calBegin
  split
  · split
    · rename_i hd
      have h := out_cal_stop (g := g) (t := t) hs hreq ht h0 (by rw [hd]; decide)
      obtain ⟨l, hl⟩ := stopMovement_eq t { s with timeout := 0 }
      rw [hl] at h ⊢
      have he : s.calTime * 11 / 10 = s.calTime := by rw [h0]
      simp only [he]
      exact h
    · rw [if_neg hne.2.2]
      obtain ⟨a, b, l, hl⟩ := startClosing_eq t { s with calTime := s.closing, timeout := 0 }
      rw [hl]
      exact out_cal_start .down (by decide) s.closing hc hne.2.2 a b l hs hreq ht hp h0
  · split
    · rename_i hd
      have h := out_cal_stop (g := g) (t := t) hs hreq ht h0 (by rw [hd]; decide)
      obtain ⟨l, hl⟩ := stopMovement_eq t { s with timeout := 0 }
      rw [hl] at h ⊢
      have he : s.calTime * 11 / 10 = s.calTime := by rw [h0]
      simp only [he]
      exact h
    · rw [if_neg hne.2.1]
      obtain ⟨a, b, l, hl⟩ := startOpening_eq t { s with calTime := s.opening, timeout := 0 }
      rw [hl]
      exact out_cal_start .up (by decide) s.opening ho hne.2.1 a b l hs hreq ht hp h0

theorem out_calEnd (hT : T ≤ 2 ^ 24) (hg : g ≤ 2 ^ 30) (hs : Sound T s) (hreq : s.calRequested = true)
    (ht : s.target ≠ stopPos) (hp : s.pause = 0) (h0 : s.calTime ≠ 0) : Out T g t s (calEnd t s) := by
  have hd := hs.calDir h0
  have hne := (calRequested_iff hs.avail).mp hreq
  unfold calEnd
  by_cases hel : since (clk t) s.started > s.calTime
  · rw [if_pos ⟨h0, hel⟩]
    simp only []
    generalize hP : (if s.dir = .up then (0 : Int) else 100) = P
    have hPr : 0 ≤ P ∧ P ≤ 100 := by rw [← hP]; split <;> omega
    generalize hq : (if (setPosition P s).target < 0 then setTarget stopPos (setPosition P s)
      else setPosition P s) = q
    have q1 : q.timeAvail = s.timeAvail := by rw [← hq]; split <;> rfl
    have q2 : ValidTarget q.target := by
      rw [← hq]; split
      · exact .inl rfl
      · exact hs.tgt
    have q3 : q.closing = s.closing := by rw [← hq]; split <;> rfl
    have q4 : q.opening = s.opening := by rw [← hq]; split <;> rfl
    have q5 : q.timeout = s.timeout := by rw [← hq]; split <;> rfl
    have q6 : q.calTime = 0 := by rw [← hq]; split <;> rfl
    have q7 : q.margin = s.margin := by rw [← hq]; split <;> rfl
    have q8 : q.started = s.started := by rw [← hq]; split <;> rfl
    have q9 : q.pos = P := by
      rw [← hq]
      have := setPosition_pos (s := s) hPr.1 hPr.2
      split
      · exact this
      · exact this
    have q10 : q.calibrate = false := by rw [← hq]; split <;> rfl
    obtain ⟨l, hl⟩ := stopMovement_eq t q
    rw [hl]
    have hncr : ({ q with dir := .stop, pause := clk t, upOn := false, downOn := false, log := l } : RS).calRequested
        = false := by
      cases hx : ({ q with dir := .stop, pause := clk t, upOn := false, downOn := false, log := l } : RS).calRequested
      · rfl
      · have := calRequested_calibrate hx
        rw [show ({ q with dir := .stop, pause := clk t, upOn := false, downOn := false, log := l } : RS).calibrate
          = q.calibrate from rfl, q10] at this
        cases this
    refine ⟨hs.halt rfl q1 q2 q3 q4 (by show q.timeout ≤ _; rw [q5]; exact hs.tmo) q6 q7 q8 (clk_lt t)
      (fun _ _ => by show 0 ≤ q.pos ∧ q.pos ≤ 100; rw [q9]; exact hPr),
      fun h => absurd rfl h, fun _ => .inr ⟨clk_self_pause t, fun h => absurd rfl h⟩, ?_⟩
    intro u hf hut htg _
    right
    have hw := wait_le ({ q with dir := .stop, pause := clk t, upOn := false, downOn := false, log := l } : RS) t
    unfold deadline
    rw [if_pos rfl, if_neg (by rw [hncr]; decide), if_neg hd, if_neg ht, if_pos hreq]
    generalize wait _ t = w at *
    unfold moveTime
    split <;> omega
  · rw [if_neg (fun h => hel h.2)]
    refine ⟨hs, fun _ _ h => (by rw [hreq] at h; cases h), fun _ => .inr ?_, ?_⟩
    · refine ⟨fun h => absurd hp h, fun _ _ => ⟨fun _ => ⟨h0, by omega⟩, fun h => ?_, fun h => ?_⟩⟩
      · have := calibrated_calibrate h
        rw [hne.1] at this; cases this
      · unfold Blind at h; omega
    · intro u hf hut htg _
      right
      have h1 := ((hf.1.2 hd ht).1 hreq).2
      have hc := hs.cal
      have := since_add hs.st32 hut (by omega)
      unfold deadline
      rw [if_neg hd, if_neg ht, if_pos hreq, if_neg hd, if_neg ht, if_pos hreq]
      omega

theorem out_calStage (hT : T ≤ 2 ^ 24) (hg : g ≤ 2 ^ 30) (hs : Sound T s) (hreq : s.calRequested = true)
    (ht : s.target ≠ stopPos) (hp : s.pause = 0) (h : calStage t s = some r) : Out T g t s r := by
  unfold calStage at h
  rw [if_pos ht] at h
  split at h
  · rename_i h0
    cases hc : calStart t s with
    | none => rw [hc] at h; cases h
    | some q =>
      rw [hc] at h
      injection h with h
      have hr := calStart_act h0 hc
      rw [calEnd_noop hr.2] at h
      subst h
      unfold calStart at hc
      split at hc
      · cases hc
      · injection hc with hc
        subst hc
        exact out_calBegin hs hreq ht hp h0
  · rename_i h0
    injection h with h
    subst h
    exact out_calEnd hT hg hs hreq ht hp h0

/-- Facts of a state with a known position. -/
theorem mode_known {q : RS} (ha : q.timeAvail = true) (hc : q.calibrate = false) (ho : q.opening ≠ 0)
    (hcl : q.closing ≠ 0) : q.calibrated = true ∧ q.calRequested = false ∧ ¬ Blind q := by
  refine ⟨(calibrated_iff ha).mpr ⟨hc, ho, hcl⟩, ?_, by unfold Blind; omega⟩
  unfold RS.calRequested
  rw [hc]
  rfl

theorem marginValue_ne {m : Int} {full x : Nat} (hf : 4 ≤ full) (h : marginValue F m full = some x) :
    x ≠ 0 := by
  unfold marginValue at h
  split at h
  · injection h with h; rw [← h]; decide
  · split at h
    · injection h with h; omega
    · split at h
      · injection h with h; omega
      · simp only [] at h
        split at h
        · cases h
        · injection h with h
          rw [← h]
          split <;> omega

/-- A pass that leaves a movement with a running timeout as it is. -/
theorem dead_timeout (hT : T ≤ 2 ^ 24) (hg : g ≤ 2 ^ 30) (hs : Sound T s) (ht : s.target ≠ stopPos)
    (hreq : s.calRequested = false) (hd : s.dir ≠ .stop) (hnc : ¬ (s.calibrated = true ∧ Cruise s))
    (htm : s.timeout ≠ 0)
    (r1 : r.dir = s.dir) (r2 : r.target = s.target) (r3 : r.calRequested = false)
    (r4 : ¬ (r.calibrated = true ∧ Cruise r)) (r5 : r.started = s.started) (r6 : r.timeout = s.timeout)
    (u : Nat) (hf : Fresh s u) (hut : u ≤ t) (htg : t ≤ u + g)
    (hel : r.dir ≠ .stop → r.timeout ≠ 0 → since (clk t) r.started ≤ r.timeout) :
    deadline T g r t ≤ deadline T g s u := by
  have h1 := hf.2 hd ht htm
  have h2 := hel (by rw [r1]; exact hd) (by rw [r6]; exact htm)
  have h3 := hs.tmo
  have h4 := since_add hs.st32 hut (by omega)
  rw [r5, r6] at h2
  unfold deadline
  rw [if_neg (by rw [r1]; exact hd), if_neg (by rw [r2]; exact ht), if_neg (by rw [r3]; decide), if_neg r4,
    if_neg hd, if_neg ht, if_neg (by rw [hreq]; decide), if_neg hnc, r5, r6]
  omega

theorem deadline_cruise {q : RS} {u : Nat} (h1 : q.dir ≠ .stop) (h2 : q.target ≠ stopPos) (h3 : q.calRequested = false)
    (h4 : q.calibrated = true) (h5 : Cruise q) :
    deadline T g q u = u + (req q - since (clk u) q.started) + 3 * g + T + 60000 := by
  unfold deadline
  rw [if_neg h1, if_neg h2, if_neg (by rw [h3]; decide), if_pos ⟨h4, h5⟩]

theorem deadline_timed {q : RS} {u : Nat} (h1 : q.dir ≠ .stop) (h2 : q.target ≠ stopPos) (h3 : q.calRequested = false)
    (h4 : ¬ (q.calibrated = true ∧ Cruise q)) :
    deadline T g q u = u + (q.timeout - since (clk u) q.started) + 2 * g := by
  unfold deadline
  rw [if_neg h1, if_neg h2, if_neg (by rw [h3]; decide), if_neg h4]

/-- Reaching the end: the margin phase. -/
theorem out_margin {p : Int} {m : Nat} (hT : T ≤ 2 ^ 24) (hs : Sound T s) (hc : s.calibrated = true)
    (ht : s.target ≠ stopPos) (hp : s.pause = 0) (hn : s.newTarget = false) (hd : s.dir ≠ .stop)
    (hcr : Cruise s) (h0 : 0 ≤ p) (h1 : p ≤ 100) (hend : s.dir = .up ∧ p = 0 ∨ s.dir = .down ∧ p = 100)
    {full : Nat} (hfull : TimeOk T full) (hne : full ≠ 0) (hm : marginValue F s.margin full = some m) :
    Out T g t s { setPosition p s with timeout := m, started := clk t } := by
  have hk := (calibrated_iff hs.avail).mp hc
  have hr := mode_known (q := ({ setPosition p s with timeout := m, started := clk t } : RS)) hs.avail rfl hk.2.1 hk.2.2
  have hsk := mode_known hs.avail hk.1 hk.2.1 hk.2.2
  have hm1 := marginValue_le hs.mar hT (timeOk_le hfull) hm
  have hm2 := marginValue_ne (by unfold TimeOk at hfull; omega) hm
  have hpos : (setPosition p s).pos = p := setPosition_pos h0 h1
  have hnc : ¬ Cruise ({ setPosition p s with timeout := m, started := clk t } : RS) := by
    unfold Cruise
    show ¬ (s.target ≥ 0 ∧ ((s.dir = .up ∧ (setPosition p s).pos > 0) ∨ (s.dir = .down ∧ (setPosition p s).pos < 100)))
    rw [hpos]
    rintro ⟨_, ⟨a, b⟩ | ⟨a, b⟩⟩
    · rcases hend with ⟨c, e⟩ | ⟨c, e⟩
      · omega
      · rw [a] at c; cases c
    · rcases hend with ⟨c, e⟩ | ⟨c, e⟩
      · rw [a] at c; cases c
      · omega
  refine ⟨hs.go hd rfl rfl rfl rfl (by show m ≤ _; omega) (by show 0 ≤ _; omega) rfl (clk_lt t) hp
    (fun _ _ => by show 0 ≤ (setPosition p s).pos ∧ (setPosition p s).pos ≤ 100; rw [hpos]; exact ⟨h0, h1⟩)
    (fun _ => hs.start hc hd) (fun _ _ => .inr hm2) (fun h => absurd h hr.2.2) (fun h => absurd rfl h),
    fun _ _ _ => hn, fun _ => .inr ?_, ?_⟩
  · refine ⟨fun h => absurd hp h, fun _ _ => ⟨fun h => ?_, fun _ => ⟨hn, fun h => absurd h hnc, fun _ => hm2⟩,
      fun h => absurd h hr.2.2⟩⟩
    rw [hr.2.1] at h; cases h
  · intro u hf hut htg _
    right
    rw [deadline_cruise hd ht hsk.2.1 hc hcr,
      deadline_timed (q := ({ setPosition p s with timeout := m, started := clk t } : RS)) hd ht hr.2.1 (fun h => hnc h.2)]
    show t + (m - since (clk t) (clk t)) + 2 * g ≤ _
    rw [since_clk_self]
    omega

/-- Reaching a position in between. -/
theorem out_reached {p : Int} (hs : Sound T s) (hc : s.calibrated = true) (hn : s.newTarget = false)
    (h0 : 0 ≤ p) (h1 : p ≤ 100) : Out T g t s (stopMovement t (setPosition p s)) := by
  have hk := (calibrated_iff hs.avail).mp hc
  have hpos : (setPosition p s).pos = p := setPosition_pos h0 h1
  obtain ⟨l, hl⟩ := stopMovement_eq t (setPosition p s)
  rw [hl]
  have hr := mode_known (q := ({ setPosition p s with dir := .stop, pause := clk t, upOn := false, downOn := false, log := l } : RS))
    hs.avail rfl hk.2.1 hk.2.2
  have hidle : Idle ({ setPosition p s with dir := .stop, pause := clk t, upOn := false, downOn := false, log := l } : RS) :=
    ⟨rfl, .inl hn, fun h => by rw [hr.2.1] at h; cases h⟩
  exact ⟨hs.halt rfl rfl hs.tgt rfl rfl hs.tmo rfl rfl rfl (clk_lt t)
    (fun _ _ => by show 0 ≤ (setPosition p s).pos ∧ (setPosition p s).pos ≤ 100; rw [hpos]; exact ⟨h0, h1⟩),
    fun h => absurd rfl h, fun _ => .inl hidle, fun _ _ _ _ _ => .inl hidle⟩

/-- On the way. -/
theorem out_cruise {p : Int} (hT : T ≤ 2 ^ 24) (hg : g ≤ 2 ^ 30) (hs : Sound T s) (hc : s.calibrated = true)
    (ht : s.target ≠ stopPos) (hp : s.pause = 0) (hn : s.newTarget = false) (hd : s.dir ≠ .stop)
    (h0 : 0 ≤ p) (h1 : p ≤ 100) (hmv : s.target ≥ 0 → Cruise s ∧ Cruise (setPosition p s) ∧
      since (clk t) s.started ≤ req s) : Out T g t s (setPosition p s) := by
  have hk := (calibrated_iff hs.avail).mp hc
  have hr := mode_known (q := setPosition p s) hs.avail rfl hk.2.1 hk.2.2
  have hsk := mode_known hs.avail hk.1 hk.2.1 hk.2.2
  have hpos : (setPosition p s).pos = p := setPosition_pos h0 h1
  have hno : ∀ q : RS, q.target = s.target → ¬ s.target ≥ 0 → ¬ Cruise q := by
    intro q hq h h'
    exact h (hq ▸ h'.1)
  have htm : ¬ s.target ≥ 0 → s.timeout ≠ 0 := by
    intro h
    rcases hs.known hc hd hn ht with h' | h'
    · exact absurd h' (hno s rfl h)
    · exact h'
  refine ⟨hs.go hd rfl rfl rfl rfl hs.tmo (by show 0 ≤ _; omega) rfl hs.st32 hp
    (fun _ _ => by rw [hpos]; exact ⟨h0, h1⟩)
    (fun _ => hs.start hc hd) (fun _ _ => ?_) (fun h => absurd h hr.2.2) (fun h => absurd rfl h),
    fun _ _ _ => hn, fun _ => .inr ?_, ?_⟩
  · by_cases hx : s.target ≥ 0
    · exact .inl (hmv hx).2.1
    · exact .inr (htm hx)
  · refine ⟨fun h => absurd hp h, fun _ _ => ⟨fun h => ?_, fun _ => ⟨hn, fun h => ?_, fun h => ?_⟩,
      fun h => absurd h hr.2.2⟩⟩
    · rw [hr.2.1] at h; cases h
    · exact (hmv h.1).2.2
    · refine htm fun hx => h (hmv hx).2.1
  · intro u hf hut htg hel
    right
    by_cases hx : s.target ≥ 0
    · obtain ⟨c1, c2, c3⟩ := hmv hx
      have h1 := ((hf.1.2 hd ht).2.1 hc).2.1 c1
      have hst := hs.start hc hd
      have h2 := req_le hs hst.1 hst.2
      have h3 := since_add hs.st32 hut (by omega)
      rw [deadline_cruise hd ht hsk.2.1 hc c1, deadline_cruise (q := setPosition p s) hd ht hr.2.1 hr.1 c2]
      show t + (req s - since (clk t) s.started) + 3 * g + T + 60000 ≤ _
      omega
    · exact dead_timeout (r := setPosition p s) hT hg hs ht hsk.2.1 hd (fun h => hno s rfl hx h.2) (htm hx) rfl rfl hr.2.1
        (fun h => hno (setPosition p s) rfl hx h.2) rfl rfl u hf hut htg hel

theorem out_moveUp (hT : T ≤ 2 ^ 24) (hg : g ≤ 2 ^ 30) (hs : Sound T s) (hc : s.calibrated = true)
    (ht : s.target ≠ stopPos) (hp : s.pause = 0) (hn : s.newTarget = false) (hd : s.dir = .up)
    (hpos : s.pos > 0) (h : moveUpStage F t s = some r) : Out T g t s r := by
  have hd' : s.dir ≠ .stop := by rw [hd]; decide
  have hk := (calibrated_iff hs.avail).mp hc
  have hst := hs.start hc hd'
  obtain ⟨p, hpp, hcase⟩ := moveUpStage_cases h
  have hr := posUp_range hst.1 hst.2 hpp
  have hsp : (setPosition p s).pos = p := setPosition_pos hr.1 (by omega)
  have htt : (setPosition p s).target = s.target := rfl
  rcases hcase with ⟨c1, rfl⟩ | ⟨c1, c2, m, hm, rfl⟩ | ⟨c1, c2, c3, rfl⟩
  · refine out_cruise hT hg hs hc ht hp hn hd' hr.1 (by omega) fun hx => ?_
    rw [hsp, htt] at c1
    refine ⟨⟨hx, .inl ⟨hd, hpos⟩⟩, ⟨hx, .inl ⟨hd, by rw [hsp]; omega⟩⟩, ?_⟩
    rcases Nat.le_total (since (clk t) s.started) (req s) with h | h
    · exact h
    · exfalso
      have hreq : s.opening * s.startPos.toNat / 100 ≤ since (clk t) s.started := by
        unfold req at h; rw [if_pos hd] at h; exact h
      have := posUp_done hst.1 hst.2 hreq hpp
      omega
  · rw [htt] at c1
    exact out_margin hT hs hc ht hp hn hd' ⟨by omega, .inl ⟨hd, hpos⟩⟩ hr.1 (by omega)
      (.inl ⟨hd, by omega⟩) hs.op hk.2.1 hm
  · exact out_reached hs hc hn hr.1 (by omega)

theorem out_moveDown (hT : T ≤ 2 ^ 24) (hg : g ≤ 2 ^ 30) (hs : Sound T s) (hc : s.calibrated = true)
    (ht : s.target ≠ stopPos) (hp : s.pause = 0) (hn : s.newTarget = false) (hd : s.dir = .down)
    (hpos : s.pos < 100) (h : moveDownStage F t s = some r) : Out T g t s r := by
  have hd' : s.dir ≠ .stop := by rw [hd]; decide
  have hk := (calibrated_iff hs.avail).mp hc
  have hst := hs.start hc hd'
  have hv : s.target ≤ 100 := by
    rcases hs.tgt with h | h | h | h
    · rw [h]; decide
    · rw [h]; decide
    · rw [h]; decide
    · exact h.2
  obtain ⟨p, hpp, hcase⟩ := moveDownStage_cases h
  have hr := posDown_range hst.1 hst.2 hpp
  have hsp : (setPosition p s).pos = p := setPosition_pos (by omega) hr.2
  have htt : (setPosition p s).target = s.target := rfl
  rcases hcase with ⟨c1, rfl⟩ | ⟨c1, c2, m, hm, rfl⟩ | ⟨c1, c2, c3, rfl⟩
  · refine out_cruise hT hg hs hc ht hp hn hd' (by omega) hr.2 fun hx => ?_
    rw [hsp, htt] at c1
    refine ⟨⟨hx, .inr ⟨hd, hpos⟩⟩, ⟨hx, .inr ⟨hd, by rw [hsp]; omega⟩⟩, ?_⟩
    rcases Nat.le_total (since (clk t) s.started) (req s) with h | h
    · exact h
    · exfalso
      have hreq : s.closing * (100 - s.startPos).toNat / 100 ≤ since (clk t) s.started := by
        unfold req at h; rw [if_neg (by rw [hd]; decide)] at h; exact h
      have := posDown_done hst.1 hst.2 hreq hpp
      omega
  · rw [htt] at c1
    exact out_margin hT hs hc ht hp hn hd' ⟨by omega, .inr ⟨hd, hpos⟩⟩ (by omega) hr.2
      (.inr ⟨hd, by omega⟩) hs.cl hk.2.2 hm
  · exact out_reached hs hc hn (by omega) hr.2

/-- The direction and timeout for a new target. -/
theorem choose_spec {c : Dir × Nat} (hT : T ≤ 2 ^ 24) (hs : Sound T s) (hc : s.calibrated = true)
    (ht : s.target ≠ stopPos) (h : choose F s = some c) :
    c.2 ≤ 2 * T + 60000 ∧ (c.1 = .stop ∨
      (c.1 = .up ∧ ((¬ s.target ≥ 0 ∧ c.2 ≠ 0) ∨ (s.target ≥ 0 ∧ s.pos > 0))) ∨
      (c.1 = .down ∧ ((¬ s.target ≥ 0 ∧ c.2 ≠ 0) ∨ (s.target ≥ 0 ∧ s.pos < 100)))) := by
  have hk := (calibrated_iff hs.avail).mp hc
  have ho := timeOk_le hs.op
  have hcl := timeOk_le hs.cl
  unfold choose at h
  split at h
  · rename_i h1
    cases hm : marginValue F s.margin s.opening with
    | none => rw [hm] at h; cases h
    | some m =>
      rw [hm] at h
      injection h with h
      subst h
      have := marginValue_le hs.mar hT ho hm
      have e : (s.opening + m) % 2 ^ 32 = s.opening + m := Nat.mod_eq_of_lt (by omega)
      refine ⟨by show (s.opening + m) % 2 ^ 32 ≤ _; omega, .inr (.inl ⟨rfl, .inl ⟨by rw [h1]; decide, ?_⟩⟩)⟩
      show (s.opening + m) % 2 ^ 32 ≠ 0
      omega
  · split at h
    · rename_i h1
      cases hm : marginValue F s.margin s.closing with
      | none => rw [hm] at h; cases h
      | some m =>
        rw [hm] at h
        injection h with h
        subst h
        have := marginValue_le hs.mar hT hcl hm
        have e : (s.closing + m) % 2 ^ 32 = s.closing + m := Nat.mod_eq_of_lt (by omega)
        refine ⟨by show (s.closing + m) % 2 ^ 32 ≤ _; omega, .inr (.inr ⟨rfl, .inl ⟨by rw [h1]; decide, ?_⟩⟩)⟩
        show (s.closing + m) % 2 ^ 32 ≠ 0
        omega
    · rename_i h1 h2
      have hv : 0 ≤ s.target ∧ s.target ≤ 100 := by
        rcases hs.tgt with h | h | h | h
        · exact absurd h ht
        · exact absurd h h1
        · exact absurd h h2
        · exact h
      split at h
      · injection h with h
        subst h
        exact ⟨by show 0 ≤ _; omega, .inr (.inr ⟨rfl, .inr ⟨hv.1, by omega⟩⟩)⟩
      · split at h
        · injection h with h
          subst h
          exact ⟨by show 0 ≤ _; omega, .inr (.inl ⟨rfl, .inr ⟨hv.1, by omega⟩⟩)⟩
        · injection h with h
          subst h
          exact ⟨by show 0 ≤ _; omega, .inl rfl⟩

/-- Starting a movement with known position. -/
theorem out_start (d : Dir) (hd' : d ≠ .stop) (x : Nat) (a b : Bool) (l : List Snap)
    (hs : Sound T s) (hc : s.calibrated = true) (ht : s.target ≠ stopPos) (hp : s.pause = 0)
    (hd : s.dir = .stop) (hx : x ≤ 2 * T + 60000)
    (hgo : (¬ s.target ≥ 0 ∧ x ≠ 0) ∨ (s.target ≥ 0 ∧ ((d = .up ∧ s.pos > 0) ∨ (d = .down ∧ s.pos < 100)))) :
    Out T g t s { s with dir := d, started := clk t, upOn := a, downOn := b, log := l, timeout := x, newTarget := false, startPos := s.pos } := by
  have hk := (calibrated_iff hs.avail).mp hc
  have hsk := mode_known hs.avail hk.1 hk.2.1 hk.2.2
  have hr := mode_known (q := ({ s with dir := d, started := clk t, upOn := a, downOn := b, log := l, timeout := x, newTarget := false, startPos := s.pos } : RS)) hs.avail hk.1 hk.2.1 hk.2.2
  have hct : s.calTime = 0 := by
    rcases Nat.eq_zero_or_pos s.calTime with h | h
    · exact h
    · have := hs.calReq (by omega)
      rw [hsk.2.1] at this; cases this
  have hps := hs.posk hk.2.1 hk.2.2
  have hx0 : Cruise ({ s with dir := d, started := clk t, upOn := a, downOn := b, log := l, timeout := x, newTarget := false, startPos := s.pos } : RS) ∨ x ≠ 0 := by
    rcases hgo with h | h
    · exact .inr h.2
    · exact .inl h
  have hsound : Sound T ({ s with dir := d, started := clk t, upOn := a, downOn := b, log := l, timeout := x, newTarget := false, startPos := s.pos } : RS) :=
    hs.go hd' rfl rfl rfl rfl hx (by show s.calTime ≤ _; omega) rfl (clk_lt t) hp hs.posk
      (fun _ => hps) (fun _ _ => hx0) (fun h => absurd h hr.2.2) (fun h => absurd hct h)
  refine ⟨hsound, fun _ _ _ => rfl, fun _ => .inr ?_, ?_⟩
  · refine ⟨fun h => absurd hp h, fun _ _ => ⟨fun h => ?_, fun _ => ⟨rfl, fun _ => ?_, fun h => ?_⟩,
      fun h => absurd h hr.2.2⟩⟩
    · rw [hr.2.1] at h; cases h
    · show since (clk t) (clk t) ≤ _; rw [since_clk_self]; omega
    · rcases hx0 with h' | h'
      · exact absurd h' h
      · exact h'
  · intro u hf hut htg _
    right
    have h1 := req_le hsound hps.1 hps.2
    have hds : deadline T g s u = u + wait s u + g + moveTime T g := by
      unfold deadline
      rw [if_pos hd, if_neg (by rw [hsk.2.1]; decide), if_pos hc]
    rw [hds]
    unfold moveTime
    by_cases hcz : Cruise ({ s with dir := d, started := clk t, upOn := a, downOn := b, log := l, timeout := x, newTarget := false, startPos := s.pos } : RS)
    · rw [deadline_cruise (q := ({ s with dir := d, started := clk t, upOn := a, downOn := b, log := l, timeout := x, newTarget := false, startPos := s.pos } : RS)) hd' ht hr.2.1 hr.1 hcz]
      show t + (_ - since (clk t) (clk t)) + 3 * g + T + 60000 ≤ _
      rw [since_clk_self]
      omega
    · rw [deadline_timed (q := ({ s with dir := d, started := clk t, upOn := a, downOn := b, log := l, timeout := x, newTarget := false, startPos := s.pos } : RS)) hd' ht hr.2.1 (fun h => hcz h.2)]
      show t + (x - since (clk t) (clk t)) + 2 * g ≤ _
      rw [since_clk_self]
      omega

theorem out_knownStage (hT : T ≤ 2 ^ 24) (hg : g ≤ 2 ^ 30) (hs : Sound T s) (hc : s.calibrated = true)
    (ht : s.target ≠ stopPos) (hp : s.pause = 0) (h : knownStage F t s = some r) : Out T g t s r := by
  have hk := (calibrated_iff hs.avail).mp hc
  have hsk := mode_known hs.avail hk.1 hk.2.1 hk.2.2
  have hct : s.calTime = 0 := by
    rcases Nat.eq_zero_or_pos s.calTime with h | h
    · exact h
    · have := hs.calReq (by omega)
      rw [hsk.2.1] at this; cases this
  unfold knownStage at h
  split at h
  · rename_i hmv
    split at h
    · rename_i hd
      exact out_moveUp hT hg hs hc ht hp hmv.1 hd.1 hd.2 h
    · split at h
      · rename_i hd
        exact out_moveDown hT hg hs hc ht hp hmv.1 hd.1 hd.2 h
      · rename_i hd1 hd2
        injection h with h
        subst h
        have hnc : ¬ Cruise s := by
          rintro ⟨_, h | h⟩
          · exact hd1 h
          · exact hd2 h
        have htm : s.timeout ≠ 0 := by
          rcases hs.known hc hmv.2 hmv.1 ht with h | h
          · exact absurd h hnc
          · exact h
        refine ⟨hs, fun _ _ _ => hmv.1, fun _ => .inr ?_, fun u hf hut htg hel => .inr ?_⟩
        · refine ⟨fun h => absurd hp h, fun _ _ => ⟨fun h => ?_, fun _ => ⟨hmv.1, fun h => absurd h hnc, fun _ => htm⟩,
            fun h => absurd h hsk.2.2⟩⟩
          rw [hsk.2.1] at h; cases h
        · exact dead_timeout hT hg hs ht hsk.2.1 hmv.2 (fun h => hnc h.2) htm rfl rfl hsk.2.1
            (fun h => hnc h.2) rfl rfl u hf hut htg hel
  · rename_i hmv
    split at h
    · rename_i hnt
      cases hch : choose F s with
      | none => rw [hch] at h; cases h
      | some c =>
        rw [hch] at h
        injection h with h
        subst h
        have hcs := choose_spec hT hs hc ht hch
        obtain ⟨d, x⟩ := c
        simp only at hcs ⊢
        unfold redirect
        split
        · rename_i hdd
          have hdd : d = s.dir := hdd
          have hr := mode_known (q := ({ s with timeout := x, newTarget := false } : RS)) hs.avail hk.1 hk.2.1 hk.2.2
          cases hds : d with
          | stop =>
            have hdst : s.dir = .stop := by rw [← hdd]; exact hds
            have hidle : Idle ({ s with timeout := x, newTarget := false } : RS) :=
              ⟨hdst, .inl rfl, fun h => by rw [hr.2.1] at h; cases h⟩
            exact ⟨hs.halt hdst rfl hs.tgt rfl rfl hcs.1 hct rfl rfl hs.pa32 hs.posk, fun h => absurd hdst h,
              fun _ => .inl hidle, fun _ _ _ _ _ => .inl hidle⟩
          | up =>
            have hdst : s.dir ≠ .stop := by rw [← hdd, hds]; decide
            have hgo : Cruise ({ s with timeout := x, newTarget := false } : RS) ∨ x ≠ 0 := by
              rcases hcs.2 with h | ⟨_, h | h⟩ | ⟨h, _⟩
              · rw [hds] at h; cases h
              · exact .inr h.2
              · exact .inl ⟨h.1, .inl ⟨by rw [← hds, hdd], h.2⟩⟩
              · rw [hds] at h; cases h
            refine ⟨hs.go hdst rfl rfl rfl rfl hcs.1 (by show s.calTime ≤ _; omega) rfl hs.st32 hp hs.posk
              (fun _ => hs.start hc hdst) (fun _ _ => hgo) (fun h => absurd h hr.2.2) (fun h => absurd hct h),
              fun _ _ _ => rfl, fun hset => ?_, fun u hf => ?_⟩
            · have := hset hdst ht hsk.2.1
              rw [this] at hnt; exact absurd hnt.1 (by decide)
            · have := ((hf.1.2 hdst ht).2.1 hc).1
              rw [this] at hnt; exact absurd hnt.1 (by decide)
          | down =>
            have hdst : s.dir ≠ .stop := by rw [← hdd, hds]; decide
            have hgo : Cruise ({ s with timeout := x, newTarget := false } : RS) ∨ x ≠ 0 := by
              rcases hcs.2 with h | ⟨h, _⟩ | ⟨_, h | h⟩
              · rw [hds] at h; cases h
              · rw [hds] at h; cases h
              · exact .inr h.2
              · exact .inl ⟨h.1, .inr ⟨by rw [← hds, hdd], h.2⟩⟩
            refine ⟨hs.go hdst rfl rfl rfl rfl hcs.1 (by show s.calTime ≤ _; omega) rfl hs.st32 hp hs.posk
              (fun _ => hs.start hc hdst) (fun _ _ => hgo) (fun h => absurd h hr.2.2) (fun h => absurd hct h),
              fun _ _ _ => rfl, fun hset => ?_, fun u hf => ?_⟩
            · have := hset hdst ht hsk.2.1
              rw [this] at hnt; exact absurd hnt.1 (by decide)
            · have := ((hf.1.2 hdst ht).2.1 hc).1
              rw [this] at hnt; exact absurd hnt.1 (by decide)
        · rename_i hdd
          have hdd : ¬ d = s.dir := hdd
          split
          · rename_i hdst
            have hdst : s.dir = .stop := hdst
            have hdn : d ≠ .stop := by rw [hdst] at hdd; exact hdd
            simp only []
            split
            · rename_i hdw
              obtain ⟨a, b, l, hl⟩ := startClosing_eq t { s with timeout := x, newTarget := false, startPos := s.pos }
              rw [hl]
              refine out_start .down (by decide) x a b l hs hc ht hp hdst hcs.1 ?_
              rcases hcs.2 with h | ⟨h, _⟩ | ⟨_, h | h⟩
              · exact absurd h hdn
              · rw [hdw] at h; cases h
              · exact .inl h
              · exact .inr ⟨h.1, .inr ⟨rfl, h.2⟩⟩
            · rename_i hdw
              obtain ⟨a, b, l, hl⟩ := startOpening_eq t { s with timeout := x, newTarget := false, startPos := s.pos }
              rw [hl]
              refine out_start .up (by decide) x a b l hs hc ht hp hdst hcs.1 ?_
              rcases hcs.2 with h | ⟨_, h | h⟩ | ⟨h, _⟩
              · exact absurd h hdn
              · exact .inl h
              · exact .inr ⟨h.1, .inl ⟨rfl, h.2⟩⟩
              · exact absurd h hdw
          · rename_i hdst
            have hdst : s.dir ≠ .stop := hdst
            obtain ⟨l, hl⟩ := stopMovement_eq t { s with timeout := x }
            rw [hl]
            refine ⟨hs.halt rfl rfl hs.tgt rfl rfl hcs.1 hct rfl rfl (clk_lt t) hs.posk, fun h => absurd rfl h,
              fun _ => .inr ⟨clk_self_pause t, fun h => absurd rfl h⟩, fun u hf => ?_⟩
            have := ((hf.1.2 hdst ht).2.1 hc).1
            rw [this] at hnt; exact absurd hnt.1 (by decide)
    · rename_i hnt
      injection h with h
      subst h
      have hn : s.newTarget = false := by
        cases hx : s.newTarget with
        | false => rfl
        | true => exact absurd ⟨hx, ht⟩ hnt
      have hdst : s.dir = .stop := by
        cases hx : s.dir with
        | stop => rfl
        | up => exact absurd ⟨hn, by rw [hx]; decide⟩ hmv
        | down => exact absurd ⟨hn, by rw [hx]; decide⟩ hmv
      have hidle : Idle s := ⟨hdst, .inl hn, fun h => by rw [hsk.2.1] at h; cases h⟩
      exact ⟨hs, fun h => absurd hdst h, fun _ => .inl hidle, fun _ _ _ _ _ => .inl hidle⟩

/-! ### Without travel times -/

theorem mode_blind {q : RS} (ha : q.timeAvail = true) (hb : Blind q) :
    q.calibrated ≠ true ∧ q.calRequested = false := by
  refine ⟨fun h => ?_, ?_⟩
  · have := (calibrated_iff ha).mp h
    unfold Blind at hb; omega
  · cases hx : q.calRequested with
    | false => rfl
    | true =>
      have := (calRequested_iff ha).mp hx
      unfold Blind at hb; omega

theorem out_unknownStage (hT : T ≤ 2 ^ 24) (hg : g ≤ 2 ^ 30) (hs : Sound T s) (hb : Blind s)
    (ht : s.target ≠ stopPos) (hp : s.pause = 0) : Out T g t s (unknownStage t s) := by
  have hsb := mode_blind hs.avail hb
  have hct : s.calTime = 0 := by
    rcases Nat.eq_zero_or_pos s.calTime with h | h
    · exact h
    · have := hs.calReq (by omega)
      rw [hsb.2] at this; cases this
  have hnk : ∀ q : RS, s.opening ≠ 0 → s.closing ≠ 0 → 0 ≤ q.pos ∧ q.pos ≤ 100 := by
    intro q h1 h2; unfold Blind at hb; omega
  unfold unknownStage
  split
  · rename_i hnt
    simp only []
    have hbr : ∀ q : RS, q.opening = s.opening → q.closing = s.closing → Blind q := by
      intro q h1 h2; unfold Blind; rw [h1, h2]; exact hb
    generalize blindDir s.target = d
    by_cases hdd : d = s.dir
    · rw [if_neg (fun h => h.1 hdd)]
      unfold redirect
      rw [if_pos hdd]
      have hr := mode_blind (q := ({ s with pos := unknownPos, timeout := defaultTimeout, newTarget := false } : RS)) hs.avail hb
      by_cases hdst : s.dir = .stop
      · have hidle : Idle ({ s with pos := unknownPos, timeout := defaultTimeout, newTarget := false } : RS) :=
          ⟨hdst, .inl rfl, fun h => by rw [hr.2] at h; cases h⟩
        exact ⟨hs.halt hdst rfl hs.tgt rfl rfl (by show 60000 ≤ _; omega) hct rfl rfl hs.pa32 (hnk _), fun h => absurd hdst h,
          fun _ => .inl hidle, fun _ _ _ _ _ => .inl hidle⟩
      · refine ⟨hs.go hdst rfl rfl rfl rfl (by show 60000 ≤ _; omega) (by show s.calTime ≤ _; omega) rfl hs.st32 hp (hnk _)
          (fun h => absurd h hr.1) (fun h => absurd h hr.1) (fun _ _ => by show 60000 ≠ 0; decide)
          (fun h => absurd hct h), fun _ _ _ => rfl, fun hset => ?_, fun u hf => ?_⟩
        · have := hset hdst ht hsb.2
          rw [this] at hnt; cases hnt
        · have := ((hf.1.2 hdst ht).2.2 hb).1
          rw [this] at hnt; cases hnt
    · by_cases hdst : s.dir = .stop
      · rw [if_neg (fun h => h.2 hdst)]
        unfold redirect
        rw [if_neg hdd, if_pos hdst]
        have key : ∀ (d : Dir) (a b : Bool) (l : List Snap), d ≠ .stop → Out T g t s
            { s with dir := d, started := clk t, upOn := a, downOn := b, log := l, pos := unknownPos, timeout := defaultTimeout, newTarget := false, startPos := unknownPos } := by
          intro d a b l hd'
          have hr := mode_blind (q := ({ s with dir := d, started := clk t, upOn := a, downOn := b, log := l, pos := unknownPos, timeout := defaultTimeout, newTarget := false, startPos := unknownPos } : RS)) hs.avail hb
          refine ⟨hs.go hd' rfl rfl rfl rfl (by show 60000 ≤ _; omega) (by show s.calTime ≤ _; omega) rfl (clk_lt t) hp (hnk _)
            (fun h => absurd h hr.1) (fun h => absurd h hr.1) (fun _ _ => by show 60000 ≠ 0; decide)
            (fun h => absurd hct h), fun _ _ _ => rfl, fun _ => .inr ?_, fun u hf hut htg _ => .inr ?_⟩
          · refine ⟨fun h => absurd hp h, fun _ _ => ⟨fun h => ?_, fun h => absurd h hr.1, fun _ => ⟨rfl, by show 60000 ≠ 0; decide⟩⟩⟩
            rw [hr.2] at h; cases h
          · rw [deadline_timed (q := ({ s with dir := d, started := clk t, upOn := a, downOn := b, log := l, pos := unknownPos, timeout := defaultTimeout, newTarget := false, startPos := unknownPos } : RS)) hd' ht hr.2 (fun h => hr.1 h.1)]
            unfold deadline
            rw [if_pos hdst, if_neg (by rw [hsb.2]; decide), if_neg hsb.1]
            show t + (60000 - since (clk t) (clk t)) + 2 * g ≤ _
            rw [since_clk_self]
            omega
        split
        · obtain ⟨a, b, l, hl⟩ := startClosing_eq t
            { s with pos := unknownPos, timeout := defaultTimeout, newTarget := false, startPos := unknownPos }
          rw [hl]
          exact key .down a b l (by decide)
        · obtain ⟨a, b, l, hl⟩ := startOpening_eq t
            { s with pos := unknownPos, timeout := defaultTimeout, newTarget := false, startPos := unknownPos }
          rw [hl]
          exact key .up a b l (by decide)
      · rw [if_pos ⟨hdd, hdst⟩]
        unfold redirect
        rw [if_neg hdd, if_neg hdst]
        obtain ⟨l, hl⟩ := stopMovement_eq t { s with pos := unknownPos, timeout := defaultTimeout }
        rw [hl]
        refine ⟨hs.halt rfl rfl hs.tgt rfl rfl (by show 0 ≤ _; omega) hct rfl rfl (clk_lt t) (hnk _), fun h => absurd rfl h,
          fun _ => .inr ⟨clk_self_pause t, fun h => absurd rfl h⟩, fun u hf => ?_⟩
        have := ((hf.1.2 hdst ht).2.2 hb).1
        rw [this] at hnt; cases hnt
  · rename_i hnt
    have hn : s.newTarget = false := by simpa using hnt
    have hr := mode_blind (q := ({ s with pos := unknownPos } : RS)) hs.avail hb
    by_cases hdst : s.dir = .stop
    · have hidle : Idle ({ s with pos := unknownPos } : RS) :=
        ⟨hdst, .inl hn, fun h => by rw [hr.2] at h; cases h⟩
      exact ⟨hs.halt hdst rfl hs.tgt rfl rfl hs.tmo hct rfl rfl hs.pa32 (hnk _), fun h => absurd hdst h,
        fun _ => .inl hidle, fun _ _ _ _ _ => .inl hidle⟩
    · have htm := hs.blind hb hdst hn ht
      refine ⟨hs.go hdst rfl rfl rfl rfl hs.tmo (by show s.calTime ≤ _; omega) rfl hs.st32 hp (hnk _)
        (fun h => absurd h hr.1) (fun h => absurd h hr.1) (fun _ _ => htm)
        (fun h => absurd hct h), fun _ _ _ => hn, fun _ => .inr ?_, fun u hf hut htg hel => .inr ?_⟩
      · refine ⟨fun h => absurd hp h, fun _ _ => ⟨fun h => ?_, fun h => absurd h hr.1, fun _ => ⟨hn, htm⟩⟩⟩
        rw [hr.2] at h; cases h
      · exact dead_timeout (r := ({ s with pos := unknownPos } : RS)) hT hg hs ht hsb.2 hdst (fun h => hsb.1 h.1) htm rfl rfl hr.2
          (fun h => hr.1 h.1) rfl rfl u hf hut htg hel

theorem out_body (hT : T ≤ 2 ^ 24) (hg : g ≤ 2 ^ 30) (hs : Sound T s)
    (ht : s.target ≠ stopPos) (hp : s.pause = 0) (h : body F t s = some r) : Out T g t s r := by
  unfold body at h
  split at h
  · rename_i hreq
    exact out_calStage hT hg hs hreq ht hp h
  · split at h
    · rename_i hc
      exact out_knownStage hT hg hs hc ht hp h
    · rename_i hreq hc
      injection h with h
      subst h
      refine out_unknownStage hT hg hs ?_ ht hp
      rw [calRequested_iff hs.avail] at hreq
      rw [calibrated_iff hs.avail] at hc
      unfold Blind
      cases hx : s.calibrate with
      | true => rw [hx] at hreq; simp at hreq; omega
      | false => rw [hx] at hc; simp at hc; omega

/-! ### A whole pass -/

/-- What one pass achieves. -/
structure PassOut (T g t : Nat) (s r : RS) : Prop where
  sound : Sound T r
  settled : Settled r
  armed : Settled s → Idle r ∨ Fresh r t
  dead : ∀ u, Fresh s u → u ≤ t → t ≤ u + g → Idle r ∨ deadline T g r t ≤ deadline T g s u
  idle : Idle s → Idle r

theorem timeoutStage_eq (t : Nat) (s : RS) :
    (timeoutStage t s = s ∧ (s.timeout ≠ 0 → since (clk t) s.started ≤ s.timeout)) ∨
    ∃ l, timeoutStage t s = { s with target := stopPos, newTarget := true, lastDir := l, timeout := 0 } := by
  unfold timeoutStage
  split
  · exact .inr ⟨_, rfl⟩
  · rename_i h
    exact .inl ⟨rfl, fun h' => by omega⟩

theorem stopped_sound {l : Dir} (hs : Sound T s) :
    Sound T { s with target := stopPos, newTarget := true, lastDir := l, timeout := 0 } :=
  ⟨hs.avail, .inl rfl, hs.cl, hs.op, by show 0 ≤ _; omega, hs.cal, hs.calDir, hs.calReq, hs.mar, hs.pau, hs.st32, hs.pa32,
    hs.posk, hs.start, fun _ _ _ h => absurd rfl h, fun _ _ _ h => absurd rfl h⟩

theorem idle_timeout (h : Idle s) : Idle (timeoutStage t s) := by
  rcases timeoutStage_eq t s with h' | ⟨l, h'⟩
  · rw [h'.1]; exact h
  · rw [h']; exact ⟨h.1, .inr rfl, fun _ => rfl⟩

theorem sound_timeout (h : Sound T s) : Sound T (timeoutStage t s) := by
  rcases timeoutStage_eq t s with h' | ⟨l, h'⟩
  · rw [h'.1]; exact h
  · rw [h']; exact stopped_sound h

theorem body_idle (hs : Sound T s) (hi : Idle s) (h : body F t s = some r) : Idle r ∧ Sound T r := by
  have hct : s.calTime = 0 := by
    rcases Nat.eq_zero_or_pos s.calTime with h | h
    · exact h
    · exact absurd hi.1 (hs.calDir (by omega))
  unfold body at h
  split at h
  · rename_i hreq
    unfold calStage at h
    rw [if_neg (by simp [hi.2.2 hreq])] at h
    injection h with h
    subst h
    exact ⟨hi, hs⟩
  · split at h
    · unfold knownStage at h
      rw [if_neg (by simp [hi.1]), if_neg (by intro h; rcases hi.2.1 with h' | h'; rw [h'] at h; exact absurd h.1 (by decide); exact h.2 h')] at h
      injection h with h
      subst h
      exact ⟨hi, hs⟩
    · rename_i hreq hc
      injection h with h
      subst h
      have hb : Blind s := by
        rw [calRequested_iff hs.avail] at hreq
        rw [calibrated_iff hs.avail] at hc
        unfold Blind
        cases hx : s.calibrate with
        | true => rw [hx] at hreq; simp at hreq; omega
        | false => rw [hx] at hc; simp at hc; omega
      have hnk : ∀ q : RS, s.opening ≠ 0 → s.closing ≠ 0 → 0 ≤ q.pos ∧ q.pos ≤ 100 := by
        intro q h1 h2; unfold Blind at hb; omega
      unfold unknownStage
      split
      · rename_i hnt
        have htt : s.target = stopPos := by
          rcases hi.2.1 with h | h
          · rw [h] at hnt; cases hnt
          · exact h
        have hbd : blindDir s.target = .stop := by rw [htt]; decide
        rw [hbd]
        simp only []
        rw [if_neg (fun h => h.2 hi.1)]
        unfold redirect
        rw [if_pos hi.1.symm]
        exact ⟨⟨hi.1, .inl rfl, fun _ => htt⟩,
          hs.halt hi.1 rfl hs.tgt rfl rfl (by show 60000 ≤ _; omega) hct rfl rfl hs.pa32 (hnk _)⟩
      · exact ⟨⟨hi.1, hi.2.1, hi.2.2⟩, hs.halt hi.1 rfl hs.tgt rfl rfl hs.tmo hct rfl rfl hs.pa32 (hnk _)⟩

theorem pass_out (hT : T ≤ 2 ^ 24) (hg : g ≤ 2 ^ 30) (hs : Sound T s) (h : pass F t s = some r) :
    PassOut T g t s r := by
  unfold pass at h
  split at h
  · rename_i hp
    injection h with h
    subst h
    have hd : s.dir = .stop := by
      cases hx : s.dir with
      | stop => rfl
      | up => exact absurd (hs.pau (by rw [hx]; decide)) hp.1
      | down => exact absurd (hs.pau (by rw [hx]; decide)) hp.1
    refine ⟨hs, fun h => absurd hd h, fun _ => .inr ⟨⟨fun _ => hp.2, fun h => absurd hd h⟩, fun h => absurd hd h⟩, fun u hf hut htg => .inr ?_, id⟩
    have h1 := hf.1.1 hp.1
    have h2 := since_add hs.pa32 hut (by omega)
    have h3 : t + wait s t ≤ u + wait s u := by
      unfold wait
      rw [if_neg hp.1, if_neg hp.1]
      omega
    unfold deadline
    rw [if_pos hd, if_pos hd]
    omega
  · rename_i hp
    rw [Option.map_eq_some_iff] at h
    obtain ⟨q, hq, rfl⟩ := h
    have hs0 : Sound T { s with pause := 0 } :=
      ⟨hs.avail, hs.tgt, hs.cl, hs.op, hs.tmo, hs.cal, hs.calDir, hs.calReq, hs.mar, fun _ => rfl, hs.st32, by show 0 < _; decide,
        hs.posk, hs.start, hs.known, hs.blind⟩
    by_cases ht : s.target = stopPos
    · -- the stop command
      have key : Idle (stopStage t { s with pause := 0 }) ∧ Sound T (stopStage t { s with pause := 0 }) := by
        unfold stopStage
        rw [if_pos ht]
        split
        · obtain ⟨l, hl⟩ := stopMovement_eq t { s with pause := 0 }
          rw [hl]
          exact ⟨⟨rfl, .inl rfl, fun _ => ht⟩,
            hs0.halt rfl rfl hs.tgt rfl rfl hs.tmo rfl rfl rfl (clk_lt t) hs.posk⟩
        · rename_i hm
          have hd : s.dir = .stop := by
            cases hx : s.dir with
            | stop => rfl
            | up => exact absurd (by unfold RS.inMove; simp [hx]) hm
            | down => exact absurd (by unfold RS.inMove; simp [hx]) hm
          have hct : s.calTime = 0 := by
            rcases Nat.eq_zero_or_pos s.calTime with h | h
            · exact h
            · exact absurd hd (hs.calDir (by omega))
          exact ⟨⟨hd, .inl rfl, fun _ => ht⟩,
            hs0.halt hd rfl hs.tgt rfl rfl hs.tmo hct rfl rfl (by show 0 < _; decide) hs.posk⟩
      have hb := body_idle key.2 key.1 hq
      have hi := idle_timeout (t := t) hb.1
      exact ⟨sound_timeout hb.2, fun h => absurd hi.1 h, fun _ => .inl hi, fun _ _ _ _ => .inl hi, fun _ => hi⟩
    · have hstop : stopStage t { s with pause := 0 } = { s with pause := 0 } := by
        unfold stopStage
        rw [if_neg ht]
      rw [hstop] at hq
      have ho : Out T g t { s with pause := 0 } q := out_body hT hg hs0 ht rfl hq
      have hfr : ∀ u, Fresh s u → Fresh ({ s with pause := 0 } : RS) u := by
        intro u hf
        exact ⟨⟨fun h => absurd rfl h, hf.1.2⟩, hf.2⟩
      have hdl : ∀ u, Fresh s u → deadline T g ({ s with pause := 0 } : RS) u ≤ deadline T g s u := by
        intro u hf
        unfold deadline
        have hw : wait ({ s with pause := 0 } : RS) u ≤ wait s u := by
          unfold wait
          rw [if_pos rfl]
          omega
        by_cases hd : s.dir = .stop
        · rw [if_pos hd, if_pos (show ({ s with pause := 0 } : RS).dir = .stop from hd)]
          show u + _ + g + (if s.calRequested = true then _ else if s.calibrated = true then _ else _) ≤ _
          omega
        · rw [if_neg hd, if_neg (show ¬ ({ s with pause := 0 } : RS).dir = .stop from hd)]
          exact Nat.le_refl _
      refine ⟨sound_timeout ho.sound, ?_, fun hset => ?_, fun u hf hut htg => ?_, fun hi => ?_⟩
      · rcases timeoutStage_eq t q with h' | ⟨l, h'⟩
        · rw [h'.1]; exact ho.settled
        · rw [h']; exact fun _ h => absurd rfl h
      · rcases ho.armed hset with h | h
        · exact .inl (idle_timeout h)
        · rcases timeoutStage_eq t q with h' | ⟨l, h'⟩
          · rw [h'.1]
            exact .inr ⟨h, fun _ _ => h'.2⟩
          · rw [h']
            exact .inr ⟨⟨h.1, fun _ h => absurd rfl h⟩, fun _ h => absurd rfl h⟩
      · rcases timeoutStage_eq t q with h' | ⟨l, h'⟩
        · rw [h'.1]
          rcases ho.dead u (hfr u hf) hut htg (fun _ => h'.2) with h | h
          · exact .inl h
          · exact .inr (Nat.le_trans h (hdl u hf))
        · rw [h']
          by_cases hd : q.dir = .stop
          · exact .inl ⟨hd, .inr rfl, fun _ => rfl⟩
          · right
            have h1 := deadline_ge (T := T) (g := g) (u := u) ht
            unfold deadline at h1 ⊢
            rw [if_neg hd, if_pos rfl]
            omega
      · exact idle_timeout (body_idle hs0 hi hq).1

end stages

/-! ## The theorem -/

/-- At rest both outputs are off. -/
def RestOff (i : Io) : Prop := i.dir = .stop → i.up = false ∧ i.down = false

theorem step_restOff {F : Fp} {e : Nat × Op} {s s' : RS} (h : step F s e = some s') (hs : RestOff s.io) :
    RestOff s'.io := by
  obtain ⟨t, o⟩ := e
  by_cases ho : o = .pass
  · subst ho
    rcases pass_act h with ⟨_, _, rfl⟩ | ⟨_, ha⟩
    · exact hs
    · generalize s'.io = i at ha
      cases ha with
      | keep => exact hs
      | stop => exact fun _ => ⟨rfl, rfl⟩
      | «open» _ => exact fun h => by cases h
      | close _ => exact fun h => by cases h
  · rw [other_io ho h]
    exact hs

theorem run_restOff {F : Fp} (h : List (Nat × Op)) : ∀ {s s' : RS}, run F s h = some s' →
    RestOff s.io → RestOff s'.io := by
  induction h with
  | nil => intro s s' hr hs; injection hr with hr; subst hr; exact hs
  | cons e h ih =>
    intro s s' hr hs
    unfold run at hr
    cases he : step F s e with
    | none => rw [he] at hr; cases hr
    | some q => rw [he] at hr; exact ih hr (step_restOff he hs)

theorem boot_sound {T : Nat} {b : Boot} (h : SaneBoot T b) : Sound T (boot b) := by
  obtain ⟨h1, h2, h3, h4, h5⟩ := h
  exact ⟨h1, .inl rfl, h2, h3, by show 0 ≤ _; omega, by show 0 ≤ _; omega, fun h => absurd rfl h, fun h => absurd rfl h, h4,
    fun h => absurd rfl h, by show 0 < _; decide, by show 0 < _; decide, h5, fun _ h => absurd rfl h, fun _ h => absurd rfl h,
    fun _ h => absurd rfl h⟩

theorem run_sound {F : Fp} {T : Nat} (hT : T ≤ 2 ^ 24) (h : List (Nat × Op)) : ∀ {s s' : RS},
    SaneRun F T s h → run F s h = some s' → Sound T s → Sound T s' := by
  induction h with
  | nil => intro s s' _ hr hs; injection hr with hr; subst hr; exact hs
  | cons e h ih =>
    intro s s' hsane hr hs
    unfold run at hr
    unfold SaneRun at hsane
    cases he : step F s e with
    | none => rw [he] at hr; cases hr
    | some q =>
      rw [he] at hr hsane
      refine ih hsane.2 hr ?_
      obtain ⟨t, o⟩ := e
      by_cases ho : o = .pass
      · subst ho
        exact (pass_out (g := 0) hT (by decide) hs he).sound
      · exact other_sound ho he hsane.1 hs

theorem fresh_le {T g : Nat} {s : RS} {u : Nat} : u ≤ deadline T g s u := by
  unfold deadline
  repeat' split
  all_goals omega

theorem deadline_le {T g : Nat} {s : RS} {u : Nat} (hs : Sound T s) :
    deadline T g s u ≤ u + (4 * T + 61000 + 6 * g) := by
  have h1 := wait_le s u
  have h2 := hs.tmo
  have h3 := hs.cal
  unfold deadline moveTime
  split
  · split
    · omega
    · split <;> omega
  · rename_i hd
    split
    · omega
    · split
      · omega
      · split
        · rename_i hc
          have := hs.start hc.1 hd
          have := req_le hs this.1 this.2
          omega
        · omega

/-- Once at rest, at rest. -/
theorem run_idle {F : Fp} {T : Nat} (hT : T ≤ 2 ^ 24) (ts : List Nat) : ∀ {s s' : RS}, Sound T s → Idle s →
    run F s (ts.map fun t => (t, .pass)) = some s' → Idle s' := by
  induction ts with
  | nil => intro s s' _ hi hr; injection hr with hr; subst hr; exact hi
  | cons t ts ih =>
    intro s s' hs hi hr
    rw [List.map_cons] at hr
    unfold run at hr
    cases he : step F s (t, .pass) with
    | none => rw [he] at hr; cases hr
    | some q =>
      rw [he] at hr
      have hp := pass_out (g := 0) hT (by decide) hs he
      exact ih hp.sound (hp.idle hi) hr

theorem lastTime_cons (u t : Nat) (ts : List Nat) : lastTime u (t :: ts) = lastTime t ts := by
  unfold lastTime
  rw [List.getLast?_cons]
  rfl

/-- From a fresh state the shutter comes to rest by its deadline. -/
theorem run_fresh {F : Fp} {T g D : Nat} (hT : T ≤ 2 ^ 24) (hg : g ≤ 2 ^ 30) (ts : List Nat) :
    ∀ {s s' : RS} {u : Nat}, Sound T s → Settled s → Fresh s u → deadline T g s u ≤ D → Every g u ts →
    run F s (ts.map fun t => (t, .pass)) = some s' → Idle s' ∨ lastTime u ts ≤ D := by
  induction ts with
  | nil =>
    intro s s' u hs _ hf hD _ _
    exact .inr (Nat.le_trans fresh_le hD)
  | cons t ts ih =>
    intro s s' u hs hset hf hD hev hr
    rw [List.map_cons] at hr
    unfold run at hr
    obtain ⟨h1, h2, h3⟩ := hev
    cases he : step F s (t, .pass) with
    | none => rw [he] at hr; cases hr
    | some q =>
      rw [he] at hr
      have hp := pass_out hT hg hs he
      rw [lastTime_cons]
      rcases hp.armed hset with hi | hf'
      · exact .inl (run_idle hT ts hp.sound hi hr)
      · rcases hp.dead u hf h1 h2 with hi | hd
        · exact .inl (run_idle hT ts hp.sound hi hr)
        · exact ih hp.sound hp.settled hf' (Nat.le_trans hd hD) h3 hr

theorem stops_of_sound {F : Fp} {T g : Nat} {s : RS} {u : Nat} (hT : T ≤ 2 ^ 24) (hg : g ≤ 2 ^ 30)
    (hs : Sound T s) {ts : List Nat} {s' : RS} (hev : Every g u ts)
    (hr : run F s (ts.map fun t => (t, .pass)) = some s')
    (hl : u + (4 * T + 61000 + 8 * g) < lastTime u ts) : Idle s' := by
  match ts, hev, hr, hl with
  | [], _, _, hl => exact absurd hl (by show ¬ _ < u; omega)
  | [t], hev, _, hl =>
    have := hev.2.1
    exact absurd hl (by show ¬ _ < t; omega)
  | t1 :: t2 :: ts, hev, hr, hl =>
    obtain ⟨h1, h2, h3, h4, h5⟩ := hev
    rw [List.map_cons, List.map_cons] at hr
    unfold run at hr
    cases he : step F s (t1, .pass) with
    | none => rw [he] at hr; cases hr
    | some q1 =>
      rw [he] at hr
      have hp1 := pass_out hT hg hs he
      change run F q1 _ = _ at hr
      unfold run at hr
      cases he2 : step F q1 (t2, .pass) with
      | none => rw [he2] at hr; cases hr
      | some q2 =>
        rw [he2] at hr
        change run F q2 _ = _ at hr
        have hp2 := pass_out hT hg hp1.sound he2
        rw [lastTime_cons, lastTime_cons] at hl
        rcases hp2.armed hp1.settled with hi | hf
        · exact run_idle hT ts hp2.sound hi hr
        · rcases run_fresh hT hg ts hp2.sound hp2.settled hf (deadline_le hp2.sound) h5 hr with h | h
          · exact h
          · have h : lastTime t2 ts ≤ _ := h
            omega

/-- C28: after any history of operations, on configurations and commands that make sense, both motor
outputs are off after at most 4 times the longest travel time, 61 seconds and 8 pass intervals. -/
theorem motor_stops_partial {F : Fp} {T g : Nat} {b : Boot} {h : List (Nat × Op)} {s : RS} {u : Nat}
    (hT : T ≤ 2 ^ 24) (hg : g ≤ 2 ^ 30) (hb : SaneBoot T b) (hh : SaneRun F T (boot b) h)
    (hr : run F (boot b) h = some s) : StopsWithin F (4 * T + 61000 + 8 * g) g s u := by
  intro ts s' hev hr' hl
  have hs := run_sound hT h hh hr (boot_sound hb)
  have hi := stops_of_sound hT hg hs hev hr' hl
  have h1 : RestOff s.io := run_restOff h hr (fun _ => ⟨rfl, rfl⟩)
  exact run_restOff _ hr' h1 hi.1

/-- Non-vacuity: a shutter of 10 s travel time sent to 20 %, reversed on the way and then
recalibrating. -/
example :
    let F : Fp := ⟨.exact, .exact⟩
    let b : Boot := { t := 1, closing := 10000, opening := 10000, pos := 50 }
    let h : List (Nat × Op) := [(5, .target 20), (10, .pass), (20, .action .close), (30, .pass),
      (600, .pass), (700, .recalibrate), (800, .pass), (1400, .pass)]
    SaneBoot 10000 b ∧ SaneRun F 10000 (boot b) h ∧ (run F (boot b) h).isSome = true ∧
    ((run F (boot b) h).map fun s => s.upOn || s.downOn) = some true := by
  decide +kernel




end Verif.Shutter
