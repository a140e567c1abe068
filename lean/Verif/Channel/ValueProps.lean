import Verif.Channel.Value

/-
Every change of a channel is reported; equal writes are silent; HVAC setters have the effect
their name promises (and where not).
-/

namespace Verif.Channel

/-! ### Specification -/

/-- The report the protocol layers were given last. -/
def lastReport (c : Ch) : Option Report := c.reports.head?

/-- What a user sees of a report: the value and the offline state. -/
def shown (r : Report) : Val × Nat := (r.val, r.offline)

/-- An update is pending, or the last report agrees with the channel in value and offline state. -/
def NothingLost (c : Ch) : Prop :=
  c.changed = true ∨ (lastReport c).map shown = some (shown c.cur)

/-- The same for everything that is handed out, the validity time included. -/
def NothingLostFull (c : Ch) : Prop := c.changed = true ∨ lastReport c = some c.cur

/-! ### Lemmas: every setter keeps `NothingLost` -/

/-- Relation between the channel before and after a setter: the reports are the same, and if the
    visible contents differ, or an update was pending, then an update is pending. -/
def Keeps (c d : Ch) : Prop :=
  d.reports = c.reports ∧ (c.changed = true → d.changed = true) ∧
  (shown d.cur = shown c.cur ∨ d.changed = true)

theorem Keeps.refl (c : Ch) : Keeps c c := ⟨rfl, id, Or.inl rfl⟩

theorem Keeps.trans {a b c : Ch} (h : Keeps a b) (g : Keeps b c) : Keeps a c := by
  refine ⟨g.1.trans h.1, fun x => g.2.1 (h.2.1 x), ?_⟩
  rcases g.2.2 with e | e
  · rcases h.2.2 with f | f
    · exact Or.inl (e.trans f)
    · exact Or.inr (g.2.1 f)
  · exact Or.inr e

theorem Keeps.ready {c d : Ch} (h : d.reports = c.reports) : Keeps c (ready d) :=
  ⟨h, fun _ => rfl, Or.inr rfl⟩

theorem Keeps.set (c : Ch) (v : Val) : Keeps c (Verif.Channel.ready (setVal c v)) := Keeps.ready rfl

theorem Keeps.emit {c d : Ch} (h : Keeps c d) (e : Ev) : Keeps c (emit d e) := h

theorem Keeps.lost {c d : Ch} (h : Keeps c d) (g : NothingLost c) : NothingLost d := by
  rcases h with ⟨h1, h2, h3⟩
  rcases g with g | g
  · exact Or.inl (h2 g)
  · rcases h3 with e | e
    · right
      unfold lastReport at *
      rw [h1, e]; exact g
    · exact Or.inl e

theorem setRaw_keeps (c : Ch) (b) : Keeps c (setRaw c b) := by
  unfold setRaw
  split
  · split
    · exact Keeps.refl c
    · exact Keeps.ready rfl
  · exact Keeps.refl c

theorem setTyped_keeps (c : Ch) (b) : Keeps c (setTyped c b) := by
  unfold setTyped
  split
  · split
    · exact Keeps.refl c
    · exact (Keeps.ready (c := c) (d := setVal c (.raw b)) rfl).emit _ |>.emit _
  · exact Keeps.refl c

theorem setMeter_keeps (c : Ch) (b) : Keeps c (setMeter c b) :=
  Keeps.ready (setRaw_keeps c b).1

theorem setOffline_keeps (c : Ch) (k) : Keeps c (setOfflineState c k) := by
  unfold setOfflineState
  split
  · exact Keeps.refl c
  · exact Keeps.ready rfl

theorem setValidity_keeps (c : Ch) (n) : Keeps c (setValidity c n) := ⟨rfl, id, Or.inl rfl⟩

theorem onHvac_keeps {c : Ch} {f : Ch → Hvac → Ch} (h : ∀ v, c.cur.val = .hvac v → Keeps c (f c v)) :
    Keeps c (onHvac c f) := by
  unfold onHvac
  split
  · exact Keeps.refl c
  · rename_i v hv; exact h v hv

theorem hvacIsOn_keeps (c : Ch) (on) : Keeps c (hvacIsOn c on) := by
  apply onHvac_keeps
  intro v _
  try dsimp only
  split
  · apply Keeps.ready
    repeat' split
    all_goals rfl
  · exact Keeps.refl c

theorem hvacPercent_keeps (c : Ch) (p) : Keeps c (hvacPercent c p) := by
  apply onHvac_keeps
  intro v _
  try dsimp only
  split
  · apply Keeps.ready
    repeat' split
    all_goals rfl
  · exact Keeps.refl c

theorem modeEvent_keeps {c d : Ch} (m) (h : Keeps c d) : Keeps c (modeEvent m d) := by
  unfold modeEvent
  repeat' split
  all_goals first | exact h | exact h.emit _

theorem hvacMode_keeps (c : Ch) (m) : Keeps c (hvacMode c m) := by
  apply onHvac_keeps
  intro v _
  try dsimp only
  split
  · exact modeEvent_keeps m (Keeps.ready rfl)
  · exact Keeps.refl c

theorem hvacFlag_keeps (c : Ch) (i on) : Keeps c (hvacFlag c i on) := by
  apply onHvac_keeps
  intro v _
  try dsimp only
  split
  · split
    · exact (Keeps.set c _).emit _
    · exact Keeps.ready rfl
  · exact Keeps.refl c

theorem hvacFlags_keeps (c : Ch) (fl) : Keeps c (hvacFlags c fl) := by
  apply onHvac_keeps
  intro v _
  try dsimp only
  split
  · exact Keeps.ready rfl
  · exact Keeps.refl c

theorem hvacHeat_keeps (c : Ch) (t) : Keeps c (hvacHeat c t) := by
  apply onHvac_keeps
  intro v _
  try dsimp only
  split
  · exact (Keeps.set c _).trans (hvacFlag_keeps _ _ _)
  · exact Keeps.refl c

theorem hvacCool_keeps (c : Ch) (t) : Keeps c (hvacCool c t) := by
  apply onHvac_keeps
  intro v _
  try dsimp only
  split
  · exact (Keeps.set c _).trans (hvacFlag_keeps _ _ _)
  · exact Keeps.refl c

theorem hvacClearHeat_keeps (c : Ch) : Keeps c (hvacClearHeat c) := by
  apply onHvac_keeps
  intro v _
  try dsimp only
  split
  · exact (Keeps.set c _).trans (hvacFlag_keeps _ _ _)
  · exact Keeps.refl c

theorem hvacClearCool_keeps (c : Ch) : Keeps c (hvacClearCool c) := by
  apply onHvac_keeps
  intro v _
  try dsimp only
  split
  · exact (Keeps.set c _).trans (hvacFlag_keeps _ _ _)
  · exact Keeps.refl c

theorem hvacClear_keeps (c : Ch) : Keeps c (hvacClear c) := by
  unfold hvacClear
  exact (hvacClearCool_keeps c).trans <| (hvacClearHeat_keeps _).trans <|
    (hvacMode_keeps _ _).trans <| (hvacFlag_keeps _ _ _).trans <| (hvacFlag_keeps _ _ _).trans <|
    (hvacFlag_keeps _ _ _).trans <| (hvacIsOn_keeps _ _).trans <| (hvacFlag_keeps _ _ _).trans <|
    (hvacFlag_keeps _ _ _).trans <| (hvacFlag_keeps _ _ _).trans (hvacFlag_keeps _ _ _)

theorem report_nothingLost (c : Ch) : NothingLost (report c) := Or.inr rfl

theorem cstep_nothingLost (c : Ch) (h : NothingLost c) (o : COp) : NothingLost (cstep c o) := by
  cases o <;> simp only [cstep]
  case raw b => exact (setRaw_keeps c b).lost h
  case typed b => exact (setTyped_keeps c b).lost h
  case meter b => exact (setMeter_keeps c b).lost h
  case offline k => exact (setOffline_keeps c k).lost h
  case validity n => exact (setValidity_keeps c n).lost h
  case isOn on => exact (hvacIsOn_keeps c on).lost h
  case percent p => exact (hvacPercent_keeps c p).lost h
  case mode m => exact (hvacMode_keeps c m).lost h
  case flag i on => exact (hvacFlag_keeps c i on).lost h
  case flags fl => exact (hvacFlags_keeps c fl).lost h
  case heat t => exact (hvacHeat_keeps c t).lost h
  case cool t => exact (hvacCool_keeps c t).lost h
  case clearHeat => exact (hvacClearHeat_keeps c).lost h
  case clearCool => exact (hvacClearCool_keeps c).lost h
  case clearHvac => exact (hvacClear_keeps c).lost h
  case send =>
    unfold sendUpdate
    split
    · exact report_nothingLost c
    · exact h
  case register => exact report_nothingLost c

/-! ### Theorems -/

/-- After any history of value updates, state changes and send passes: if the value or the offline
    state differs from what the protocol layers were handed last, an update is pending. -/
theorem every_change_reported (v : Val) (ops : List COp) : NothingLost (crun (fresh v) ops) := by
  have : ∀ (ops : List COp) (c : Ch), NothingLost c → NothingLost (crun c ops) := by
    intro ops
    induction ops with
    | nil => intro c h; exact h
    | cons o t ih => intro c h; exact ih (cstep c o) (cstep_nothingLost c h o)
  exact this ops _ (report_nothingLost _)

example : lastReport (crun (fresh (.hvac {})) [.heat 2150, .percent 40, .send, .isOn false, .mode 2]) =
    some ⟨.hvac { isOn := 42, heat := 2150, flags := 1 }, 0, 0⟩ ∧
    (crun (fresh (.hvac {})) [.heat 2150, .percent 40, .send, .isOn false, .mode 2]).changed = true := by
  decide +kernel

/-- A send pass reports the current contents when an update is pending, and nothing otherwise. -/
theorem send_reports (v : Val) (ops : List COp) :
    (lastReport (sendUpdate (crun (fresh v) ops))).map shown =
      some (shown (crun (fresh v) ops).cur) ∧
    ((crun (fresh v) ops).changed = false →
      (sendUpdate (crun (fresh v) ops)).reports = (crun (fresh v) ops).reports) := by
  have h := every_change_reported v ops
  revert h
  generalize crun (fresh v) ops = c
  intro h
  unfold sendUpdate
  cases hc : c.changed with
  | true =>
    simp only [if_true]
    refine ⟨rfl, ?_⟩
    intro h; cases h
  | false =>
    simp only [Bool.false_eq_true, if_false]
    refine ⟨?_, fun _ => trivial⟩
    rcases h with h | h
    · rw [hc] at h; cases h
    · exact h

example : (crun (fresh (.raw [0])) [.raw [1], .raw [1]]).changed = true ∧
    (crun (fresh (.raw [0])) [.raw [0]]).changed = false := by decide +kernel

/-- A setter that stores what the channel already holds. -/
def Redundant (c : Ch) : COp → Prop
  | .raw b | .typed b => c.cur.val = .raw b
  | .offline k => c.cur.offline = k
  | .isOn on => ∃ h, c.cur.val = .hvac h ∧ h.isOn = (if on then 1 else 0)
  | .percent p => ∃ h, c.cur.val = .hvac h ∧ h.isOn = min p 100 + 2
  | .mode m => ∃ h, c.cur.val = .hvac h ∧ h.mode = m
  | .flag i on => ∃ h, c.cur.val = .hvac h ∧ h.flags.testBit i = on
  | .flags fl => ∃ h, c.cur.val = .hvac h ∧ h.flags = fl
  | .heat t => ∃ h, c.cur.val = .hvac h ∧ h.heat = t ∧ h.flags.testBit 0 = true
  | .cool t => ∃ h, c.cur.val = .hvac h ∧ h.cool = t ∧ h.flags.testBit 1 = true
  | .clearHeat => ∃ h, c.cur.val = .hvac h ∧ h.heat = 0 ∧ h.flags.testBit 0 = false
  | .clearCool => ∃ h, c.cur.val = .hvac h ∧ h.cool = 0 ∧ h.flags.testBit 1 = false
  | _ => False

/-- Writing what the channel already holds changes nothing at all: no update is marked and no
    event is raised. -/
theorem redundant_write_silent (c : Ch) (o : COp) (h : Redundant c o) : cstep c o = c := by
  cases o <;> simp only [Redundant] at h <;> simp only [cstep]
  case raw b => simp [setRaw, h]
  case typed b => simp [setTyped, h]
  case offline k => simp [setOfflineState, h]
  case isOn on =>
    obtain ⟨v, hv, hi⟩ := h
    cases on <;> simp [hvacIsOn, onHvac, hv, hi]
  case percent p =>
    obtain ⟨v, hv, hi⟩ := h
    simp [hvacPercent, onHvac, hv, hi, percentCode]
  case mode m => obtain ⟨v, hv, hi⟩ := h; simp [hvacMode, onHvac, hv, hi]
  case flag i on => obtain ⟨v, hv, hi⟩ := h; simp [hvacFlag, onHvac, hv, flag, hi]
  case flags fl => obtain ⟨v, hv, hi⟩ := h; simp [hvacFlags, onHvac, hv, hi]
  case heat t => obtain ⟨v, hv, hi, hf⟩ := h; simp [hvacHeat, onHvac, hv, hi, flag, hf]
  case cool t => obtain ⟨v, hv, hi, hf⟩ := h; simp [hvacCool, onHvac, hv, hi, flag, hf]
  case clearHeat => obtain ⟨v, hv, hi, hf⟩ := h; simp [hvacClearHeat, onHvac, hv, hi, flag, hf]
  case clearCool => obtain ⟨v, hv, hi, hf⟩ := h; simp [hvacClearCool, onHvac, hv, hi, flag, hf]

example : Redundant (crun (fresh (.hvac {})) [.heat 2150]) (.heat 2150) :=
  ⟨{ heat := 2150, flags := 1 }, by decide +kernel, rfl, by decide +kernel⟩

/-- The full claim, for everything the protocol layers are handed. -/
def EverythingReported : Prop := ∀ v ops, NothingLostFull (crun (fresh v) ops)

/-- Violation: a new validity time is not marked for sending; the server keeps the old one until
    the value changes. -/
theorem validity_not_reported_violation : ¬ EverythingReported := by
  intro h
  have := h (.raw [0]) [.validity 600]
  revert this; unfold NothingLostFull; decide +kernel

theorem ite_validity {p : Prop} [Decidable p] {a b : Ch} {n : Nat} (ha : a.cur.validity = n)
    (hb : b.cur.validity = n) : (if p then a else b).cur.validity = n := by
  split
  · exact ha
  · exact hb

/-- Without changes of the validity time everything handed out is up to date or pending. -/
theorem everything_reported_partial (v : Val) (ops : List COp)
    (hv : ∀ n, COp.validity n ∉ ops) : NothingLostFull (crun (fresh v) ops) := by
  have hval : ∀ (ops : List COp) (c : Ch), (∀ n, COp.validity n ∉ ops) →
      (∀ r ∈ lastReport c, r.validity = c.cur.validity) →
      ∀ r ∈ lastReport (crun c ops), r.validity = (crun c ops).cur.validity := by
    intro ops
    induction ops with
    | nil => intro c _ h; exact h
    | cons o t ih =>
      intro c hn h
      apply ih (cstep c o) (fun n hm => hn n (by simp [hm]))
      have hk : ∀ d, d.reports = c.reports → d.cur.validity = c.cur.validity →
          ∀ r ∈ lastReport d, r.validity = d.cur.validity := by
        intro d h1 h2 r hr
        unfold lastReport at hr h
        rw [h1] at hr
        rw [h2]; exact h r hr
      have hon : ∀ (c : Ch) (f : Ch → Hvac → Ch),
          (∀ h, (f c h).cur.validity = c.cur.validity) → (onHvac c f).cur.validity = c.cur.validity := by
        intro c f hf; unfold onHvac; split
        · rfl
        · exact hf _
      have h1 : ∀ c on, (hvacIsOn c on).cur.validity = c.cur.validity := by
        intro c on; apply hon; intro h; try dsimp only; repeat' split
        all_goals rfl
      have h2 : ∀ c p, (hvacPercent c p).cur.validity = c.cur.validity := by
        intro c on; apply hon; intro h; try dsimp only; repeat' split
        all_goals rfl
      have h3 : ∀ c m, (hvacMode c m).cur.validity = c.cur.validity := by
        intro c m; apply hon; intro h
        by_cases hc : h.mode ≠ m ∧ m ≤ 7
        · rw [if_pos hc]; unfold modeEvent; repeat' split
          all_goals rfl
        · rw [if_neg hc]
      have h4 : ∀ c i on, (hvacFlag c i on).cur.validity = c.cur.validity := by
        intro c i on; apply hon; intro h; try dsimp only; repeat' split
        all_goals rfl
      have h5 : ∀ c, (hvacClearHeat c).cur.validity = c.cur.validity := by
        intro c; exact hon _ _ fun h => ite_validity (h4 _ _ _) rfl
      have h6 : ∀ c, (hvacClearCool c).cur.validity = c.cur.validity := by
        intro c; exact hon _ _ fun h => ite_validity (h4 _ _ _) rfl
      cases o <;> simp only [cstep]
      case raw b =>
        refine hk _ (setRaw_keeps c b).1 ?_
        unfold setRaw; repeat' split
        all_goals rfl
      case typed b =>
        refine hk _ (setTyped_keeps c b).1 ?_
        unfold setTyped; repeat' split
        all_goals rfl
      case meter b =>
        refine hk _ (setMeter_keeps c b).1 ?_
        show (setRaw c b).cur.validity = _
        unfold setRaw; repeat' split
        all_goals rfl
      case offline k =>
        refine hk _ (setOffline_keeps c k).1 ?_
        unfold setOfflineState; split <;> rfl
      case validity n => exact absurd (by simp) (hn n)
      case isOn on => exact hk _ (hvacIsOn_keeps c on).1 (h1 c on)
      case percent p => exact hk _ (hvacPercent_keeps c p).1 (h2 c p)
      case mode m => exact hk _ (hvacMode_keeps c m).1 (h3 c m)
      case flag i on => exact hk _ (hvacFlag_keeps c i on).1 (h4 c i on)
      case flags fl =>
        refine hk _ (hvacFlags_keeps c fl).1 ?_
        exact hon _ _ fun h => ite_validity rfl rfl
      case heat t =>
        refine hk _ (hvacHeat_keeps c t).1 ?_
        exact hon _ _ fun h => ite_validity (h4 _ _ _) rfl
      case cool t =>
        refine hk _ (hvacCool_keeps c t).1 ?_
        exact hon _ _ fun h => ite_validity (h4 _ _ _) rfl
      case clearHeat => exact hk _ (hvacClearHeat_keeps c).1 (h5 c)
      case clearCool => exact hk _ (hvacClearCool_keeps c).1 (h6 c)
      case clearHvac =>
        refine hk _ (hvacClear_keeps c).1 ?_
        unfold hvacClear
        simp only [h1, h3, h4, h5, h6]
      case send =>
        unfold sendUpdate
        split
        · intro r hr; simp [lastReport, report] at hr; subst hr; rfl
        · exact h
      case register => intro r hr; simp [lastReport, fill, report] at hr; subst hr; rfl
  have h1 := every_change_reported v ops
  have h2 := hval ops (fresh v) hv (by intro r hr; simp [lastReport, fresh, fill, report] at hr; subst hr; rfl)
  revert h1 h2
  generalize crun (fresh v) ops = c
  intro h1 h2
  rcases h1 with h1 | h1
  · exact Or.inl h1
  · right
    cases hr : lastReport c with
    | none => rw [hr] at h1; cases h1
    | some r =>
      rw [hr] at h1 h2
      have hval := h2 r rfl
      simp only [Option.map_some, Option.some.injEq, shown, Prod.mk.injEq] at h1
      congr 1
      cases r; cases hcur : c.cur; simp_all

example : (∀ n, COp.validity n ∉ [COp.offline 1, .send]) ∧
    lastReport (crun (fresh (.raw [0])) [.offline 1, .send]) = some ⟨.raw [0], 1, 0⟩ := by
  refine ⟨by simp, by decide +kernel⟩

/-! ### HVAC: the setters have their effect -/

/-- Is the output on, as the channel tells the rest of the program?
    `getHvacIsOnBool`, channel.cpp lines 1203-1209. -/
def hvacOutputOn (c : Ch) : Option Bool :=
  match c.cur.val with
  | .hvac h => some (decide (h.isOn = 1 ∨ h.isOn > 2))
  | .raw _ => none

/-- Full claim: after switching on or off, the channel is on or off. -/
def SwitchTakesEffect : Prop :=
  ∀ (h : Hvac) ops on, hvacOutputOn (cstep (crun (fresh (.hvac h)) ops) (.isOn on)) = some on

/-- Violation: switching off an output that was set by percentage (2..102 means 0..100 %) does
    nothing, the channel still shows 40 % and no event is raised.  `clearHvacState` relies on it. -/
theorem hvac_off_violation : ¬ SwitchTakesEffect := by
  intro h
  have := h {} [.percent 40] false
  revert this; decide +kernel

example : hvacOutputOn (crun (fresh (.hvac {})) [.percent 40, .clearHvac]) = some true := by
  decide +kernel

/-- When the output is in the on/off encoding (0 or 1), or when switching on, it takes effect. -/
theorem switch_takes_effect_partial (c : Ch) (h : Hvac) (hv : c.cur.val = .hvac h) (on : Bool)
    (hok : on = true ∨ h.isOn ≤ 2) : hvacOutputOn (cstep c (.isOn on)) = some on := by
  simp only [cstep, hvacIsOn, onHvac, hv]
  by_cases hc : decide (h.isOn = 1) ≠ on
  · rw [if_pos hc]
    simp only [hvacOutputOn, ready, setVal]
    cases on <;> simp
  · rw [if_neg hc]
    simp only [hvacOutputOn, hv]
    have hc' : decide (h.isOn = 1) = on := Classical.byContradiction hc
    cases on with
    | true => simp only [decide_eq_true_eq] at hc'; simp [hc']
    | false =>
      simp only [decide_eq_false_iff_not] at hc'
      rcases hok with h' | h'
      · cases h'
      · have : h.isOn = 0 ∨ h.isOn = 2 := by omega
        rcases this with e | e <;> simp [e]

example : (crun (fresh (.hvac {})) [.isOn true]).cur.val = .hvac { isOn := 1 } := by decide +kernel

/-- Setting a percentage always takes effect: the channel is on exactly for a percentage above
    0, and the percentage it shows is the one asked for, at most 100. -/
theorem percent_takes_effect (c : Ch) (h : Hvac) (hv : c.cur.val = .hvac h) (p : Nat) :
    hvacOutputOn (cstep c (.percent p)) = some (decide (0 < p)) ∧
    ∃ h', (cstep c (.percent p)).cur.val = .hvac h' ∧ h'.isOn - 2 = min p 100 ∧
      h'.mode = h.mode ∧ h'.heat = h.heat ∧ h'.cool = h.cool ∧ h'.flags = h.flags := by
  simp only [cstep, hvacPercent, onHvac, hv]
  by_cases hc : h.isOn ≠ percentCode p
  · rw [if_pos hc]
    refine ⟨?_, ⟨{ h with isOn := percentCode p }, rfl, ?_, rfl, rfl, rfl, rfl⟩⟩
    · simp only [hvacOutputOn, ready, setVal, percentCode, Option.some.injEq, decide_eq_decide]
      omega
    · simp only [percentCode]; omega
  · rw [if_neg hc]
    have hc' : h.isOn = percentCode p := Classical.byContradiction hc
    refine ⟨?_, ⟨h, hv, ?_, rfl, rfl, rfl, rfl⟩⟩
    · simp only [hvacOutputOn, hv, hc', percentCode, Option.some.injEq, decide_eq_decide]
      omega
    · rw [hc']; simp only [percentCode]; omega

example : hvacOutputOn (crun (fresh (.hvac {})) [.percent 40, .percent 0]) = some false := by
  decide +kernel

theorem putFlag_test (fl i : Nat) (on : Bool) : ∀ j, (putFlag fl i on).testBit j =
    if j = i then on else fl.testBit j := by
  intro j
  unfold putFlag
  cases on with
  | true =>
    simp only [if_true, Nat.testBit_or, Nat.testBit_two_pow]
    by_cases h : j = i
    · simp [h]
    · simp [h, show ¬ i = j from fun e => h e.symm]
  | false =>
    simp only [Bool.false_eq_true, if_false]
    by_cases ht : fl.testBit i = true
    · rw [if_pos ht]
      simp only [Nat.testBit_xor, Nat.testBit_two_pow]
      by_cases h : j = i
      · subst h; simp [ht]
      · simp [h, show ¬ i = j from fun e => h e.symm]
    · rw [if_neg ht]
      by_cases h : j = i
      · subst h; simp at ht; simp [ht]
      · simp [h]

/-- A flag setter changes its own flag to the requested value and no other, and leaves mode,
    output and temperatures alone. -/
theorem flag_takes_effect (c : Ch) (h : Hvac) (hv : c.cur.val = .hvac h) (i : Nat) (on : Bool) :
    ∃ h', (cstep c (.flag i on)).cur.val = .hvac h' ∧
      (∀ j, h'.flags.testBit j = if j = i then on else h.flags.testBit j) ∧
      h'.isOn = h.isOn ∧ h'.mode = h.mode ∧ h'.heat = h.heat ∧ h'.cool = h.cool := by
  simp only [cstep, hvacFlag, onHvac, hv]
  by_cases hc : on ≠ flag h i
  · rw [if_pos hc]
    refine ⟨{ h with flags := putFlag h.flags i on }, ?_, putFlag_test h.flags i on, rfl, rfl, rfl, rfl⟩
    split <;> rfl
  · rw [if_neg hc]
    have hc' : on = flag h i := Classical.byContradiction hc
    refine ⟨h, hv, ?_, rfl, rfl, rfl, rfl⟩
    intro j
    by_cases hj : j = i
    · rw [if_pos hj, hc', hj]; rfl
    · rw [if_neg hj]

example : (crun (fresh (.hvac { flags := 5 })) [.flag 2 false, .flag 6 true]).cur.val =
    .hvac { flags := 65 } := by decide +kernel

/-- Setting a heating setpoint stores it and marks it as set; the cooling setpoint, the mode, the
    output and all other flags are untouched (and the same with heating and cooling exchanged). -/
theorem setpoint_takes_effect (c : Ch) (h : Hvac) (hv : c.cur.val = .hvac h) (t : Nat) :
    (∃ h', (cstep c (.heat t)).cur.val = .hvac h' ∧ h'.heat = t ∧
      (∀ j, h'.flags.testBit j = if j = 0 then true else h.flags.testBit j) ∧
      h'.isOn = h.isOn ∧ h'.mode = h.mode ∧ h'.cool = h.cool) ∧
    (∃ h', (cstep c (.cool t)).cur.val = .hvac h' ∧ h'.cool = t ∧
      (∀ j, h'.flags.testBit j = if j = 1 then true else h.flags.testBit j) ∧
      h'.isOn = h.isOn ∧ h'.mode = h.mode ∧ h'.heat = h.heat) := by
  constructor
  · by_cases hc : h.heat ≠ t ∨ flag h 0 = false
    · obtain ⟨h', e, f, g1, g2, g3, g4⟩ := flag_takes_effect
        (ready (setVal c (.hvac { h with heat := t }))) { h with heat := t } rfl 0 true
      refine ⟨h', ?_, g3, f, g1, g2, g4⟩
      simp only [cstep, hvacHeat, onHvac, hv] at e ⊢
      rw [if_pos hc]; exact e
    · have h1 : h.heat = t ∧ flag h 0 = true := by
        constructor
        · exact Classical.byContradiction fun e => hc (Or.inl e)
        · cases hf : flag h 0 with
          | true => rfl
          | false => exact absurd (Or.inr hf) hc
      refine ⟨h, ?_, h1.1, ?_, rfl, rfl, rfl⟩
      · simp only [cstep, hvacHeat, onHvac, hv]
        rw [if_neg hc]; exact hv
      · intro j
        by_cases hj : j = 0
        · rw [if_pos hj, hj]; exact h1.2
        · rw [if_neg hj]
  · by_cases hc : h.cool ≠ t ∨ flag h 1 = false
    · obtain ⟨h', e, f, g1, g2, g3, g4⟩ := flag_takes_effect
        (ready (setVal c (.hvac { h with cool := t }))) { h with cool := t } rfl 1 true
      refine ⟨h', ?_, g4, f, g1, g2, g3⟩
      simp only [cstep, hvacCool, onHvac, hv] at e ⊢
      rw [if_pos hc]; exact e
    · have h1 : h.cool = t ∧ flag h 1 = true := by
        constructor
        · exact Classical.byContradiction fun e => hc (Or.inl e)
        · cases hf : flag h 1 with
          | true => rfl
          | false => exact absurd (Or.inr hf) hc
      refine ⟨h, ?_, h1.1, ?_, rfl, rfl, rfl⟩
      · simp only [cstep, hvacCool, onHvac, hv]
        rw [if_neg hc]; exact hv
      · intro j
        by_cases hj : j = 1
        · rw [if_pos hj, hj]; exact h1.2
        · rw [if_neg hj]

example : (crun (fresh (.hvac {})) [.heat 2100, .cool 2500]).cur.val =
    .hvac { heat := 2100, cool := 2500, flags := 3 } := by decide +kernel

end Verif.Channel
