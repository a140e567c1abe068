import Verif.Common.Clock

/-
Aggregator that drives one pump/boiler relay for several thermostats.
Models src/supla/control/relay_hvac_aggregator.cpp lines 102-205 and 211-235,
relay_hvac_aggregator.h lines 55-63.
-/

namespace Verif.Aggregator

open Verif

/-- Members of one aggregator, the relay it drives (`relay`, the true state of the output) and the
    commands given to it so far, newest first (`cmds`, only observed by the specification).
    Thermostats are numbers.  The two `int8_t` members with value -1 for "unknown" are options. -/
structure Agg where
  hvacs : List Nat := []
  lastUpdate : Nat := 0
  lastStateUpdate : Nat := 0
  offWhenEmpty : Bool := true
  sent : Option Bool := none
  seen : Option Bool := none
  relay : Bool := false
  cmds : List Bool := []
deriving DecidableEq, Repr

/-- `registerHvac`, lines 102-125. -/
def register (a : Agg) (h : Nat) : Agg :=
  if h ∈ a.hvacs then a else { a with hvacs := a.hvacs ++ [h] }

/-- `unregisterHvac`, lines 127-146: the first matching entry is taken out. -/
def unregister (a : Agg) (h : Nat) : Agg := { a with hvacs := a.hvacs.erase h }

/-- What the thermostats report at a pass: whether one is to be ignored for this relay
    (`ignoreAggregatorForRelay`) and whether it is heating or cooling. -/
structure Env where
  ignored : Nat → Bool
  active : Nat → Bool

/-- The scan of lines 167-182: (state, ignore). -/
def scan (e : Env) : List Nat → Bool × Bool
  | [] => (false, true)
  | h :: r =>
    if !e.ignored h then
      if e.active h then (true, false) else ((scan e r).1, false)
    else scan e r

/-- A command to the relay. -/
def command (a : Agg) (on : Bool) : Agg :=
  { a with sent := some on, relay := on, cmds := on :: a.cmds }

/-- Lines 156-163. -/
def readRelay (a : Agg) (now : Nat) : Agg :=
  if since now a.lastStateUpdate > 5000 ∨ a.seen = none then
    { a with seen := some a.relay, lastStateUpdate := now }
  else a

/-- Lines 184-204. -/
def act (a : Agg) (state ignore : Bool) : Agg :=
  if ignore && (!a.offWhenEmpty || decide (a.sent = some state)) then a
  else
    let a' := if !ignore && !a.offWhenEmpty then { a with sent := a.seen } else a
    if a'.sent = some state then a' else command a' state

/-- `iterateAlways`, lines 148-205 (the relay is present). -/
def iterate (a : Agg) (now : Nat) (e : Env) : Agg :=
  if since now a.lastUpdate < 1000 then a
  else act { readRelay a now with lastUpdate := now } (scan e a.hvacs).1 (scan e a.hvacs).2

/-- What may happen, `relay_hvac_aggregator.cpp` 102-205: thermostats come and go, the main loop passes, and somebody else switches the relay (not in the program). -/
inductive Op where
  | register (h : Nat)
  | unregister (h : Nat)
  | pass (t : Nat) (e : Env)
  /-- someone else switches the relay -/
  | manual (on : Bool)

/-- One event, each the function cited above. -/
def step (a : Agg) : Op → Agg
  | .register h => register a h
  | .unregister h => unregister a h
  | .pass t e => iterate a (clk t) e
  | .manual on => { a with relay := on }

/-- A history of events. -/
def run (a : Agg) (ops : List Op) : Agg := ops.foldl step a

/-! ### Specification -/

/-- Some registered, not ignored thermostat wants heat (or cold). -/
def Wanted (e : Env) (hvacs : List Nat) : Prop := ∃ h ∈ hvacs, e.ignored h = false ∧ e.active h = true

/-- Some registered thermostat is not ignored. -/
def SomeoneInCharge (e : Env) (hvacs : List Nat) : Prop := ∃ h ∈ hvacs, e.ignored h = false

/-- The thermostats registered after a history, as a set: registered and not unregistered later. -/
def member (h : Nat) : Bool → List Op → Bool
  | b, [] => b
  | b, .register k :: r => member h (b || k == h) r
  | b, .unregister k :: r => member h (b && !(k == h)) r
  | b, _ :: r => member h b r

/-- `t` is an evaluation pass of the aggregator `a` whose previous one was at true time `t0`. -/
def DueAt (a : Agg) (t0 t : Nat) : Prop := a.lastUpdate = clk t0 ∧ t0 + 1000 ≤ t ∧ t < t0 + 2 ^ 32

/-- Full claim: after every evaluation pass with someone in charge the relay is as wanted. -/
def RelayFollows : Prop := ∀ (ops : List Op) (off : Bool) (t0 t : Nat) (e : Env),
  DueAt (run { offWhenEmpty := off } ops) t0 t →
  SomeoneInCharge e (run { offWhenEmpty := off } ops).hvacs →
  ((run { offWhenEmpty := off } (ops ++ [.pass t e])).relay = true ↔
    Wanted e (run { offWhenEmpty := off } ops).hvacs)

/-! ### Theorems: registration -/

theorem hvacs_act (a : Agg) (s i : Bool) : (act a s i).hvacs = a.hvacs := by
  unfold act command
  dsimp only
  repeat' split
  all_goals rfl

theorem readRelay_frame (a : Agg) (now : Nat) :
    ∃ sn ls, readRelay a now = { a with seen := sn, lastStateUpdate := ls } := by
  unfold readRelay
  by_cases h : since now a.lastStateUpdate > 5000 ∨ a.seen = none
  · rw [if_pos h]; exact ⟨_, _, rfl⟩
  · rw [if_neg h]; exact ⟨a.seen, a.lastStateUpdate, rfl⟩

theorem hvacs_iterate (a : Agg) (now : Nat) (e : Env) : (iterate a now e).hvacs = a.hvacs := by
  unfold iterate
  by_cases h : since now a.lastUpdate < 1000
  · rw [if_pos h]
  · rw [if_neg h, hvacs_act]
    obtain ⟨sn, ls, hq⟩ := readRelay_frame a now
    rw [hq]

/-- Registering and unregistering in any order: no thermostat is registered twice, and one is
    registered exactly if it was registered and not unregistered since. -/
theorem registration_exact (ops : List Op) (a : Agg) (hn : a.hvacs.Nodup) :
    (run a ops).hvacs.Nodup ∧ ∀ h, h ∈ (run a ops).hvacs ↔ member h (decide (h ∈ a.hvacs)) ops = true := by
  induction ops generalizing a with
  | nil => exact ⟨hn, fun h => by simp [run, member]⟩
  | cons o r ih =>
    cases o with
    | register k =>
      by_cases hk : k ∈ a.hvacs
      · have e : step a (.register k) = a := by simp [step, register, hk]
        have := ih a hn
        refine ⟨by show (run (step a (.register k)) r).hvacs.Nodup; rw [e]; exact this.1, fun h => ?_⟩
        show h ∈ (run (step a (.register k)) r).hvacs ↔ _
        rw [e, this.2 h]
        simp only [member]
        have hb : (decide (h ∈ a.hvacs) || k == h) = decide (h ∈ a.hvacs) := by
          by_cases hkh : k = h
          · subst hkh; simp [hk]
          · simp [hkh]
        rw [hb]
      · have e : step a (.register k) = { a with hvacs := a.hvacs ++ [k] } := by simp [step, register, hk]
        have hn' : (a.hvacs ++ [k]).Nodup := by
          rw [List.nodup_append]
          refine ⟨hn, by simp, ?_⟩
          intro x hx y hy
          simp at hy
          subst hy
          intro hxy
          subst hxy
          exact hk hx
        have := ih { a with hvacs := a.hvacs ++ [k] } hn'
        refine ⟨by show (run (step a (.register k)) r).hvacs.Nodup; rw [e]; exact this.1, fun h => ?_⟩
        show h ∈ (run (step a (.register k)) r).hvacs ↔ _
        rw [e, this.2 h]
        simp only [member]
        have hb : decide (h ∈ a.hvacs ++ [k]) = (decide (h ∈ a.hvacs) || k == h) := by
          rw [Bool.eq_iff_iff]
          simp only [decide_eq_true_eq, List.mem_append, List.mem_singleton, Bool.or_eq_true, beq_iff_eq]
          constructor
          · intro x; exact x.imp id Eq.symm
          · intro x; exact x.imp id Eq.symm
        rw [hb]
    | unregister k =>
      have := ih (unregister a k) (hn.erase k)
      refine ⟨this.1, fun h => ?_⟩
      show h ∈ (run (unregister a k) r).hvacs ↔ _
      rw [this.2 h]
      simp only [member]
      have hb : decide (h ∈ (unregister a k).hvacs) = (decide (h ∈ a.hvacs) && !(k == h)) := by
        show decide (h ∈ a.hvacs.erase k) = _
        rw [Bool.eq_iff_iff]
        simp only [decide_eq_true_eq, Bool.and_eq_true, Bool.not_eq_true', beq_eq_false_iff_ne]
        rw [hn.mem_erase_iff]
        constructor
        · intro ⟨x, y⟩; exact ⟨y, fun z => x z.symm⟩
        · intro ⟨x, y⟩; exact ⟨fun z => y z.symm, x⟩
      rw [hb]
    | pass t e =>
      have hh : (step a (.pass t e)).hvacs = a.hvacs := hvacs_iterate a (clk t) e
      have := ih (step a (.pass t e)) (by rw [hh]; exact hn)
      refine ⟨this.1, fun h => ?_⟩
      show h ∈ (run (step a (.pass t e)) r).hvacs ↔ _
      rw [this.2 h, hh]
      rfl
    | manual on => exact ih { a with relay := on } hn

example : (run {} [.register 3, .register 5, .register 3, .unregister 5, .register 7]).hvacs = [3, 7] := by
  decide +kernel

/-! ### Theorems: command -/

theorem scan_state (e : Env) (l : List Nat) : (scan e l).1 = true ↔ Wanted e l := by
  induction l with
  | nil => simp [scan, Wanted]
  | cons h r ih =>
    unfold Wanted at ih ⊢
    simp only [scan]
    cases hi : e.ignored h <;> cases ha : e.active h <;> simp [hi, ha, ih]

theorem scan_ignore (e : Env) (l : List Nat) : (scan e l).2 = false ↔ SomeoneInCharge e l := by
  induction l with
  | nil => simp [scan, SomeoneInCharge]
  | cons h r ih =>
    unfold SomeoneInCharge at ih ⊢
    simp only [scan]
    cases hi : e.ignored h <;> cases ha : e.active h <;> simp [hi, ih]

theorem iterate_due (a : Agg) (t0 t : Nat) (e : Env) (h : DueAt a t0 t) :
    iterate a (clk t) e = act { readRelay a (clk t) with lastUpdate := clk t } (scan e a.hvacs).1 (scan e a.hvacs).2 := by
  unfold iterate
  rw [h.1, if_neg]
  have := h.2
  rw [since_clk_eq _ _ (by omega) (by omega)]
  omega

/-- In the default mode the last command given is remembered correctly, always. -/
theorem sent_is_last_command (ops : List Op) (a : Agg) (ho : a.offWhenEmpty = true)
    (h : a.sent = a.cmds.head?) :
    (run a ops).sent = (run a ops).cmds.head? ∧ (run a ops).offWhenEmpty = true := by
  induction ops generalizing a with
  | nil => exact ⟨h, ho⟩
  | cons o r ih =>
    have : (step a o).sent = (step a o).cmds.head? ∧ (step a o).offWhenEmpty = true := by
      cases o with
      | register k => simp only [step, register]; split <;> exact ⟨h, ho⟩
      | unregister k => exact ⟨h, ho⟩
      | manual on => exact ⟨h, ho⟩
      | pass t e =>
        simp only [step, iterate]
        split
        · exact ⟨h, ho⟩
        · obtain ⟨sn, ls, hq⟩ := readRelay_frame a (clk t)
          rw [hq]
          generalize (scan e a.hvacs).1 = st
          generalize (scan e a.hvacs).2 = ig
          unfold act command
          simp only [ho, Bool.not_true, Bool.false_or, Bool.and_false, Bool.false_eq_true, if_false]
          repeat' split
          all_goals first
            | exact ⟨h, rfl⟩
            | exact ⟨rfl, rfl⟩
    exact ih _ this.2 this.1

theorem run_snoc (a : Agg) (ops : List Op) (o : Op) : run a (ops ++ [o]) = step (run a ops) o := by
  unfold run
  rw [List.foldl_append]
  rfl

theorem act_commands (a : Agg) (st ig : Bool) (ho : a.offWhenEmpty = true) (hs : a.sent = a.cmds.head?) :
    (act a st ig).cmds.head? = some st := by
  unfold act command
  simp only [ho, Bool.not_true, Bool.false_or, Bool.and_false, Bool.false_eq_true, if_false]
  by_cases hq4 : a.sent = some st
  · have hc : a.cmds.head? = some st := by rw [← hs]; exact hq4
    simp only [hq4, decide_true, Bool.and_true, if_true]
    split <;> exact hc
  · simp only [hq4, decide_false, Bool.and_false, Bool.false_eq_true, if_false]
    rfl

/-- Default mode: after every evaluation pass the newest command is "on" if some registered, not
    ignored thermostat is heating or cooling, and "off" otherwise (also when the list is empty). -/
theorem commanded_as_wanted (ops : List Op) (t0 t : Nat) (e : Env) (hd : DueAt (run {} ops) t0 t) :
    ∃ c, (run {} (ops ++ [.pass t e])).cmds.head? = some c ∧ (c = true ↔ Wanted e (run {} ops).hvacs) := by
  have hs := sent_is_last_command ops {} rfl rfl
  rw [run_snoc]
  show ∃ c, (iterate (run {} ops) (clk t) e).cmds.head? = some c ∧ _
  revert hs hd
  generalize run {} ops = a
  intro hd hs
  rw [iterate_due a t0 t e hd]
  refine ⟨(scan e a.hvacs).1, ?_, scan_state e a.hvacs⟩
  obtain ⟨sn, ls, hq⟩ := readRelay_frame a (clk t)
  rw [hq]
  exact act_commands _ _ _ hs.2 hs.1

/-- A thermostat (number 1) that is heating, and one (number 2) that is not. -/
def oneHeats : Env := { ignored := fun _ => false, active := fun h => h == 1 }
example : (run {} [.register 1, .register 2, .pass 1000 oneHeats]).cmds = [true] ∧
    (run {} [.register 1, .register 2, .pass 1000 oneHeats, .unregister 1, .pass 1500 oneHeats, .pass 2000 oneHeats]).cmds = [false, true] := by
  decide +kernel
example : DueAt (run {} [.register 1, .register 2, .pass 1000 oneHeats]) 1000 2000 := by
  refine ⟨by decide +kernel, by decide, by decide⟩

/-- No one else switches the relay. -/
def NoManual (ops : List Op) : Prop := ∀ o ∈ ops, ∀ b, o ≠ .manual b

/-- Default mode, nobody else switches the relay: the relay is as wanted after every evaluation
    pass.  Missing for the full claim: manual switching, and the other mode (where it holds only
    after the relay state has been read again, see `relay_follows_after_reading`). -/
theorem relay_follows_partial (ops : List Op) (hm : NoManual ops) (t0 t : Nat) (e : Env)
    (hd : DueAt (run {} ops) t0 t) :
    (run {} (ops ++ [.pass t e])).relay = true ↔ Wanted e (run {} ops).hvacs := by
  obtain ⟨c, hc, hw⟩ := commanded_as_wanted ops t0 t e hd
  have key : ∀ (ops : List Op) (a : Agg), NoManual ops → (∀ c, a.cmds.head? = some c → a.relay = c) →
      ∀ c, (run a ops).cmds.head? = some c → (run a ops).relay = c := by
    intro ops
    induction ops with
    | nil => intro a _ h; exact h
    | cons o r ih =>
      intro a hn h
      have hr : NoManual r := fun o ho => hn o (by simp [ho])
      refine ih (step a o) hr ?_
      cases o with
      | register k => simp only [step, register]; split <;> exact h
      | unregister k => exact h
      | manual on => exact absurd rfl (hn (.manual on) (by simp) on)
      | pass t e =>
        simp only [step, iterate]
        split
        · exact h
        · obtain ⟨sn, ls, hq⟩ := readRelay_frame a (clk t)
          rw [hq]
          generalize (scan e a.hvacs).1 = st
          generalize (scan e a.hvacs).2 = ig
          unfold act command
          dsimp only
          repeat' split
          all_goals first
            | exact h
            | (intro c hc; simp at hc; exact hc)
  have hrun := key (ops ++ [.pass t e]) {} (by
    intro o ho b
    rcases List.mem_append.mp ho with h | h
    · exact hm o h b
    · simp at h; subst h; exact fun hh => by cases hh) (by intro c hc; cases hc) c hc
  rw [hrun]
  exact hw

/-- Either mode, whatever else happened (manual switching included): an evaluation pass that reads
    the relay (more than 5 s after the last reading) in the "relay may be used by others" mode
    leaves the relay as wanted, if someone is in charge. -/
theorem relay_follows_after_reading (a : Agg) (hoff : a.offWhenEmpty = false) (t0 t ts : Nat) (e : Env)
    (hd : DueAt a t0 t) (hr : a.lastStateUpdate = clk ts) (h5 : ts + 5000 < t) (h6 : t < ts + 2 ^ 32)
    (hc : SomeoneInCharge e a.hvacs) :
    (step a (.pass t e)).relay = true ↔ Wanted e a.hvacs := by
  show (iterate a (clk t) e).relay = true ↔ _
  rw [iterate_due a t0 t e hd]
  have hread : readRelay a (clk t) = { a with seen := some a.relay, lastStateUpdate := clk t } := by
    unfold readRelay
    rw [if_pos]
    left
    rw [hr, since_clk_eq _ _ (by omega) (by omega)]
    omega
  rw [hread, (scan_ignore e a.hvacs).mpr hc, ← scan_state]
  generalize (scan e a.hvacs).1 = st
  unfold act command
  simp only [hoff, Bool.false_and, Bool.not_false, Bool.and_self, Bool.false_eq_true, if_false, if_true]
  by_cases hs : a.relay = st
  · rw [if_pos (by rw [hs])]
    dsimp only
    rw [hs]
  · rw [if_neg (by simpa using hs)]

example : (step { hvacs := [1], offWhenEmpty := false, relay := false, sent := some true, seen := some true, lastUpdate := 9000, lastStateUpdate := 4000 } (.pass 10000 oneHeats)).relay = true := by
  decide +kernel

/-- With nobody in charge and the "relay may be used by others" mode, the relay is left alone. -/
theorem not_in_charge_hands_off (a : Agg) (hoff : a.offWhenEmpty = false) (t : Nat) (e : Env)
    (hc : ¬ SomeoneInCharge e a.hvacs) :
    (step a (.pass t e)).relay = a.relay ∧ (step a (.pass t e)).cmds = a.cmds := by
  have hi : (scan e a.hvacs).2 = true := by
    cases h : (scan e a.hvacs).2 with
    | true => rfl
    | false => exact absurd ((scan_ignore e a.hvacs).mp h) hc
  show (iterate a (clk t) e).relay = _ ∧ (iterate a (clk t) e).cmds = _
  unfold iterate
  split
  · exact ⟨rfl, rfl⟩
  · rw [hi]
    obtain ⟨sn, ls, hq⟩ := readRelay_frame a (clk t)
    rw [hq]
    unfold act
    rw [if_pos (by simp [hoff])]
    exact ⟨rfl, rfl⟩

example : ¬ SomeoneInCharge { ignored := fun _ => true, active := fun _ => true } [1, 2] := by
  simp [SomeoneInCharge]

/-! ### Violations -/

/-- Default mode: a pump switched off by hand stays off however long the thermostat keeps asking
    for heat (the aggregator compares with its own last command, not with the relay). -/
theorem manual_off_not_corrected_violation : ¬ RelayFollows := by
  intro h
  have hh := h [.register 1, .pass 1000 oneHeats, .manual false] true 1000 100000 oneHeats
    ⟨by decide +kernel, by decide, by decide⟩ ⟨1, by decide +kernel, rfl⟩
  have hw : Wanted oneHeats (run { offWhenEmpty := true } [.register 1, .pass 1000 oneHeats, .manual false]).hvacs :=
    ⟨1, by decide +kernel, rfl, rfl⟩
  have := hh.mpr hw
  revert this; decide +kernel

/-- One that is not heating. -/
def noneHeats : Env := { ignored := fun _ => false, active := fun _ => false }

/-- Other mode, nobody else touching the relay: demand ends one second after it began; the
    aggregator still believes the reading from before its own command and does not switch off. -/
theorem stale_reading_violation : ¬ RelayFollows := by
  intro h
  have hh := h [.register 1, .pass 1000 oneHeats] false 1000 2000 noneHeats
    ⟨by decide +kernel, by decide, by decide⟩ ⟨1, by decide +kernel, rfl⟩
  have hr : (run { offWhenEmpty := false } ([.register 1, .pass 1000 oneHeats] ++ [.pass 2000 noneHeats])).relay = true := by
    decide +kernel
  obtain ⟨k, _, _, hk⟩ := hh.mp hr
  exact absurd hk (by simp [noneHeats])

/-- Claim: as long as nobody else switches the relay, a command is only given to change it. -/
def CommandsOnlyChange (off : Bool) : Prop := ∀ (ops : List Op) (t : Nat) (e : Env), NoManual ops →
  ∀ c, (run { offWhenEmpty := off } (ops ++ [.pass t e])).cmds = c :: (run { offWhenEmpty := off } ops).cmds →
    (run { offWhenEmpty := off } ops).cmds.head? ≠ some c

/-- True in the default mode. -/
theorem commands_only_change : CommandsOnlyChange true := by
  intro ops t e _ c hc hh
  have hs := sent_is_last_command ops {} rfl rfl
  rw [run_snoc] at hc
  revert hc hh hs
  show (step (run {} ops) (.pass t e)).cmds = c :: (run {} ops).cmds → (run {} ops).cmds.head? = some c → _ → False
  generalize run {} ops = a
  intro hc hh hs
  have hc' : (iterate a (clk t) e).cmds = c :: a.cmds := hc
  unfold iterate at hc'
  by_cases h1 : since (clk t) a.lastUpdate < 1000
  · rw [if_pos h1] at hc'
    have := congrArg List.length hc'
    simp at this
  · rw [if_neg h1] at hc'
    obtain ⟨sn, ls, hq⟩ := readRelay_frame a (clk t)
    rw [hq] at hc'
    have hac := act_commands { a with seen := sn, lastStateUpdate := ls, lastUpdate := clk t } (scan e a.hvacs).1 (scan e a.hvacs).2 hs.2 hs.1
    have hst : (scan e a.hvacs).1 = c := by
      have h2 : (act { a with seen := sn, lastStateUpdate := ls, lastUpdate := clk t } (scan e a.hvacs).1 (scan e a.hvacs).2).cmds.head? = some c := by
        rw [hc']; rfl
      rw [hac] at h2
      injection h2
    revert hc'
    rw [hst]
    generalize (scan e a.hvacs).2 = ig
    unfold act command
    have hsent : a.sent = some c := by rw [hs.1]; exact hh
    simp only [hs.2, hsent, Bool.not_true, Bool.false_or, Bool.and_false, Bool.false_eq_true, if_false, decide_true, Bool.and_true, if_true]
    intro h3
    split at h3
    all_goals (have := congrArg List.length h3; simp at this)

/-- Violation in the other mode: the same command is repeated every second until the relay is read
    again. -/
theorem repeated_command_violation : ¬ CommandsOnlyChange false := by
  intro h
  have := h [.register 1, .pass 1000 oneHeats] 2000 oneHeats (by
    intro o ho b
    rcases List.mem_cons.mp ho with rfl | ho
    · exact fun hh => by cases hh
    · simp at ho; subst ho; exact fun hh => by cases hh) true (by decide +kernel)
  revert this; decide +kernel

end Verif.Aggregator
