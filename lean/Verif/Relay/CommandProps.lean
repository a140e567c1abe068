import Verif.Relay.Command

/-!
# Relays operated by commands, and virtual relays
-/

namespace Verif.Relay.Command

open Verif Verif.Relay

/-! ## Without a source: the same as a relay -/

/-- The settings of a virtual relay without minimum duration. -/
structure Plain (s : Relay) : Prop where
  high : s.highIsOn = true
  keep : s.keep = s.timed
  min : s.minDur = 0

theorem exec_r (on : Bool) (c : Dev) : (exec on c).r = c.r := by
  unfold exec
  generalize (if on = true then c.onCmd else c.offCmd) = b
  cases b
  · rfl
  · cases c.canRun <;> rfl

theorem exec_frame (on : Bool) (c : Dev) : (exec on c).src = c.src ∧ (exec on c).chan = c.chan ∧ (exec on c).readAt = c.readAt ∧
    (exec on c).onCmd = c.onCmd ∧ (exec on c).offCmd = c.offCmd ∧ (exec on c).canRun = c.canRun ∧ (exec on c).useOffline = c.useOffline := by
  unfold exec
  generalize (if on = true then c.onCmd else c.offCmd) = b
  cases b
  · exact ⟨rfl, rfl, rfl, rfl, rfl, rfl, rfl⟩
  · cases c.canRun <;> exact ⟨rfl, rfl, rfl, rfl, rfl, rfl, rfl⟩

theorem turnOn_r (t d : Nat) (c : Dev) : (turnOn t d c).r = vOn t d c.r := exec_r _ _

theorem turnOff_r (t d : Nat) (c : Dev) : (turnOff t d c).r = vOff t d c.r := exec_r _ _

theorem turnOn_src (t d : Nat) (c : Dev) : (turnOn t d c).src = c.src := (exec_frame _ _).1

theorem turnOff_src (t d : Nat) (c : Dev) : (turnOff t d c).src = c.src := (exec_frame _ _).1

theorem vOn_eq (t d : Nat) (s : Relay) (h : Plain s) : vOn t d s = Relay.turnOn t d s := by
  unfold vOn Relay.turnOn
  dsimp only
  rw [fixed_of_keep h.keep, ← h.keep, if_neg (show ¬ (s.minDur > 0 ∧ s.stored = 0) from fun c => by have := h.min; omega), h.high]

theorem vOff_eq (t d : Nat) (s : Relay) (h : Plain s) : vOff t d s = Relay.turnOff t d s := by
  unfold vOff Relay.turnOff
  dsimp only
  rw [h.high]
  rfl

theorem plain_on (t d : Nat) (s : Relay) (h : Plain s) : Plain (vOn t d s) := ⟨h.high, h.keep, h.min⟩

theorem plain_off (t d : Nat) (s : Relay) (h : Plain s) : Plain (vOff t d s) := ⟨h.high, h.keep, h.min⟩

theorem plain_stored (s : Relay) (x : Nat) (h : Plain s) : Plain { s with stored := x } := ⟨h.high, h.keep, h.min⟩

theorem plain_config (f : Nat) (time : Option Nat) (s : Relay) (h : Plain s) : Plain (applyConfig f time s) := by
  have e : Plain (setFunction f s) := by
    unfold setFunction
    dsimp only
    split
    · rename_i k
      exact ⟨h.high, k.symm, h.min⟩
    · rename_i k
      have k' : (({ s with fn := f } : Relay).isStair || ({ s with fn := f } : Relay).isImpulse) = false := by
        revert k; cases (({ s with fn := f } : Relay).isStair || ({ s with fn := f } : Relay).isImpulse) <;> simp
      exact ⟨h.high, k'.symm, h.min⟩
  unfold applyConfig
  cases time with
  | none => exact e
  | some d =>
    dsimp only
    split
    · exact plain_stored _ _ e
    · exact e

theorem isOn_eq (c : Dev) (hs : c.src = none) (h : Plain c.r) : c.isOn = c.r.isOn := by
  unfold Dev.isOn Relay.isOn
  rw [hs, h.high]
  cases c.r.pin <;> rfl

/-- One step. -/
theorem step_relay (c : Dev) (e : Nat × Op) (hs : c.src = none) (h : Plain c.r) (hm : ∀ d, e.2 = .setMin d → d = 0) :
    (step c e).r = Relay.step c.r e ∧ (step c e).src = none ∧ Plain (step c e).r := by
  obtain ⟨t, o⟩ := e
  have on : ∀ d (x : Dev), x.src = none → Plain x.r → (turnOn t d x).r = Relay.turnOn t d x.r ∧ (turnOn t d x).src = none ∧ Plain (turnOn t d x).r := by
    intro d x hx px
    rw [turnOn_src, turnOn_r]
    exact ⟨vOn_eq t d x.r px, hx, plain_on t d x.r px⟩
  have off : ∀ d (x : Dev), x.src = none → Plain x.r → (turnOff t d x).r = Relay.turnOff t d x.r ∧ (turnOff t d x).src = none ∧ Plain (turnOff t d x).r := by
    intro d x hx px
    rw [turnOff_src, turnOff_r]
    exact ⟨vOff_eq t d x.r px, hx, plain_off t d x.r px⟩
  have tog : ∀ d (x : Dev), x.src = none → Plain x.r → (toggle t d x).r = Relay.toggle t d x.r ∧ (toggle t d x).src = none ∧ Plain (toggle t d x).r := by
    intro d x hx px
    unfold toggle Relay.toggle
    rw [isOn_eq x hx px]
    cases x.r.isOn
    · exact on d x hx px
    · exact off d x hx px
  cases o with
  | turnOn d => exact on d c hs h
  | turnOff d => exact off d c hs h
  | toggle d => exact tog d c hs h
  | action a =>
    cases a with
    | turnOn => exact on 0 c hs h
    | turnOff => exact off 0 c hs h
    | toggle => exact tog 0 c hs h
    | turnOnWithoutTimer =>
      obtain ⟨a1, a2, a3⟩ := on 0 { c with r := { c.r with stored := 0 } } hs (plain_stored c.r 0 h)
      show ({ (turnOn t 0 { c with r := { c.r with stored := 0 } }).r with stored := c.r.stored } : Relay) = { Relay.turnOn t 0 { c.r with stored := 0 } with stored := c.r.stored } ∧
        (turnOn t 0 { c with r := { c.r with stored := 0 } }).src = none ∧ Plain { (turnOn t 0 { c with r := { c.r with stored := 0 } }).r with stored := c.r.stored }
      refine ⟨?_, a2, plain_stored _ _ a3⟩
      rw [a1]
  | server v d =>
    show (server t v d c).r = Relay.server t v d c.r ∧ (server t v d c).src = none ∧ Plain (server t v d c).r
    unfold server Relay.server
    split
    · exact ⟨rfl, hs, h⟩
    split
    · dsimp only
      generalize (if d % 2 ^ 32 < c.r.minDur then c.r.minDur else d % 2 ^ 32) = y
      have p1 : Plain (if c.r.isImpulse = true then { c.r with stored := y } else c.r) := by
        split
        · exact plain_stored _ _ h
        · exact h
      generalize (if c.r.isImpulse = true then { c.r with stored := y } else c.r) = s1 at *
      have p2 : Plain (if s1.isStair = true ∧ y = 0 then { s1 with stored := 0 } else s1) := by
        split
        · exact plain_stored _ _ p1
        · exact p1
      generalize (if s1.isStair = true ∧ y = 0 then { s1 with stored := 0 } else s1) = s2 at *
      obtain ⟨a1, a2, a3⟩ := on y { c with r := s2 } hs p2
      refine ⟨?_, a2, plain_stored _ _ a3⟩
      rw [a1]
    split
    · split
      · exact off 0 c hs h
      · exact off d c hs h
    · exact ⟨rfl, hs, h⟩
  | config f time => exact ⟨rfl, hs, plain_config f time c.r h⟩
  | defFunction f => exact ⟨rfl, hs, ⟨h.high, h.keep, h.min⟩⟩
  | setMin d =>
    have := hm d rfl
    subst this
    exact ⟨rfl, hs, ⟨h.high, h.keep, rfl⟩⟩
  | setCountdown b => exact ⟨rfl, hs, ⟨h.high, h.keep, h.min⟩⟩
  | pass =>
    have e : step c (t, .pass) = read t (expire t c) := rfl
    have r1 : ∀ x : Dev, x.src = none → read t x = x := by
      intro x hx
      unfold read
      exact if_neg (fun k => by rw [hx] at k; exact absurd k.1 (by simp))
    have key : (expire t c).r = Relay.pass t c.r ∧ (expire t c).src = none ∧ Plain (expire t c).r := by
      unfold expire Relay.pass
      split
      · exact tog 0 c hs h
      · exact ⟨rfl, hs, h⟩
    rw [e, r1 _ key.2.1]
    exact key

/-- **A virtual relay is a relay.**  Without a source and without a minimum duration, every history leads to the same state, timer and
settings as with a relay on a pin. -/
theorem virtual_is_relay_partial (h : List (Nat × Op)) (c : Dev) (hs : c.src = none) (hp : Plain c.r) (hm : ∀ e ∈ h, ∀ d, e.2 = Op.setMin d → d = 0) :
    (run c h).r = Relay.run c.r h := by
  induction h generalizing c with
  | nil => rfl
  | cons e h ih =>
    obtain ⟨a, b, d⟩ := step_relay c e hs hp (hm e (List.mem_cons_self ..))
    show (run (step c e) h).r = Relay.run (Relay.step c.r e) h
    rw [ih (step c e) b d (fun x hx => hm x (List.mem_cons_of_mem _ hx)), a]

/-! ## The commands -/

/-- What an operation asks for: on, off or nothing.  Toggling asks for the opposite of what the relay says it is; so does a timer that is over. -/
def asks (c : Dev) (t : Nat) : Op → Option Bool
  | .turnOn _ => some true
  | .turnOff _ => some false
  | .toggle _ => some (!c.isOn)
  | .action .turnOn => some true
  | .action .turnOnWithoutTimer => some true
  | .action .turnOff => some false
  | .action .toggle => some (!c.isOn)
  | .server v _ => if c.r.defFn = fnPump ∨ c.r.defFn = fnHeatCold then none else if v = 1 then some true else if v = 0 then some false else none
  | .pass => if c.r.durationMs ≠ 0 ∧ since (clk t) c.r.ts > c.r.durationMs then some (!c.isOn) else none
  | _ => none

/-- Both commands are configured and processes can be started. -/
def Works (c : Dev) : Prop := c.onCmd = true ∧ c.offCmd = true ∧ c.canRun = true

theorem turnOn_sent (t d : Nat) (c : Dev) (h : Works c) : (turnOn t d c).sent = c.sent ++ [true] ∧ Works (turnOn t d c) := by
  obtain ⟨a, b, e⟩ := h
  unfold turnOn
  dsimp only
  refine ⟨?_, ?_, ?_, ?_⟩
  · unfold exec; rw [if_pos (show (if true = true then c.onCmd else c.offCmd) = true by rw [if_pos rfl]; exact a), if_pos (show c.canRun = true from e)]
  · rw [(exec_frame _ _).2.2.2.1]; exact a
  · rw [(exec_frame _ _).2.2.2.2.1]; exact b
  · rw [(exec_frame _ _).2.2.2.2.2.1]; exact e

theorem turnOff_sent (t d : Nat) (c : Dev) (h : Works c) : (turnOff t d c).sent = c.sent ++ [false] ∧ Works (turnOff t d c) := by
  obtain ⟨a, b, e⟩ := h
  unfold turnOff
  dsimp only
  refine ⟨?_, ?_, ?_, ?_⟩
  · unfold exec; rw [if_pos (show (if false = true then c.onCmd else c.offCmd) = true by rw [if_neg (by decide)]; exact b), if_pos (show c.canRun = true from e)]
  · rw [(exec_frame _ _).2.2.2.1]; exact a
  · rw [(exec_frame _ _).2.2.2.2.1]; exact b
  · rw [(exec_frame _ _).2.2.2.2.2.1]; exact e

theorem toggle_sent (t d : Nat) (c : Dev) (h : Works c) : (toggle t d c).sent = c.sent ++ [!c.isOn] ∧ Works (toggle t d c) := by
  unfold toggle
  cases c.isOn
  · exact turnOn_sent t d c h
  · exact turnOff_sent t d c h

theorem read_frame (t : Nat) (c : Dev) : (read t c).sent = c.sent ∧ (read t c).r = c.r ∧ (read t c).src = c.src ∧ (Works c → Works (read t c)) ∧ (read t c).useOffline = c.useOffline := by
  unfold read
  split
  · exact ⟨rfl, rfl, rfl, fun h => h, rfl⟩
  · exact ⟨rfl, rfl, rfl, fun h => h, rfl⟩

/-- **Exactly the commands asked for.**  Every operation runs the command it asks for, once, and no other. -/
theorem commands_follow (c : Dev) (t : Nat) (o : Op) (h : Works c) : (step c (t, o)).sent = c.sent ++ (asks c t o).toList ∧ Works (step c (t, o)) := by
  have nil : c.sent = c.sent ++ (none : Option Bool).toList := (List.append_nil _).symm
  cases o with
  | turnOn d => exact turnOn_sent t d c h
  | turnOff d => exact turnOff_sent t d c h
  | toggle d => exact toggle_sent t d c h
  | action a =>
    cases a with
    | turnOn => exact turnOn_sent t 0 c h
    | turnOff => exact turnOff_sent t 0 c h
    | toggle => exact toggle_sent t 0 c h
    | turnOnWithoutTimer => exact turnOn_sent t 0 { c with r := { c.r with stored := 0 } } h
  | server v d =>
    show (server t v d c).sent = c.sent ++ (asks c t (.server v d)).toList ∧ Works (server t v d c)
    unfold server asks
    dsimp only
    split
    · exact ⟨nil, h⟩
    split
    · generalize (if d % 2 ^ 32 < c.r.minDur then c.r.minDur else d % 2 ^ 32) = y
      generalize (if c.r.isImpulse = true then { c.r with stored := y } else c.r) = s1 at *
      generalize (if s1.isStair = true ∧ y = 0 then { s1 with stored := 0 } else s1) = s2 at *
      exact turnOn_sent t y { c with r := s2 } h
    split
    · split
      · exact turnOff_sent t 0 c h
      · exact turnOff_sent t d c h
    · exact ⟨nil, h⟩
  | config f time => exact ⟨nil, h⟩
  | defFunction f => exact ⟨nil, h⟩
  | setMin d => exact ⟨nil, h⟩
  | setCountdown b => exact ⟨nil, h⟩
  | pass =>
    show (read t (expire t c)).sent = _ ∧ Works (read t (expire t c))
    have f := read_frame t (expire t c)
    rw [f.1]
    have key : (expire t c).sent = c.sent ++ (asks c t .pass).toList ∧ Works (expire t c) := by
      unfold expire asks
      dsimp only
      split
      · exact toggle_sent t 0 c h
      · exact ⟨nil, h⟩
    exact ⟨key.1, f.2.2.2.1 key.2⟩

/-- What a history asks for. -/
def allAsked (c : Dev) : List (Nat × Op) → List Bool
  | [] => []
  | e :: l => (asks c e.1 e.2).toList ++ allAsked (step c e) l

theorem commands_follow_all (l : List (Nat × Op)) (c : Dev) (h : Works c) : (run c l).sent = c.sent ++ allAsked c l := by
  induction l generalizing c with
  | nil => exact (List.append_nil _).symm
  | cons e l ih =>
    obtain ⟨a, b⟩ := commands_follow c e.1 e.2 h
    show (run (step c e) l).sent = _
    rw [ih (step c e) b, show step c e = step c (e.1, e.2) from rfl, a, List.append_assoc]
    rfl

/-- **At the start** the command for the default or restored state is run, with what is left of the timer. -/
theorem start_command (c : Dev) (t : Nat) (h : Works c) : (onInit t c).sent = c.sent ++ [decide (c.r.stateOnInit = 1 ∨ c.r.stateOnInit = -2)] ∧
    (c.r.keep = false → c.r.durationMs < 2 ^ 32 → (onInit t c).r.durationMs = c.r.durationMs) := by
  unfold onInit
  split
  · rename_i k
    refine ⟨by rw [decide_eq_true k]; exact (turnOn_sent t _ c h).1, fun hk hd => ?_⟩
    rw [turnOn_r]
    unfold vOn
    dsimp only
    rw [if_neg (by rw [hk]; decide)]
    exact Nat.mod_eq_of_lt hd
  · rename_i k
    refine ⟨by rw [decide_eq_false k]; exact (turnOff_sent t _ c h).1, fun _ hd => ?_⟩
    rw [turnOff_r]
    exact Nat.mod_eq_of_lt hd

/-! ## Timers -/

/-- A timer of `d` ms runs since `t0`. -/
def Runs (c : Dev) (t0 d : Nat) : Prop := c.r.durationMs = d ∧ d ≠ 0 ∧ c.r.ts = clk t0

theorem due_iff (c : Dev) (t0 d t : Nat) (h : Runs c t0 d) (h1 : t0 ≤ t) (h2 : t < t0 + 2 ^ 32) :
    (c.r.durationMs ≠ 0 ∧ since (clk t) c.r.ts > c.r.durationMs) ↔ t0 + d < t := by
  obtain ⟨a, b, e⟩ := h
  rw [e, a, since_clk_eq t t0 h1 (by omega)]
  constructor
  · intro x; omega
  · intro x; exact ⟨b, by omega⟩

/-- **A timed switching on ends** (if the source, when there is one, says that the relay is on): nothing until the time is over, then
the off command, and the timer is stopped. -/
theorem timer_ends_partial (c : Dev) (t0 d t : Nat) (hw : Works c) (h : Runs c t0 d) (h1 : t0 ≤ t) (h2 : t < t0 + 2 ^ 32) (hon : c.isOn = true) :
    (t ≤ t0 + d → (pass t c).sent = c.sent ∧ (pass t c).r = c.r) ∧
      (t0 + d < t → (pass t c).sent = c.sent ++ [false] ∧ (pass t c).r.durationMs = 0 ∧ (pass t c).r.pin = false) := by
  have k := due_iff c t0 d t h h1 h2
  have f := read_frame t (expire t c)
  unfold pass
  rw [f.1, f.2.1]
  unfold expire
  constructor
  · intro a
    rw [if_neg (fun x => by have := k.mp x; omega)]
    exact ⟨rfl, rfl⟩
  · intro a
    rw [if_pos (k.mpr a)]
    unfold toggle
    rw [if_pos hon, turnOff_r]
    exact ⟨(turnOff_sent t 0 c hw).1, rfl, rfl⟩

/-- The full claim, for all sources. -/
def TimedOnEnds : Prop :=
  ∀ (c : Dev) (t0 d t : Nat), Works c → t0 ≤ t → t0 + d < t → t < t0 + 2 ^ 32 → 0 < d → d < 2 ^ 32 →
    (pass t (turnOn t0 d c)).sent.getLast? = some false

/-- Passes with what the source says at each. -/
def watch (c : Dev) : List (Nat × Int) → Dev
  | [] => c
  | (t, v) :: l => watch (pass t { c with src := some v }) l

theorem watch_stopped (l : List (Nat × Int)) (c : Dev) (h : c.r.durationMs = 0) : (watch c l).sent = c.sent := by
  induction l generalizing c with
  | nil => rfl
  | cons p l ih =>
    obtain ⟨t, v⟩ := p
    have e : expire t { c with src := some v } = { c with src := some v } := by
      unfold expire
      exact if_neg (fun x => x.1 h)
    have f := read_frame t { c with src := some v }
    show (watch (read t (expire t { c with src := some v })) l).sent = c.sent
    rw [e, ih _ (by rw [f.2.1]; exact h), f.1]

/-- **A timer that never ends.**  If the source does not say "on" when the time is over (it is late, empty or gone), the relay is switched on
once more, and for the functions without a time of their own no pass, whatever the source says later, ever switches it off. -/
theorem never_off_violation (c : Dev) (t0 d t : Nat) (v : Int) (l : List (Nat × Int)) (hw : Works c) (hk : c.r.keep = false) (h : Runs c t0 d)
    (hv : v ≠ 1) (h1 : t0 + d < t) (h2 : t < t0 + 2 ^ 32) :
    (watch c ((t, v) :: l)).sent = c.sent ++ [true] := by
  have k := (due_iff { c with src := some v } t0 d t h (by omega) h2).mpr h1
  have off : ({ c with src := some v } : Dev).isOn = false := by
    show (v == 1) = false
    exact beq_false_of_ne hv
  have e : expire t { c with src := some v } = turnOn t 0 { c with src := some v } := by
    unfold expire
    rw [if_pos k]
    unfold toggle
    rw [off]
    rfl
  have f := read_frame t (turnOn t 0 { c with src := some v })
  show (watch (read t (expire t { c with src := some v })) l).sent = _
  rw [e, watch_stopped l, f.1]
  · exact (turnOn_sent t 0 { c with src := some v } hw).1
  · rw [f.2.1, turnOn_r]
    unfold vOn
    dsimp only
    rw [if_neg (by rw [hk]; decide)]

/-- The same with a staircase timer: as long as the source does not say "on", every end of the timer is a new "on". -/
theorem staircase_violation (l : List (Nat × Int)) (c : Dev) (hw : Works c) (hl : ∀ p ∈ l, p.2 ≠ 1) :
    ∃ k, (watch c l).sent = c.sent ++ List.replicate k true := by
  induction l generalizing c with
  | nil => exact ⟨0, (List.append_nil _).symm⟩
  | cons p l ih =>
    obtain ⟨t, v⟩ := p
    have hv : v ≠ 1 := hl (t, v) (List.mem_cons_self ..)
    have off : ({ c with src := some v } : Dev).isOn = false := by
      show (v == 1) = false
      exact beq_false_of_ne hv
    obtain ⟨a, b⟩ := commands_follow { c with src := some v } t .pass hw
    obtain ⟨k, hk⟩ := ih (pass t { c with src := some v }) b (fun q hq => hl q (List.mem_cons_of_mem _ hq))
    show ∃ k, (watch (pass t { c with src := some v }) l).sent = _
    have a' : (pass t { c with src := some v }).sent = c.sent ++ (asks { c with src := some v } t .pass).toList := a
    rw [hk, a']
    unfold asks
    dsimp only
    split
    · refine ⟨k + 1, ?_⟩
      rw [off]
      show c.sent ++ [true] ++ List.replicate k true = _
      rw [List.append_assoc]
      rfl
    · refine ⟨k, ?_⟩
      show c.sent ++ [] ++ List.replicate k true = _
      rw [List.append_nil]

/-- A lamp operated by commands; its state comes from a file that is not there. -/
def lamp : Dev := { r := {}, src := some (-1) }

theorem timedOnEnds_violation : ¬ TimedOnEnds := by
  intro h
  have := h lamp 1000 60000 61001 ⟨rfl, rfl, rfl⟩ (by decide) (by decide) (by decide) (by decide) (by decide)
  revert this
  decide +kernel

/-! ## What is reported -/

/-- The reported state is what the source says, or the last reading is older than `t0`. -/
def Fresh (c : Dev) (v : Int) (t0 : Nat) : Prop := c.src = some v ∧ (c.chan = (v == 1) ∨ c.readAt ≤ t0)

theorem turnOn_chan (t d : Nat) (c : Dev) (v : Int) (h : c.src = some v) : (turnOn t d c).chan = (v == 1) := by
  unfold turnOn
  dsimp only
  rw [(exec_frame _ _).2.1]
  unfold Dev.isOn
  dsimp only
  rw [h]

theorem turnOff_chan (t d : Nat) (c : Dev) (v : Int) (h : c.src = some v) : (turnOff t d c).chan = (v == 1) := by
  unfold turnOff
  dsimp only
  rw [(exec_frame _ _).2.1]
  unfold Dev.isOn
  dsimp only
  rw [h]

theorem turnOn_fresh (t d : Nat) (c : Dev) (v : Int) (t0 : Nat) (h : c.src = some v) : Fresh (turnOn t d c) v t0 := ⟨by rw [turnOn_src]; exact h, .inl (turnOn_chan t d c v h)⟩

theorem turnOff_fresh (t d : Nat) (c : Dev) (v : Int) (t0 : Nat) (h : c.src = some v) : Fresh (turnOff t d c) v t0 := ⟨by rw [turnOff_src]; exact h, .inl (turnOff_chan t d c v h)⟩

theorem toggle_fresh (t d : Nat) (c : Dev) (v : Int) (t0 : Nat) (h : c.src = some v) : Fresh (toggle t d c) v t0 := by
  unfold toggle
  split
  · exact turnOff_fresh t d c v t0 h
  · exact turnOn_fresh t d c v t0 h

theorem read_fresh (t : Nat) (c : Dev) (v : Int) (t0 : Nat) (h : Fresh c v t0) : Fresh (read t c) v t0 := by
  unfold read
  split
  · refine ⟨h.1, .inl ?_⟩
    show c.isOn = _
    unfold Dev.isOn
    rw [h.1]
  · exact h

theorem expire_fresh (t : Nat) (c : Dev) (v : Int) (t0 : Nat) (h : Fresh c v t0) : Fresh (expire t c) v t0 := by
  unfold expire
  split
  · exact toggle_fresh t 0 c v t0 h.1
  · exact h

theorem step_fresh (c : Dev) (e : Nat × Op) (v : Int) (t0 : Nat) (h : Fresh c v t0) : Fresh (step c e) v t0 := by
  obtain ⟨t, o⟩ := e
  cases o with
  | turnOn d => exact turnOn_fresh t d c v t0 h.1
  | turnOff d => exact turnOff_fresh t d c v t0 h.1
  | toggle d => exact toggle_fresh t d c v t0 h.1
  | action a =>
    cases a with
    | turnOn => exact turnOn_fresh t 0 c v t0 h.1
    | turnOff => exact turnOff_fresh t 0 c v t0 h.1
    | toggle => exact toggle_fresh t 0 c v t0 h.1
    | turnOnWithoutTimer => exact turnOn_fresh t 0 { c with r := { c.r with stored := 0 } } v t0 h.1
  | server w d =>
    show Fresh (server t w d c) v t0
    unfold server
    split
    · exact h
    split
    · dsimp only
      generalize (if d % 2 ^ 32 < c.r.minDur then c.r.minDur else d % 2 ^ 32) = y
      generalize (if c.r.isImpulse = true then { c.r with stored := y } else c.r) = s1 at *
      generalize (if s1.isStair = true ∧ y = 0 then { s1 with stored := 0 } else s1) = s2 at *
      exact turnOn_fresh t y { c with r := s2 } v t0 h.1
    split
    · split
      · exact turnOff_fresh t 0 c v t0 h.1
      · exact turnOff_fresh t d c v t0 h.1
    · exact h
  | config f time => exact h
  | defFunction f => exact h
  | setMin d => exact h
  | setCountdown b => exact h
  | pass => exact read_fresh t _ v t0 (expire_fresh t c v t0 h)

theorem run_fresh (l : List (Nat × Op)) (c : Dev) (v : Int) (t0 : Nat) (h : Fresh c v t0) : Fresh (run c l) v t0 := by
  induction l generalizing c with
  | nil => exact h
  | cons e l ih => exact ih (step c e) (step_fresh c e v t0 h)

/-- **The state reported is the state of the source.**  When the source says `v` since `t0`, then after any history the first pass later than
`t0 + 100` ms (and less than a round of the counter after the last reading) reports exactly that. -/
theorem reported_partial (c : Dev) (v : Int) (t0 t : Nat) (l : List (Nat × Op)) (h0 : c.readAt ≤ t0) (ht : t0 + 100 < t)
    (hw : t < (run { c with src := some v } l).readAt + 2 ^ 32) :
    (pass t (run { c with src := some v } l)).chan = (v == 1) := by
  have f := run_fresh l { c with src := some v } v t0 ⟨rfl, .inr h0⟩
  generalize run { c with src := some v } l = x at *
  show (read t (expire t x)).chan = _
  have ra : ∀ (d : Nat) (y : Dev), (turnOn t d y).readAt = y.readAt ∧ (turnOff t d y).readAt = y.readAt := fun d y => ⟨(exec_frame _ _).2.2.1, (exec_frame _ _).2.2.1⟩
  by_cases e : expire t x = x
  · rw [e]
    rcases f.2 with g | g
    · rcases read_fresh t x v x.readAt ⟨f.1, .inl g⟩ with ⟨_, r | r⟩
      · exact r
      · unfold read at *
        split
        · show x.isOn = _
          unfold Dev.isOn
          rw [f.1]
        · exact g
    · unfold read
      rw [if_pos ⟨by rw [f.1]; rfl, by rw [since_clk_eq t x.readAt (by omega) (by omega)]; omega⟩]
      show x.isOn = _
      unfold Dev.isOn
      rw [f.1]
  · have g : (expire t x).src = some v ∧ (expire t x).chan = (v == 1) := by
      unfold expire at *
      split
      · unfold toggle
        split
        · exact ⟨by rw [turnOff_src]; exact f.1, turnOff_chan t 0 x v f.1⟩
        · exact ⟨by rw [turnOn_src]; exact f.1, turnOn_chan t 0 x v f.1⟩
      · rename_i k
        exact absurd (if_neg k) e
    unfold read
    split
    · show (expire t x).isOn = _
      unfold Dev.isOn
      rw [g.1]
    · exact g.2

/-- Whether the relay is reported as offline: as the source says, or the last reading is older than `t0`. -/
def FreshOff (c : Dev) (b : Bool) (v : Int) (t0 : Nat) : Prop := c.src = some v ∧ c.useOffline = b ∧ (c.offline = (b && v == -1) ∨ c.readAt ≤ t0)

theorem exec_off (on : Bool) (c : Dev) (b : Bool) (v : Int) (t0 : Nat) (h : FreshOff c b v t0) : FreshOff (exec on c) b v t0 := by
  unfold exec
  generalize (if on = true then c.onCmd else c.offCmd) = k
  cases k
  · exact h
  · cases c.canRun <;> exact h

theorem toggle_off (t d : Nat) (c : Dev) (b : Bool) (v : Int) (t0 : Nat) (h : FreshOff c b v t0) : FreshOff (toggle t d c) b v t0 := by
  unfold toggle
  split
  · exact exec_off false _ b v t0 h
  · exact exec_off true _ b v t0 h

theorem read_off (t : Nat) (c : Dev) (b : Bool) (v : Int) (t0 : Nat) (h : FreshOff c b v t0) : FreshOff (read t c) b v t0 := by
  unfold read
  split
  · refine ⟨h.1, h.2.1, .inl ?_⟩
    show (c.useOffline && c.src == some (-1)) = _
    rw [h.1, h.2.1]
    rfl
  · exact h

theorem expire_off (t : Nat) (c : Dev) (b : Bool) (v : Int) (t0 : Nat) (h : FreshOff c b v t0) : FreshOff (expire t c) b v t0 := by
  unfold expire
  split
  · exact toggle_off t 0 c b v t0 h
  · exact h

theorem step_off (c : Dev) (e : Nat × Op) (b : Bool) (v : Int) (t0 : Nat) (h : FreshOff c b v t0) : FreshOff (step c e) b v t0 := by
  obtain ⟨t, o⟩ := e
  cases o with
  | turnOn d => exact exec_off true _ b v t0 h
  | turnOff d => exact exec_off false _ b v t0 h
  | toggle d => exact toggle_off t d c b v t0 h
  | action a =>
    cases a with
    | turnOn => exact exec_off true _ b v t0 h
    | turnOff => exact exec_off false _ b v t0 h
    | toggle => exact toggle_off t 0 c b v t0 h
    | turnOnWithoutTimer =>
      have hx : FreshOff (turnOn t 0 { c with r := { c.r with stored := 0 } }) b v t0 := exec_off true _ b v t0 h
      exact hx
  | server w d =>
    show FreshOff (server t w d c) b v t0
    unfold server
    split
    · exact h
    split
    · dsimp only
      generalize (if d % 2 ^ 32 < c.r.minDur then c.r.minDur else d % 2 ^ 32) = y
      generalize (if c.r.isImpulse = true then { c.r with stored := y } else c.r) = s1 at *
      generalize (if s1.isStair = true ∧ y = 0 then { s1 with stored := 0 } else s1) = s2 at *
      have hx : FreshOff (turnOn t y { c with r := s2 }) b v t0 := exec_off true _ b v t0 h
      exact hx
    split
    · split
      · exact exec_off false _ b v t0 h
      · exact exec_off false _ b v t0 h
    · exact h
  | config f time => exact h
  | defFunction f => exact h
  | setMin d => exact h
  | setCountdown b => exact h
  | pass => exact read_off t _ b v t0 (expire_off t c b v t0 h)

theorem run_off (l : List (Nat × Op)) (c : Dev) (b : Bool) (v : Int) (t0 : Nat) (h : FreshOff c b v t0) : FreshOff (run c l) b v t0 := by
  induction l generalizing c with
  | nil => exact h
  | cons e l ih => exact ih (step c e) (step_off c e b v t0 h)

theorem expire_readAt (t : Nat) (c : Dev) : (expire t c).readAt = c.readAt := by
  unfold expire toggle
  split
  · split
    · exact (exec_frame _ _).2.2.1
    · exact (exec_frame _ _).2.2.1
  · rfl

/-- **Not available is reported as such**: with `offline_on_invalid_state`, and only then, a source that says nothing since `t0` makes the relay
offline in the first pass later than `t0 + 100` ms, and one that says something makes it online. -/
theorem offline_partial (c : Dev) (v : Int) (t0 t : Nat) (l : List (Nat × Op)) (h0 : c.readAt ≤ t0) (ht : t0 + 100 < t)
    (hw : t < (run { c with src := some v } l).readAt + 2 ^ 32) :
    (pass t (run { c with src := some v } l)).offline = (c.useOffline && v == -1) := by
  have f := run_off l { c with src := some v } c.useOffline v t0 ⟨rfl, rfl, .inr h0⟩
  generalize run { c with src := some v } l = x at *
  have g := expire_off t x c.useOffline v t0 f
  have ra := expire_readAt t x
  show (read t (expire t x)).offline = _
  generalize expire t x = y at *
  rcases g.2.2 with k | k
  · unfold read
    split
    · show (y.useOffline && y.src == some (-1)) = _
      rw [g.1, g.2.1]
      rfl
    · exact k
  · unfold read
    rw [if_pos ⟨by rw [g.1]; rfl, by rw [since_clk_eq t y.readAt (by omega) (by omega)]; omega⟩]
    show (y.useOffline && y.src == some (-1)) = _
    rw [g.1, g.2.1]
    rfl

/-! ## Other weak points -/

/-- **No process.**  If a process cannot be started, switching calls `pclose` with nothing: undefined behaviour. -/
theorem no_process_violation (t d : Nat) (c : Dev) (h : c.onCmd = true) (hr : c.canRun = false) : (turnOn t d c).ub = true := by
  unfold turnOn
  dsimp only
  unfold exec
  rw [if_pos (show (if true = true then c.onCmd else c.offCmd) = true by rw [if_pos rfl]; exact h), if_neg (show ¬ c.canRun = true by rw [hr]; decide)]

/-- **Minimum time on a virtual staircase relay.**  With a minimum duration and no staircase time known yet, a relay on a pin stays on for the
time the server gives; a virtual one stays on for ever. -/
theorem minimum_violation (t d m : Nat) (c : Dev) (hd : c.r.defFn = fnStaircase) (hf : c.r.fn = fnStaircase) (hk : c.r.keep = true) (hs : c.r.stored = 0)
    (hm : c.r.minDur = m) (h0 : 0 < m) (h1 : m ≤ d) (h2 : d < 2 ^ 32) :
    (Relay.server t 1 d c.r).durationMs = d ∧ (server t 1 d c).r.durationMs = 0 := by
  have e1 : d % 2 ^ 32 = d := Nat.mod_eq_of_lt h2
  have e2 : c.r.isImpulse = false := by unfold Relay.isImpulse; rw [hf]; decide
  have e3 : ¬ (c.r.defFn = fnPump ∨ c.r.defFn = fnHeatCold) := by rw [hd]; decide
  have e4 : ¬ (d < c.r.minDur) := by omega
  unfold Relay.server server
  rw [if_neg e3, if_neg e3, if_pos rfl, if_pos rfl]
  dsimp only
  rw [e1, if_neg e4, e2, if_neg (show ¬ (false = true) by decide), if_neg (show ¬ (c.r.isStair = true ∧ d = 0) from fun x => by omega), turnOn_r]
  constructor
  · unfold Relay.turnOn
    dsimp only
    rw [hk, hs, if_pos (show c.r.minDur > 0 ∧ (0 : Nat) = 0 from ⟨by omega, rfl⟩), e1]
    exact if_pos rfl
  · unfold vOn
    dsimp only
    rw [hk, hs]
    exact if_pos rfl

/-! ## Examples -/

/-- A lamp with a faithful source, switched on for a minute. -/
def faithful : Dev := { turnOn 1000 60000 { r := {}, src := some 0 } with src := some 1 }

example : Works faithful ∧ Runs faithful 1000 60000 ∧ faithful.isOn = true := by
  refine ⟨⟨by decide +kernel, by decide +kernel, by decide +kernel⟩, ⟨by decide +kernel, by decide, by decide +kernel⟩, by decide +kernel⟩
example : (pass 61001 faithful).sent = [true, false] ∧ (pass 61000 faithful).sent = [true] := by decide +kernel
example : Plain { stateOnInit := -1 } := ⟨rfl, rfl, rfl⟩
example : (run { r := {} } [(1000, .config fnStaircase (some 5000)), (2000, .action .turnOn), (7000, .pass), (7001, .pass)]).sent = [true, false] := by decide +kernel
example : (watch (turnOn 1000 60000 lamp) [(61001, -1), (61200, 1), (200000, 1), (900000000, 1)]).sent = [true, true] := by decide +kernel
example : (run { faithful with src := some 1, chan := false } [(61300, .pass)]).chan = true := by decide +kernel
example : allAsked faithful [(2000, .action .toggle), (3000, .server 1 500), (3501, .pass)] = [false, true, false] := by decide +kernel

end Verif.Relay.Command
