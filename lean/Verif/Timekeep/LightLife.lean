import Verif.Timekeep.Props

/-!
# A light over restarts: operating time and lifespan

Models the rest of `/repo/src/supla/control/light_relay.cpp`: the request that sets the lifespan and resets
the counter (lines 51-74), saving and loading (76-99).  `Storage::ReadState`/`WriteState` are taken to give
back what was last saved as a whole (see `Verif.Storage` for the storage itself).
-/

namespace Verif.Timekeep

/-- The light, its lifespan in hours (`uint16_t`, light_relay.h line 37) and what is in the storage:
`LightRelayStateData`, light_relay.cpp lines 28-31. -/
structure Lamp where
  light : Light
  lifespan : Nat
  saved : Option (Nat × Nat)
deriving DecidableEq, Repr

/-- light_relay.cpp lines 34-41. -/
def lampInit (now ts : Nat) : Lamp := ⟨lightInit now ts, 10000, none⟩

/-- Answers to a request, proto.h (`SUPLA_CALCFG_RESULT_*`). -/
inductive Answer | unauthorized | done | notSupported
deriving DecidableEq, Repr

/-- A request of the server, proto.h lines 2150-2154: authorised as super user, with data of the right
size, `SetTime`, `LightSourceLifespan`, `ResetCounter`. -/
structure Req where
  superUser : Bool
  sized : Bool
  setTime : Bool
  hours : Nat
  reset : Bool
deriving DecidableEq, Repr

/-- `LightRelay::handleCalcfgFromServer` with the command `SET_LIGHTSOURCE_LIFESPAN`, lines 51-74. -/
def request (q : Req) (s : Lamp) : Lamp × Answer :=
  if !q.superUser then (s, .unauthorized)
  else if q.sized then
    ({ s with lifespan := if q.setTime then q.hours % 65536 else s.lifespan, light := if q.reset then lightStep s.light .reset else s.light }, .done)
  else (s, .notSupported)

/-- What happens to the lamp.  `restart` is a power cycle: the clock shows `now`, memory holds `ts` where the
timestamp is (it has no initial value), and `Relay::onInit` switches the lamp on or not (see `Verif.Relay`). -/
inductive LampOp
  | time (d : Nat)
  | turnOn
  | turnOff
  | pass
  | req (q : Req)
  | save
  | restart (now ts : Nat) (on : Bool)
deriving DecidableEq, Repr

/-- `onLoadState` lines 76-90 on an object made by lines 34-41, then `turnOn` (101-104) if the relay comes up
on. -/
def restartLamp (s : Lamp) (now ts : Nat) (on : Bool) : Lamp :=
  let life := match s.saved with | some p => p.1 | none => 10000
  let cum := match s.saved with | some p => p.2 | none => 0
  let l : Light := ⟨now, false, ts, cum⟩
  ⟨if on then lightStep l .turnOn else l, life, s.saved⟩

/-- One event; `save` is `onSaveState`, lines 92-99. -/
def lampStep (s : Lamp) : LampOp → Lamp
  | .time d => { s with light := lightStep s.light (.wait d) }
  | .turnOn => { s with light := lightStep s.light .turnOn }
  | .turnOff => { s with light := lightStep s.light .turnOff }
  | .pass => { s with light := lightStep s.light .pass }
  | .req q => (request q s).1
  | .save => { s with saved := some (s.lifespan, s.light.cum) }
  | .restart now ts on => restartLamp s now ts on

/-- A history. -/
def lampRun (s : Lamp) (ops : List LampOp) : Lamp := ops.foldl lampStep s

/-! ## Specification -/

/-- The time the lamp was on, in milliseconds, over all restarts. -/
structure OnTime where
  on : Bool
  total : Nat
deriving DecidableEq, Repr

/-- One event. -/
def onTime (h : OnTime) : LampOp → OnTime
  | .time d => { h with total := h.total + (if h.on then d else 0) }
  | .turnOn => { h with on := true }
  | .turnOff => { h with on := false }
  | .restart _ _ on => { h with on := on }
  | _ => h

/-- A request that resets the counter. -/
def Resets : LampOp → Prop
  | .req q => q.superUser = true ∧ q.sized = true ∧ q.reset = true
  | _ => False

/-! ## Proofs -/

/-- `r` is the true time of the timestamp. -/
structure LampKept (s : Lamp) (h : OnTime) (r : Nat) : Prop where
  on : s.light.on = h.on
  le : h.on = true → r ≤ s.light.now ∧ s.light.ts = clk r
  up : 1000 * s.light.cum + (if h.on then s.light.now - r else 0) ≤ h.total
  saved : ∀ p, s.saved = some p → 1000 * p.2 ≤ h.total

theorem count_kept (l : Light) (r : Nat) (h1 : r ≤ l.now) (h2 : l.ts = clk r) :
    ∃ r', r' ≤ l.now ∧ (countSeconds l).ts = clk r' ∧
      1000 * (countSeconds l).cum + (l.now - r') ≤ 1000 * l.cum + (l.now - r) ∧ (countSeconds l).now = l.now ∧
      (countSeconds l).on = l.on := by
  have hs : since (clk l.now) l.ts ≤ l.now - r := by rw [h2]; exact since_clk_le _ _ h1
  unfold countSeconds
  generalize hx : since (clk l.now) l.ts = x at hs ⊢
  split
  · refine ⟨l.now - x % 1000, Nat.sub_le _ _, ?_, ?_, rfl, rfl⟩
    · dsimp only
      have := back l.now (x % 1000) (by omega)
      rwa [Nat.mod_eq_of_lt (show x % 1000 < 2 ^ 32 by omega)] at this
    · dsimp only
      omega
  · exact ⟨r, h1, h2, Nat.le_refl _, rfl, rfl⟩

theorem lamp_step {s : Lamp} {h : OnTime} {r : Nat} (k : LampKept s h r) (o : LampOp) (hn : ¬ Resets o) :
    ∃ r', LampKept (lampStep s o) (onTime h o) r' := by
  obtain ⟨hon, hle, hup, hsv⟩ := k
  cases o with
  | time d =>
    refine ⟨r, hon, ?_, ?_, ?_⟩
    · intro h1
      obtain ⟨a, b⟩ := hle h1
      refine ⟨?_, b⟩
      show r ≤ s.light.now + d; omega
    · show 1000 * s.light.cum + (if h.on then s.light.now + d - r else 0) ≤ h.total + (if h.on then d else 0)
      by_cases h1 : h.on = true
      · have := hle h1
        simp only [h1, if_true] at hup ⊢
        omega
      · simp only [h1] at hup ⊢
        simpa using hup
    · intro p hp
      have := hsv p hp
      show 1000 * p.2 ≤ h.total + (if h.on then d else 0)
      omega
  | turnOn =>
    refine ⟨s.light.now, rfl, fun _ => ⟨Nat.le_refl _, rfl⟩, ?_, hsv⟩
    show 1000 * s.light.cum + (if true then s.light.now - s.light.now else 0) ≤ h.total
    simp only [if_true, Nat.sub_self]
    omega
  | turnOff =>
    refine ⟨r, rfl, fun h1 => (by cases h1), ?_, hsv⟩
    show 1000 * s.light.cum + (if false then s.light.now - r else 0) ≤ h.total
    simp only [Bool.false_eq_true, if_false]
    omega
  | pass =>
    by_cases h1 : h.on = true
    · obtain ⟨a, b⟩ := hle h1
      simp only [h1, if_true] at hup
      have e : lampStep s .pass = { s with light := countSeconds s.light } := by
        unfold lampStep
        dsimp only
        rw [pass_on s.light (hon.trans h1)]
      obtain ⟨r', c1, c2, c3, c4, c5⟩ := count_kept s.light r a b
      rw [e]
      generalize countSeconds s.light = l at c2 c3 c4 c5 ⊢
      refine ⟨r', c5.trans hon, fun _ => ⟨?_, c2⟩, ?_, hsv⟩
      · show r' ≤ l.now
        rw [c4]; exact c1
      · show 1000 * l.cum + (if h.on then l.now - r' else 0) ≤ h.total
        rw [if_pos h1, c4]
        exact Nat.le_trans c3 hup
    · have h2 : h.on = false := by simpa using h1
      have e : lampStep s .pass = s := by
        unfold lampStep
        dsimp only
        rw [pass_off s.light (hon.trans h2)]
      rw [e]
      exact ⟨r, hon, hle, hup, hsv⟩
  | req q =>
    have hl : (request q s).1.light = s.light := by
      unfold request
      by_cases a : q.superUser = true
      · by_cases b : q.sized = true
        · by_cases c : q.reset = true
          · exact absurd ⟨a, b, c⟩ hn
          · rw [if_neg (by simp [a]), if_pos b]
            dsimp only
            rw [if_neg c]
        · rw [if_neg (by simp [a]), if_neg b]
      · rw [if_pos (by simp [a])]
    have hs : (request q s).1.saved = s.saved := by
      unfold request
      split
      · rfl
      · split <;> rfl
    refine ⟨r, ?_, ?_, ?_, ?_⟩
    · show (request q s).1.light.on = h.on
      rw [hl]; exact hon
    · intro h1
      show r ≤ (request q s).1.light.now ∧ (request q s).1.light.ts = clk r
      rw [hl]; exact hle h1
    · show 1000 * (request q s).1.light.cum + (if h.on then (request q s).1.light.now - r else 0) ≤ h.total
      rw [hl]; exact hup
    · intro p hp
      have hp' : (request q s).1.saved = some p := hp
      rw [hs] at hp'
      exact hsv p hp'
  | save =>
    refine ⟨r, hon, hle, hup, ?_⟩
    intro p hp
    have : p = (s.lifespan, s.light.cum) := (Option.some.inj hp).symm
    rw [this]
    show 1000 * s.light.cum ≤ h.total
    omega
  | restart now ts on =>
    have hc : 1000 * (match s.saved with | some p => p.2 | none => 0) ≤ h.total := by
      cases hs : s.saved with
      | none => exact Nat.zero_le _
      | some p => exact hsv p hs
    generalize hg : (match s.saved with | some p => p.2 | none => 0) = cum at hc
    refine ⟨now, ?_, ?_, ?_, hsv⟩
    · show (restartLamp s now ts on).light.on = on
      unfold restartLamp
      cases on <;> rfl
    · intro h1
      have h1' : on = true := h1
      show now ≤ (restartLamp s now ts on).light.now ∧ (restartLamp s now ts on).light.ts = clk now
      unfold restartLamp
      dsimp only
      rw [if_pos h1']
      exact ⟨Nat.le_refl _, rfl⟩
    · show 1000 * (restartLamp s now ts on).light.cum + (if on then (restartLamp s now ts on).light.now - now else 0) ≤ h.total
      unfold restartLamp
      dsimp only
      rw [hg]
      cases on
      · show 1000 * cum + 0 ≤ h.total
        exact hc
      · show 1000 * cum + (now - now) ≤ h.total
        omega

/-- **C111 (never more).** Over all restarts, losses of power and savings, and without a reset, the
operating time reported is never more than the time the lamp was really on. -/
theorem life_never_more (now ts : Nat) (ops : List LampOp) (hn : ∀ o ∈ ops, ¬ Resets o) :
    1000 * (lampRun (lampInit now ts) ops).light.cum ≤ (ops.foldl onTime ⟨false, 0⟩).total := by
  have key : ∀ (ops : List LampOp) (s : Lamp) (h : OnTime) (r : Nat), LampKept s h r → (∀ o ∈ ops, ¬ Resets o) →
      1000 * (lampRun s ops).light.cum ≤ (ops.foldl onTime h).total := by
    intro ops
    induction ops with
    | nil =>
      intro s h r k _
      have := k.up
      show 1000 * s.light.cum ≤ h.total
      omega
    | cons o ops ih =>
      intro s h r k hn
      obtain ⟨r', k'⟩ := lamp_step k o (hn o (List.mem_cons_self ..))
      exact ih _ _ r' k' (fun x hx => hn x (List.mem_cons_of_mem _ hx))
  exact key ops _ _ 0 ⟨rfl, fun h => (by cases h), by simp [lampInit, lightInit], fun p hp => by cases hp⟩ hn

/-- Is it a save? -/
def isSave : LampOp → Bool
  | .save => true
  | _ => false

theorem saved_kept (s : Lamp) (o : LampOp) (h : isSave o = false) : (lampStep s o).saved = s.saved := by
  cases o with
  | save => cases h
  | req q =>
    show (request q s).1.saved = s.saved
    unfold request
    split
    · rfl
    · split <;> rfl
  | restart now ts on => rfl
  | _ => rfl

/-- **C111 (saved is kept).** After a restart the operating time and the lifespan are exactly those of the
latest save, whatever happened in between, other restarts too. -/
theorem life_restored (s : Lamp) (ops : List LampOp) (hn : ∀ o ∈ ops, isSave o = false) (now ts : Nat) (on : Bool) :
    let a := lampStep s .save
    let z := lampStep (lampRun a ops) (.restart now ts on)
    z.light.cum = s.light.cum ∧ z.lifespan = s.lifespan := by
  intro a z
  have key : ∀ (ops : List LampOp) (s : Lamp), (∀ o ∈ ops, isSave o = false) → (lampRun s ops).saved = s.saved := by
    intro ops
    induction ops with
    | nil => intro s _; rfl
    | cons o ops ih =>
      intro s h
      show (lampRun (lampStep s o) ops).saved = s.saved
      rw [ih _ (fun x hx => h x (List.mem_cons_of_mem _ hx)), saved_kept s o (h o (List.mem_cons_self ..))]
  have e : (lampRun a ops).saved = some (s.lifespan, s.light.cum) := key ops a hn
  have c : ∀ l : Light, (if on then lightStep l .turnOn else l).cum = l.cum := by
    intro l; cases on <;> rfl
  refine ⟨?_, ?_⟩
  · show (restartLamp (lampRun a ops) now ts on).light.cum = _
    unfold restartLamp
    rw [e]
    exact c _
  · show (restartLamp (lampRun a ops) now ts on).lifespan = _
    unfold restartLamp
    rw [e]

/-- **C111 (who may).** A request changes something only if it comes from an authorised super user and has
the right size; then it sets exactly what it asks for, and the answer says so. -/
theorem request_exact (q : Req) (s : Lamp) :
    ((request q s).2 = .done ↔ q.superUser = true ∧ q.sized = true) ∧
    ((request q s).2 ≠ .done → (request q s).1 = s) ∧
    ((request q s).2 = .done →
      (request q s).1.lifespan = (if q.setTime then q.hours % 65536 else s.lifespan) ∧
      (request q s).1.light.cum = (if q.reset then 0 else s.light.cum) ∧
      (request q s).1.light.on = s.light.on ∧ (request q s).1.light.ts = s.light.ts) := by
  obtain ⟨a, b, c, d, e⟩ := q
  unfold request
  cases a with
  | false => exact ⟨⟨fun h => (by cases h), fun h => (by cases h.1)⟩, fun _ => rfl, fun h => (by cases h)⟩
  | true =>
    cases b with
    | false => exact ⟨⟨fun h => (by cases h), fun h => (by cases h.2)⟩, fun _ => rfl, fun h => (by cases h)⟩
    | true =>
      refine ⟨⟨fun _ => ⟨rfl, rfl⟩, fun _ => rfl⟩, fun h => absurd rfl h, fun _ => ⟨rfl, ?_⟩⟩
      cases e <;> exact ⟨rfl, rfl, rfl⟩

/-- The full claim: a reset that was acknowledged stays: what is reported later, also after a loss of
power, counts from the reset on. -/
def ResetStays : Prop :=
  ∀ (s : Lamp) (q : Req) (ops : List LampOp), (request q s).2 = .done → q.reset = true →
    (∀ o ∈ ops, ¬ Resets o) →
    1000 * (lampRun (request q s).1 ops).light.cum ≤ 999 + (ops.foldl onTime ⟨s.light.on, 0⟩).total

/-- **C111 (violation).** The reset is not saved at once: a loss of power before the next periodic save
brings the old operating time back, although the request was answered with "done". -/
theorem reset_stays_violation : ¬ ResetStays := by
  intro h
  have := h ⟨⟨5000, false, 0, 3600⟩, 10000, some (10000, 3600)⟩ ⟨true, true, false, 0, true⟩ [.restart 100 0 false] rfl rfl
    (fun o ho => by rw [List.mem_singleton.mp ho]; exact fun h => h)
  revert this
  decide

/-- That state is reached: an hour on, counted and saved. -/
example : (lampRun (lampInit 0 0) [.turnOn, .time 3600000, .pass, .turnOff, .save]).light.cum = 3600 ∧
    (lampRun (lampInit 0 0) [.turnOn, .time 3600000, .pass, .turnOff, .save]).saved = some (10000, 3600) ∧
    (lampRun (lampInit 0 0) [.turnOn, .time 3600000, .pass, .turnOff, .save, .req ⟨true, true, false, 0, true⟩,
      .restart 50 7 true]).light.cum = 3600 := by
  decide +kernel

/-- **C111 (reset after a save).** With a save between the reset and the loss of power the reset stays. -/
theorem reset_saved_partial (s : Lamp) (q : Req) (ops : List LampOp) (hd : (request q s).2 = .done) (hr : q.reset = true)
    (hn : ∀ o ∈ ops, isSave o = false) (now ts : Nat) (on : Bool) :
    (lampStep (lampRun (lampStep (request q s).1 .save) ops) (.restart now ts on)).light.cum = 0 := by
  rw [(life_restored (request q s).1 ops hn now ts on).1, ((request_exact q s).2.2 hd).2.1, hr]
  rfl

end Verif.Timekeep
