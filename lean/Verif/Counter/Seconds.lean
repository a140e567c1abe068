import Verif.Common.Clock

/-
Counter of enabled seconds.
Models src/supla/sensor/seconds_counter.cpp lines 29-65 and the parts of
src/supla/sensor/virtual_impulse_counter.cpp it uses (lines 51-62).
-/

namespace Verif.Counter

open Verif

/-- Members of `SecondsCounter` (seconds_counter.h) and the inherited counter.  `shown` is the value
    given to the channel; `SecondsCounter::iterateAlways` overrides the inherited one, which is the
    only place that publishes a growing counter. -/
structure Sec where
  on : Bool := false
  last : Nat := 0
  rem : Nat := 0
  counter : Nat := 0
  shown : Nat := 0
deriving DecidableEq, Repr

/-- `now - lastMillis + remainingMillis` in unsigned 32-bit arithmetic. -/
def secElapsed (s : Sec) (now : Nat) : Nat := (since now s.last + s.rem) % 2 ^ 32

/-- `iterateAlways`, lines 43-55.  The loop runs `seconds` times (the value is below 2^31, so the
    conversion to `int` keeps it). -/
def secIterate (s : Sec) (now : Nat) : Sec :=
  if s.on && decide (secElapsed s now > 1000) then
    { s with counter := s.counter + secElapsed s now / 1000, rem := secElapsed s now % 1000, last := now }
  else s

/-- `enable`, lines 57-60. -/
def secEnable (s : Sec) (now : Nat) : Sec := { s with on := true, last := now }

/-- `disable`, lines 62-65. -/
def secDisable (s : Sec) (now : Nat) : Sec :=
  { s with on := false, rem := (s.rem + since now s.last) % 2 ^ 32 }

/-- The calls of the counter. -/
inductive SOp where
  | enable | disable | pass
deriving DecidableEq, Repr

/-- One call at a true time, each the function cited above. -/
def secStep (s : Sec) (e : Nat × SOp) : Sec :=
  match e.2 with
  | .enable => secEnable s (clk e.1)
  | .disable => secDisable s (clk e.1)
  | .pass => secIterate s (clk e.1)

/-- A history of calls. -/
def secRun (s : Sec) (h : List (Nat × SOp)) : Sec := h.foldl secStep s

/-! ### Specification -/

/-- Bookkeeping in real time: since when enabled, total enabled time up to the last event,
    enabled time since the last pass that found it enabled. -/
structure Tally where
  since? : Option Nat := none
  total : Nat := 0
  acc : Nat := 0
deriving DecidableEq, Repr

/-- Enabling when enabled and disabling when disabled change nothing. -/
def tally (y : Tally) (e : Nat × SOp) : Tally :=
  match e.2, y.since? with
  | .enable, none => { y with since? := some e.1 }
  | .enable, some _ => y
  | .disable, none => y
  | .disable, some s => { since? := none, total := y.total + (e.1 - s), acc := y.acc + (e.1 - s) }
  | .pass, none => y
  | .pass, some s => { since? := some e.1, total := y.total + (e.1 - s), acc := 0 }

/-- The bookkeeping over a history. -/
def tallyRun (y : Tally) (h : List (Nat × SOp)) : Tally := h.foldl tally y

/-- Times never go back. -/
def Ordered : Nat → List (Nat × SOp) → Prop
  | _, [] => True
  | l, e :: r => l ≤ e.1 ∧ Ordered e.1 r

/-- Passes are frequent enough: less than 2^32 - 1001 ms of enabled time between passes. -/
def Frequent : Tally → List (Nat × SOp) → Prop
  | _, [] => True
  | y, e :: r =>
    (∀ s, y.since? = some s → y.acc + (e.1 - s) < 4294966295) ∧ Frequent (tally y e) r

/-- `enable` only when disabled and `disable` only when enabled. -/
def Alternating : Tally → List (Nat × SOp) → Prop
  | _, [] => True
  | y, e :: r => (e.2 = .enable → y.since? = none) ∧ (e.2 = .disable → y.since? ≠ none) ∧
      Alternating (tally y e) r

/-- `h` ends with a pass that finds the counter enabled. -/
def EndsCounting (h : List (Nat × SOp)) (t : Nat) : Prop :=
  (tallyRun {} h).since? ≠ none ∧ ∃ h', h = h' ++ [(t, .pass)]

/-- Full claim: at every pass the counter is the enabled time in seconds, within one second. -/
def MeasuresEnabledTime : Prop := ∀ h t, Ordered 0 h → Frequent {} h → EndsCounting h t →
  (secRun {} h).counter * 1000 ≤ (tallyRun {} h).total ∧
  (tallyRun {} h).total ≤ (secRun {} h).counter * 1000 + 1000

/-- Full claim about publishing: after every pass the channel shows the counter. -/
def ShowsCounter : Prop := ∀ h t, Ordered 0 h → Frequent {} h → EndsCounting h t →
  (secRun {} h).shown = (secRun {} h).counter

/-! ### Theorems -/

/-- Code state and real-time bookkeeping agree: no time is lost or counted twice. -/
def Agree (s : Sec) (y : Tally) (now : Nat) : Prop :=
  match y.since? with
  | none => s.on = false ∧ s.counter * 1000 + s.rem = y.total ∧ s.rem ≤ 1000 + y.acc ∧
      y.acc < 4294966295
  | some u => s.on = true ∧ u ≤ now ∧ ∃ L, L ≤ u ∧ s.last = clk L ∧
      s.counter * 1000 + s.rem + (u - L) = y.total ∧ s.rem + (u - L) ≤ 1000 + y.acc ∧
      y.acc < 4294966295

set_option maxRecDepth 4096 in
theorem agree_step (s : Sec) (y : Tally) (t0 : Nat) (e : Nat × SOp) (ha : Agree s y t0)
    (ho : t0 ≤ e.1) (hf : ∀ u, y.since? = some u → y.acc + (e.1 - u) < 4294966295)
    (h1 : e.2 = .enable → y.since? = none) (h2 : e.2 = .disable → y.since? ≠ none) :
    Agree (secStep s e) (tally y e) e.1 := by
  obtain ⟨t, o⟩ := e
  obtain ⟨si, tot, acc⟩ := y
  simp only at ho hf h1 h2
  cases o with
  | enable =>
    have := h1 rfl
    subst this
    obtain ⟨a1, a2, a3, a4⟩ := ha
    exact ⟨rfl, Nat.le_refl _, t, Nat.le_refl _, rfl, by simpa [secStep, secEnable, tally] using a2,
      by simpa [secStep, secEnable, tally] using a3, a4⟩
  | disable =>
    cases si with
    | none => exact absurd rfl (h2 rfl)
    | some u =>
      obtain ⟨a1, a2, L, a3, a4, a5, a6, a7⟩ := ha
      have hf' := hf u rfl
      dsimp only at a2 a3 a4 a5 a6 a7
      have hs : since (clk t) s.last = t - L := by
        rw [a4]; exact since_clk_eq _ _ (by omega) (by omega)
      have hr : (s.rem + since (clk t) s.last) % 2 ^ 32 = s.rem + (t - L) := by
        rw [hs]; exact Nat.mod_eq_of_lt (by omega)
      show Agree (secDisable s (clk t)) ⟨none, tot + (t - u), acc + (t - u)⟩ t
      refine ⟨rfl, ?_, ?_, hf'⟩
      · show s.counter * 1000 + (s.rem + since (clk t) s.last) % 2 ^ 32 = tot + (t - u)
        rw [hr]; clear hf' a7 hf hr hs; omega
      · show (s.rem + since (clk t) s.last) % 2 ^ 32 ≤ 1000 + (acc + (t - u))
        rw [hr]; omega
  | pass =>
    cases si with
    | none =>
      obtain ⟨a1, a2, a3, a4⟩ := ha
      have : secStep s (t, .pass) = s := by
        simp only [secStep, secIterate, a1, Bool.false_and]; rfl
      rw [this]
      exact ⟨a1, a2, a3, a4⟩
    | some u =>
      obtain ⟨a1, a2, L, a3, a4, a5, a6, a7⟩ := ha
      have hf' := hf u rfl
      dsimp only at a2 a3 a4 a5 a6 a7
      have hs : since (clk t) s.last = t - L := by
        rw [a4]; exact since_clk_eq _ _ (by omega) (by omega)
      have he : secElapsed s (clk t) = t - L + s.rem := by
        unfold secElapsed
        rw [hs]; exact Nat.mod_eq_of_lt (by omega)
      show Agree (secIterate s (clk t)) ⟨some t, tot + (t - u), 0⟩ t
      unfold secIterate
      rw [he]
      by_cases hc : t - L + s.rem > 1000
      · rw [if_pos (by simp [a1, hc])]
        clear hf' a7 hf hs he
        exact ⟨a1, Nat.le_refl _, t, Nat.le_refl _, rfl, by dsimp only; omega, by dsimp only; omega,
          (by show (0:Nat) < 4294966295; decide)⟩
      · rw [if_neg (by simp [hc])]
        exact ⟨a1, Nat.le_refl _, L, by omega, a4, by dsimp only; omega, by dsimp only; omega,
          (by show (0:Nat) < 4294966295; decide)⟩

theorem agree_run (h : List (Nat × SOp)) : ∀ (s : Sec) (y : Tally) (t0 : Nat), Agree s y t0 →
    Ordered t0 h → Frequent y h → Alternating y h →
    ∃ t, Agree (secRun s h) (tallyRun y h) t := by
  induction h with
  | nil => intro s y t0 ha _ _ _; exact ⟨t0, ha⟩
  | cons e r ih =>
    intro s y t0 ha ho hf hal
    exact ih (secStep s e) (tally y e) e.1
      (agree_step s y t0 e ha ho.1 hf.1 hal.1 hal.2.1) ho.2 hf.2 hal.2.2

theorem agree_init : Agree {} {} 0 := ⟨rfl, rfl, by decide, by decide⟩

/-- While enabled, the counter after a pass is the total enabled time in seconds, never ahead and
    at most one second behind, however long the history and however many enable/disable pairs: no
    rounding error accumulates.  Missing for the full claim: `enable` while enabled and `disable`
    while disabled, which are miscounted (see the violations). -/
theorem seconds_measure_enabled_time_partial (h : List (Nat × SOp)) (t : Nat) (ho : Ordered 0 h)
    (hf : Frequent {} h) (hal : Alternating {} h) (hend : EndsCounting h t) :
    (secRun {} h).counter * 1000 ≤ (tallyRun {} h).total ∧
    (tallyRun {} h).total ≤ (secRun {} h).counter * 1000 + 1000 := by
  obtain ⟨hne, h', heq⟩ := hend
  obtain ⟨t1, ha⟩ := agree_run h {} {} 0 agree_init ho hf hal
  have hacc : (tallyRun {} h).acc = 0 := by
    revert hne
    rw [heq]
    simp only [tallyRun, List.foldl_append, List.foldl_cons, List.foldl_nil]
    generalize List.foldl tally {} h' = y
    intro hne
    obtain ⟨si, tot, acc⟩ := y
    cases si with
    | none => exact absurd rfl hne
    | some u => rfl
  unfold Agree at ha
  cases hsi : (tallyRun {} h).since? with
  | none => exact absurd hsi hne
  | some u =>
    rw [hsi] at ha
    obtain ⟨_, _, L, _, _, a5, a6, _⟩ := ha
    omega

example : ∃ h, Ordered 0 h ∧ Frequent {} h ∧ Alternating {} h ∧ EndsCounting h 9000 ∧
    (secRun {} h).counter = 5 := by
  refine ⟨[(100, .enable), (3700, .pass), (4000, .disable), (5000, .pass), (7500, .enable), (9000, .pass)],
    ?_, ?_, ?_, ?_, ?_⟩
  · simp [Ordered]
  · simp [Frequent, tally]
  · simp [Alternating, tally]
  · exact ⟨by simp [tallyRun, tally], [(100, .enable), (3700, .pass), (4000, .disable), (5000, .pass), (7500, .enable)], rfl⟩
  · decide +kernel

/-- While disabled nothing is lost: the counted seconds and the remembered remainder add up to the
    total enabled time exactly. -/
theorem seconds_nothing_lost_while_disabled (h : List (Nat × SOp)) (ho : Ordered 0 h)
    (hf : Frequent {} h) (hal : Alternating {} h) (hoff : (tallyRun {} h).since? = none) :
    (secRun {} h).counter * 1000 + (secRun {} h).rem = (tallyRun {} h).total := by
  obtain ⟨t1, ha⟩ := agree_run h {} {} 0 agree_init ho hf hal
  unfold Agree at ha
  rw [hoff] at ha
  exact ha.2.1

example : (tallyRun {} [(100, .enable), (3700, .pass), (4000, .disable)]).since? = none ∧
    (secRun {} [(100, .enable), (3700, .pass), (4000, .disable)]).counter = 3 ∧
    (secRun {} [(100, .enable), (3700, .pass), (4000, .disable)]).rem = 900 := by decide +kernel

/-- Violation: disabling a counter that is already disabled counts the time since it was enabled
    again (here 5 s enabled, counted as 15 s). -/
theorem double_disable_violation : ¬ MeasuresEnabledTime := by
  intro h
  have := h [(0, .enable), (5000, .disable), (10000, .disable), (20000, .enable), (20001, .pass)] 20001
    (by simp [Ordered]) (by simp [Frequent, tally])
    ⟨by simp [tallyRun, tally], [(0, .enable), (5000, .disable), (10000, .disable), (20000, .enable)], rfl⟩
  revert this; decide +kernel

/-- Violation: enabling it again forgets the time since the last counted second (an `ENABLE` action
    every 900 ms stops the counter altogether). -/
theorem repeated_enable_violation : ¬ MeasuresEnabledTime := by
  intro h
  have := h [(0, .enable), (900, .pass), (900, .enable), (1800, .pass), (1800, .enable), (2700, .pass)] 2700
    (by simp [Ordered]) (by simp [Frequent, tally])
    ⟨by simp [tallyRun, tally], [(0, .enable), (900, .pass), (900, .enable), (1800, .pass), (1800, .enable)], rfl⟩
  revert this; decide +kernel

/-- Violation: the value shown to the server never follows the counter. -/
theorem seconds_never_shown_violation : ¬ ShowsCounter := by
  intro h
  have := h [(0, .enable), (5000, .pass)] 5000 (by simp [Ordered]) (by simp [Frequent, tally])
    ⟨by simp [tallyRun, tally], [(0, .enable)], rfl⟩
  revert this; decide +kernel

/-- Indeed no history changes the shown value. -/
theorem seconds_shown_frozen (h : List (Nat × SOp)) (s : Sec) : (secRun s h).shown = s.shown := by
  induction h generalizing s with
  | nil => rfl
  | cons e r ih =>
    have : (secStep s e).shown = s.shown := by
      obtain ⟨t, o⟩ := e
      cases o
      · rfl
      · rfl
      · simp only [secStep, secIterate]; split <;> rfl
    exact (ih (secStep s e)).trans this

example : (secRun {} [(0, .enable), (5000, .pass)]).counter = 5 ∧
    (secRun {} [(0, .enable), (5000, .pass)]).shown = 0 := by decide +kernel

end Verif.Counter
