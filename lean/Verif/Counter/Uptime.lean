import Verif.Common.Clock

/-
Uptime of the device and of the connection.
Models src/supla/uptime.cpp lines 25-64 and uptime.h lines 25-43.
-/

namespace Verif.Counter

open Verif

/-- Members of `Uptime`, uptime.h lines 38-42. -/
structure Up where
  last : Nat := 0
  device : Nat := 0
  conn : Nat := 0
  cause : Nat := 0
  accept : Bool := false
deriving DecidableEq, Repr

/-- `Uptime::iterate`, uptime.cpp lines 25-40.  The loop subtracts 1000 as often as possible, so
    it runs `diff / 1000` times; the counters are unsigned 32-bit numbers. -/
def upIterate (s : Up) (now : Nat) : Up :=
  if since now s.last > 3600000 then { s with last := now }
  else
    { s with last := (s.last + since now s.last / 1000 * 1000) % 2 ^ 32, device := (s.device + since now s.last / 1000) % 2 ^ 32, conn := (s.conn + since now s.last / 1000) % 2 ^ 32 }

/-- `resetConnectionUptime`, lines 42-45. -/
def upReset (s : Up) : Up := { s with conn := 0, accept := true }

/-- `setConnectionLostCause`, lines 47-52. -/
def upCause (s : Up) (c : Nat) : Up :=
  if s.accept then { s with cause := c, accept := false } else s

/-- What happens to it: a pass at (true) time `t`, a new connection, a lost connection. -/
inductive UOp where
  | pass (t : Nat)
  | connected
  | lost (cause : Nat)
deriving DecidableEq, Repr

/-- One event, each the function cited above. -/
def upStep (s : Up) : UOp → Up
  | .pass t => upIterate s (clk t)
  | .connected => upReset s
  | .lost c => upCause s c

/-- A history of events. -/
def upRun (s : Up) (ops : List UOp) : Up := ops.foldl upStep s

/-! ### Specification -/

/-- The times of the passes of a history. -/
def passTimes : List UOp → List Nat
  | [] => []
  | .pass t :: r => t :: passTimes r
  | _ :: r => passTimes r

/-- Starting at time `t0`, times never go back and two passes are at most `gap` ms apart. -/
def Regular (gap : Nat) : Nat → List Nat → Prop
  | _, [] => True
  | t0, t :: r => t0 ≤ t ∧ t ≤ t0 + gap ∧ Regular gap t r

/-- Time of the last pass (start of the device if none). -/
def lastPass : Nat → List Nat → Nat
  | t0, [] => t0
  | _, t :: r => lastPass t r

/-- Time of the last pass before the latest "connected" (`none`: no connection yet).  The
    connection uptime counts the whole seconds of the device's clock since then. -/
def connPass : Nat → Option Nat → List UOp → Option Nat
  | _, c, [] => c
  | _, c, .pass t :: r => connPass t c r
  | t0, _, .connected :: r => connPass t0 (some t0) r
  | t0, c, .lost _ :: r => connPass t0 c r

/-- The full claim: passes no more than an hour apart. -/
def UptimeExact : Prop := ∀ ops, Regular 3600000 0 (passTimes ops) →
  (upRun {} ops).device = lastPass 0 (passTimes ops) / 1000 % 2 ^ 32

/-! ### Theorems -/

theorem up_invariant (ops : List UOp) : ∀ (s : Up) (t0 : Nat) (c : Option Nat),
    Regular 3599000 t0 (passTimes ops) →
    s.last = clk (t0 / 1000 * 1000) → s.device = t0 / 1000 % 2 ^ 32 →
    (∀ r, c = some r → r ≤ t0 ∧ s.conn = (t0 / 1000 - r / 1000) % 2 ^ 32) →
    (upRun s ops).device = lastPass t0 (passTimes ops) / 1000 % 2 ^ 32 ∧
    (∀ r, connPass t0 c ops = some r →
      (upRun s ops).conn = (lastPass t0 (passTimes ops) / 1000 - r / 1000) % 2 ^ 32) := by
  induction ops with
  | nil =>
    intro s t0 c _ _ hd hc
    exact ⟨hd, fun r hr => (hc r hr).2⟩
  | cons o t ih =>
    intro s t0 c hreg hl hd hc
    cases o with
    | pass u =>
      simp only [passTimes, Regular] at hreg
      obtain ⟨h1, h2, h3⟩ := hreg
      have hs : since (clk u) s.last = u - t0 / 1000 * 1000 := by
        rw [hl]
        exact since_clk_eq _ _ (by omega) (by omega)
      have hn : ¬ since (clk u) s.last > 3600000 := by rw [hs]; omega
      have hstep : upStep s (.pass u) = { s with last := clk (u / 1000 * 1000), device := u / 1000 % 2 ^ 32, conn := (s.conn + (u / 1000 - t0 / 1000)) % 2 ^ 32 } := by
        simp only [upStep, upIterate]
        rw [if_neg hn, hs, hl, hd]
        have e1 : (u - t0 / 1000 * 1000) / 1000 = u / 1000 - t0 / 1000 := by omega
        rw [e1]
        have e2 : (clk (t0 / 1000 * 1000) + (u / 1000 - t0 / 1000) * 1000) % 2 ^ 32 =
            clk (u / 1000 * 1000) := by unfold clk; omega
        have e3 : (t0 / 1000 % 2 ^ 32 + (u / 1000 - t0 / 1000)) % 2 ^ 32 = u / 1000 % 2 ^ 32 := by omega
        rw [e2, e3]
      show (upRun (upStep s (.pass u)) t).device = _ ∧ ∀ r, _ → (upRun (upStep s (.pass u)) t).conn = _
      rw [hstep]
      refine ih _ u c h3 rfl rfl ?_
      intro r hr
      obtain ⟨g1, g2⟩ := hc r hr
      refine ⟨by omega, ?_⟩
      show (s.conn + (u / 1000 - t0 / 1000)) % 2 ^ 32 = _
      rw [g2]; omega
    | connected =>
      refine ih (upReset s) t0 (some t0) hreg hl hd ?_
      intro r hr
      injection hr with hr
      subst hr
      exact ⟨Nat.le_refl _, by simp [upReset]⟩
    | lost k =>
      have hsame : (upCause s k).last = s.last ∧ (upCause s k).device = s.device ∧
          (upCause s k).conn = s.conn := by
        unfold upCause; split <;> exact ⟨rfl, rfl, rfl⟩
      refine ih (upCause s k) t0 c hreg (by rw [hsame.1]; exact hl) (by rw [hsame.2.1]; exact hd) ?_
      intro r hr
      rw [hsame.2.2]; exact hc r hr

/-- The uptime equals the whole seconds since start at the last pass, without drift, across any
    number of wrap-arounds of the millisecond clock, for every schedule of passes at most 59 min
    59 s apart.  (The counter itself is a 32-bit number of seconds, 136 years.)
    Missing for the full claim: gaps between that and one hour, see the violation. -/
theorem uptime_exact_partial (ops : List UOp) (h : Regular 3599000 0 (passTimes ops)) :
    (upRun {} ops).device = lastPass 0 (passTimes ops) / 1000 % 2 ^ 32 :=
  (up_invariant ops {} 0 none h rfl rfl (by intro r hr; cases hr)).1

example : Regular 3599000 0 (passTimes [.pass 999, .pass 1500, .connected, .pass 3600000]) ∧
    (upRun {} [.pass 999, .pass 1500, .connected, .pass 3600000]).device = 3600 := by
  refine ⟨by simp [passTimes, Regular], by decide +kernel⟩

/-- The connection uptime equals the seconds of the device clock since the last connect. -/
theorem connection_uptime_exact_partial (ops : List UOp) (h : Regular 3599000 0 (passTimes ops)) (r : Nat)
    (hr : connPass 0 none ops = some r) :
    (upRun {} ops).conn = (lastPass 0 (passTimes ops) / 1000 - r / 1000) % 2 ^ 32 :=
  (up_invariant ops {} 0 none h rfl rfl (by intro r hr; cases hr)).2 r hr

example : connPass 0 none [.pass 999, .pass 1500, .connected, .pass 3600000] = some 1500 ∧
    (upRun {} [.pass 999, .pass 1500, .connected, .pass 3600000]).conn = 3599 := by
  decide +kernel

/-- Violation at the edge: two passes exactly one hour apart, the earlier one not on a full second:
    the whole hour is lost. -/
theorem uptime_hour_violation : ¬ UptimeExact := by
  intro h
  have := h [.pass 999, .pass 3600999] (by simp [passTimes, Regular])
  revert this; decide +kernel

theorem uptime_never_ahead_from (ops : List UOp) : ∀ (s : Up) (t0 : Nat),
    Regular (2 ^ 32 - 1001) t0 (passTimes ops) →
    (∃ L, L ≤ t0 ∧ t0 < L + 1000 ∧ s.last = clk L ∧ ∃ d, s.device = d % 2 ^ 32 ∧ d * 1000 ≤ L) →
    ∃ d, (upRun s ops).device = d % 2 ^ 32 ∧ d * 1000 ≤ lastPass t0 (passTimes ops) := by
  induction ops with
  | nil =>
    intro s t0 _ ⟨L, h1, _, _, d, h4, h5⟩
    exact ⟨d, h4, by simp only [passTimes, lastPass]; omega⟩
  | cons o t ih =>
    intro s t0 hreg hinv
    cases o with
    | pass u =>
      simp only [passTimes, Regular] at hreg
      obtain ⟨h1, h2, h3⟩ := hreg
      obtain ⟨L, g1, g2, g3, d, g4, g5⟩ := hinv
      have hs : since (clk u) s.last = u - L := by
        rw [g3]; exact since_clk_eq _ _ (by omega) (by omega)
      refine ih (upStep s (.pass u)) u h3 ?_
      simp only [upStep, upIterate]
      by_cases hc : since (clk u) s.last > 3600000
      · rw [if_pos hc]
        exact ⟨u, by omega, by omega, rfl, d, g4, by omega⟩
      · rw [if_neg hc, hs, g3, g4]
        clear g4 hs hc ih
        generalize hq : (u - L) / 1000 = q
        have hq1 : q * 1000 ≤ u - L ∧ u - L < q * 1000 + 1000 := by omega
        clear hq
        have hd : (d + q) * 1000 ≤ L + q * 1000 := by rw [Nat.add_mul]; exact Nat.add_le_add_right g5 _
        refine ⟨L + q * 1000, by omega, by omega, ?_, d + q, ?_, hd⟩
        · show (clk L + q * 1000) % 2 ^ 32 = clk _
          unfold clk; omega
        · show (d % 2 ^ 32 + q) % 2 ^ 32 = _
          omega
    | connected => exact ih (upReset s) t0 hreg hinv
    | lost k =>
      refine ih (upCause s k) t0 hreg ?_
      obtain ⟨L, g1, g2, g3, d, g4, g5⟩ := hinv
      refine ⟨L, g1, g2, ?_, d, ?_, g5⟩
      · unfold upCause; split <;> exact g3
      · unfold upCause; split <;> exact g4

/-- However the passes are spaced (less than 49 days), the uptime never runs ahead of real time: it
    loses time in a gap of more than an hour but never gains. -/
theorem uptime_never_ahead (ops : List UOp) (h : Regular (2 ^ 32 - 1001) 0 (passTimes ops)) :
    ∃ d, (upRun {} ops).device = d % 2 ^ 32 ∧ d * 1000 ≤ lastPass 0 (passTimes ops) :=
  uptime_never_ahead_from ops {} 0 h ⟨0, Nat.le_refl _, by decide, rfl, 0, rfl, Nat.le_refl _⟩

example : (upRun {} [.pass 999, .pass 3600999, .pass 3602000]).device = 1 := by decide +kernel

/-- Only the first reason for the loss of a connection is kept: after a connect, the recorded
    cause is the first one given, whatever follows until the next connect. -/
theorem first_cause_kept (s : Up) (c : Nat) (later : List UOp)
    (h : UOp.connected ∉ later) :
    (upRun (upCause (upReset s) c) later).cause = c := by
  have h0 : (upCause (upReset s) c).cause = c ∧ (upCause (upReset s) c).accept = false := by
    simp [upCause, upReset]
  revert h0 h
  generalize upCause (upReset s) c = q
  intro h h0
  induction later generalizing q with
  | nil => exact h0.1
  | cons o t ih =>
    have ht : UOp.connected ∉ t := fun hm => h (by simp [hm])
    refine ih (upStep q o) ht ?_
    cases o with
    | pass u => simp only [upStep, upIterate]; split <;> exact h0
    | connected => exact absurd (by simp) h
    | lost k => simp only [upStep, upCause, h0.2]; exact h0

example : (upRun {} [.connected, .lost 3, .pass 50, .lost 5]).cause = 3 := by decide +kernel

end Verif.Counter
