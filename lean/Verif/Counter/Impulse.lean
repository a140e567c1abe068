import Verif.Common.Clock

/-
Pulse counter on a digital input.
Models src/supla/sensor/impulse_counter.cpp lines 59-82 and
src/supla/sensor/virtual_impulse_counter.cpp lines 36-103.
-/

namespace Verif.Counter

open Verif

/-- Members used by `ImpulseCounter`.  `prev` says whether the previous sample was active (which
    level is active depends on `detectLowToHigh`).  `counter` is a 64-bit number in the code; it is
    unbounded here, since 2^64 pulses cannot be reached.  `shown` is the value given to the
    channel (`channel.setNewValue`). -/
structure Imp where
  prev : Bool := false
  last : Nat := 0
  counter : Nat := 0
  lastRead : Nat := 0
  shown : Nat := 0
deriving DecidableEq, Repr

/-- `ImpulseCounter::onFastTimer`, impulse_counter.cpp lines 70-82. -/
def impSample (delay : Nat) (s : Imp) (now : Nat) (active : Bool) : Imp :=
  if !s.prev && decide (since now s.last > delay) && active then
    { s with prev := active, counter := s.counter + 1, last := now }
  else { s with prev := active }

/-- `VirtualImpulseCounter::iterateAlways`, virtual_impulse_counter.cpp lines 64-69. -/
def impIterate (s : Imp) (now : Nat) : Imp :=
  if since now s.lastRead > 500 then { s with lastRead := now, shown := s.counter } else s

/-- Sample, main-loop pass, reset (`resetCounter`/`setCounter(0)`, lines 51-58 and 85-87) and
    `INCREMENT` action (line 79), the first two at a true time. -/
inductive IOp where
  | sample (t : Nat) (active : Bool)
  | pass (t : Nat)
  | reset
  | increment
deriving DecidableEq, Repr

/-- One operation; `reset` and `increment` are `VirtualImpulseCounter::setCounter(0)` and `incCounter`, `virtual_impulse_counter.cpp:51-90`. -/
def impStep (delay : Nat) (s : Imp) : IOp → Imp
  | .sample t a => impSample delay s (clk t) a
  | .pass t => impIterate s (clk t)
  | .reset => { s with counter := 0, shown := 0 }
  | .increment => { s with counter := s.counter + 1 }

/-- A history of operations. -/
def impRun (delay : Nat) (s : Imp) (ops : List IOp) : Imp := ops.foldl (impStep delay) s

/-- Result codes of a calibration request, proto.h. -/
inductive Calcfg where
  | unauthorized | done | unsupported
deriving DecidableEq, Repr

/-- `handleCalcfgFromServer`, lines 89-103. -/
def impCalcfg (s : Imp) (resetCommand superUser : Bool) : Imp × Calcfg :=
  if resetCommand then
    if superUser then ({ s with counter := 0, shown := 0 }, .done) else (s, .unauthorized)
  else (s, .unsupported)

/-! ### Specification: debounced edges in real time -/

/-- Count with true times: previous level, time of the last counted edge (device start at first),
    count.  A sample counts if it is an active edge later than `delay` after the last counted
    one. -/
def specCount (delay : Nat) : Bool → Nat → List (Nat × Bool) → Nat
  | _, _, [] => 0
  | p, l, (t, a) :: r =>
    if p = false ∧ a = true ∧ t - l > delay then 1 + specCount delay a t r
    else specCount delay a l r

/-- Times at which the specification counts. -/
def specTimes (delay : Nat) : Bool → Nat → List (Nat × Bool) → List Nat
  | _, _, [] => []
  | p, l, (t, a) :: r =>
    if p = false ∧ a = true ∧ t - l > delay then t :: specTimes delay a t r
    else specTimes delay a l r

/-- Sample times never go back. -/
def Mono : Nat → List (Nat × Bool) → Prop
  | _, [] => True
  | l, (t, _) :: r => l ≤ t ∧ Mono t r

/-- No sample comes 2^32 ms (49.7 days) or more after the last counted pulse. -/
def NoLongSilence (delay : Nat) : Bool → Nat → List (Nat × Bool) → Prop
  | _, _, [] => True
  | p, l, (t, a) :: r => t - l < 2 ^ 32 ∧
    (if p = false ∧ a = true ∧ t - l > delay then NoLongSilence delay a t r
     else NoLongSilence delay a l r)

/-- A waveform as operations. -/
def samples (w : List (Nat × Bool)) : List IOp := w.map fun p => .sample p.1 p.2

/-- Full claim. -/
def CountsExactly : Prop := ∀ (delay : Nat) (w : List (Nat × Bool)) (p : Bool), Mono 0 w →
  (impRun delay { prev := p } (samples w)).counter = specCount delay p 0 w

/-! ### Theorems -/

/-- The counter is exactly the number of debounced active edges, for every waveform, as long as a
    pulse comes at least every 49.7 days.  Missing for the full claim: longer silences. -/
theorem counts_exactly_from (delay : Nat) (w : List (Nat × Bool)) :
    ∀ (s : Imp) (l : Nat) (t0 : Nat), s.last = clk l → l ≤ t0 → Mono t0 w →
    NoLongSilence delay s.prev l w →
    (impRun delay s (samples w)).counter = s.counter + specCount delay s.prev l w := by
  induction w with
  | nil => intro s l t0 _ _ _ _; rfl
  | cons x r ih =>
    intro s l t0 hl hle hm hs
    obtain ⟨t, a⟩ := x
    obtain ⟨hm1, hm2⟩ := hm
    obtain ⟨hs1, hs2⟩ := hs
    have hsin : since (clk t) s.last = t - l := by
      rw [hl]; exact since_clk_eq _ _ (by omega) hs1
    show (impRun delay (impSample delay s (clk t) a) (samples r)).counter = _
    simp only [specCount]
    by_cases hc : s.prev = false ∧ a = true ∧ t - l > delay
    · rw [if_pos hc] at hs2 ⊢
      have he : impSample delay s (clk t) a = { s with prev := a, counter := s.counter + 1, last := clk t } := by
        unfold impSample
        rw [hsin, if_pos (by simp [hc.1, hc.2.1, hc.2.2])]
      rw [he, ih { s with prev := a, counter := s.counter + 1, last := clk t } t t rfl (Nat.le_refl _) hm2 hs2]
      exact Nat.add_assoc _ _ _
    · rw [if_neg hc] at hs2 ⊢
      have he : impSample delay s (clk t) a = { s with prev := a } := by
        unfold impSample
        rw [hsin, if_neg (by simpa [and_assoc, and_comm, and_left_comm] using hc)]
      rw [he, ih { s with prev := a } l t hl (by omega) hm2 hs2]

theorem impulse_counts_exactly_partial (delay : Nat) (w : List (Nat × Bool)) (p : Bool)
    (hm : Mono 0 w) (hs : NoLongSilence delay p 0 w) :
    (impRun delay { prev := p } (samples w)).counter = specCount delay p 0 w := by
  have := counts_exactly_from delay w { prev := p } 0 0 rfl (Nat.le_refl _) hm hs
  rw [this]; exact Nat.zero_add _

example : Mono 0 [(20, true), (25, false), (26, true), (40, false), (60, true)] ∧
    NoLongSilence 10 false 0 [(20, true), (25, false), (26, true), (40, false), (60, true)] ∧
    specCount 10 false 0 [(20, true), (25, false), (26, true), (40, false), (60, true)] = 2 := by
  simp [Mono, NoLongSilence, specCount]

/-- Violation: after 49.7 days without a pulse the next one is lost if it falls within the debounce
    window after the wrap of the clock difference. -/
theorem impulse_lost_after_silence_violation : ¬ CountsExactly := by
  intro h
  have := h 10 [(4294967295, false), (4294967296, true)] false (by simp [Mono])
  revert this; decide +kernel

/-- Never more than one pulse per debounce delay, whatever the waveform (also with long
    silences): if the last counted edge was at `l`, nothing was counted in `w`, and a sample at `t`
    is counted, then `t` is more than `delay` after `l`. -/
theorem counted_edges_apart (delay : Nat) (w : List (Nat × Bool)) :
    ∀ (s : Imp) (l : Nat) (t : Nat), s.last = clk l → l ≤ t →
    (impRun delay s (samples w)).last = s.last →
    (impRun delay s (samples (w ++ [(t, true)]))).counter =
      (impRun delay s (samples w)).counter + 1 → t - l > delay := by
  intro s l t hl hle hlast hinc
  have e : impRun delay s (samples (w ++ [(t, true)])) =
      impSample delay (impRun delay s (samples w)) (clk t) true := by
    simp [impRun, samples, List.foldl_append, impStep]
  rw [e] at hinc
  revert hlast hinc
  generalize impRun delay s (samples w) = q
  intro hlast hinc
  unfold impSample at hinc
  by_cases hc : (!q.prev && decide (since (clk t) q.last > delay) && true) = true
  · simp only [Bool.and_true, Bool.and_eq_true, decide_eq_true_eq] at hc
    rw [hlast, hl] at hc
    have := since_clk_le t l hle
    omega
  · rw [if_neg hc] at hinc
    simp at hinc

example : (impRun 10 { last := 30 } (samples [(35, true), (38, false)])).last = 30 ∧
    (impRun 10 { last := 30 } (samples ([(35, true), (38, false)] ++ [(41, true)]))).counter = 1 := by
  decide +kernel

/-- Specification side of the same: the counted times are pairwise more than `delay` apart, so in
    `T` ms at most `T / (delay + 1)` pulses are counted. -/
theorem spec_rate (delay : Nat) (w : List (Nat × Bool)) : ∀ (p : Bool) (l t0 : Nat), l ≤ t0 →
    Mono t0 w → ∀ T, (∀ q ∈ w, q.1 ≤ T) → l ≤ T →
    specCount delay p l w * (delay + 1) ≤ T - l := by
  induction w with
  | nil => intro p l t0 _ _ T _ _; simp [specCount]
  | cons x r ih =>
    intro p l t0 hl hm T hT hlT
    obtain ⟨t, a⟩ := x
    obtain ⟨hm1, hm2⟩ := hm
    have ht : t ≤ T := hT (t, a) (by simp)
    have hr : ∀ q ∈ r, q.1 ≤ T := fun q hq => hT q (by simp [hq])
    simp only [specCount]
    by_cases hc : p = false ∧ a = true ∧ t - l > delay
    · rw [if_pos hc]
      have := ih a t t (Nat.le_refl _) hm2 T hr ht
      rw [Nat.add_mul]
      omega
    · rw [if_neg hc]
      exact ih a l t (by omega) hm2 T hr hlT

/-- The published value follows the counter: a pass more than 500 ms (and less than 49.7 days)
    after the previous publication shows the counter exactly. -/
theorem impulse_shown (delay : Nat) (s : Imp) (t0 t : Nat) (h0 : s.lastRead = clk t0)
    (h : t0 + 500 < t) (h2 : t < t0 + 2 ^ 32) :
    (impStep delay s (.pass t)).shown = s.counter := by
  simp only [impStep, impIterate, h0]
  rw [if_pos (by rw [since_clk_eq _ _ (by omega) (by omega)]; omega)]

example : (impRun 10 {} [.sample 20 true, .pass 600]).shown = 1 := by decide +kernel

/-- Nothing but a reset ever makes the counter smaller. -/
theorem impulse_counter_grows (delay : Nat) (ops : List IOp) (h : IOp.reset ∉ ops) (s : Imp) :
    s.counter ≤ (impRun delay s ops).counter := by
  induction ops generalizing s with
  | nil => exact Nat.le_refl _
  | cons o t ih =>
    have h1 : s.counter ≤ (impStep delay s o).counter := by
      cases o with
      | sample u a => simp only [impStep, impSample]; split <;> simp
      | pass u => simp only [impStep, impIterate]; split <;> simp
      | reset => exact absurd (by simp) h
      | increment => simp [impStep]
    exact Nat.le_trans h1 (ih (fun hm => h (by simp [hm])) _)

/-- A remote request changes the counter only with super-user rights, and then it is a reset. -/
theorem remote_reset_needs_rights (s : Imp) (cmd su : Bool)
    (h : (impCalcfg s cmd su).1 ≠ s) : su = true ∧ cmd = true ∧
      (impCalcfg s cmd su) = ({ s with counter := 0, shown := 0 }, .done) := by
  revert h
  unfold impCalcfg
  cases cmd <;> cases su <;> simp

example : (impCalcfg { counter := 7 } true true).1.counter = 0 ∧
    (impCalcfg { counter := 7 } true false).2 = .unauthorized := by decide

end Verif.Counter
