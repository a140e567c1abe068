/-
What the lamp shows, at any time of any history.
-/
import Verif.Lamp.Model

namespace Verif.Lamp

/-- What is to be seen: the source is on (not 0), or the opposite. -/
def Wanted (m : M) : Bool := xor (decide (m.src ≠ 0)) m.invert

/-- A source that gives what a byte can hold, as pins do. -/
def Sane (v : Int) : Prop := 0 ≤ v ∧ v < 256

/-- The work of an operation: the updates of a running lamp. -/
def updates (m : M) : Op → Bool
  | .iterate => !m.onTimer
  | .timer => m.onTimer
  | .setInverted _ => true
  | _ => false

theorem update_frame (m : M) : (update m).output = m.output ∧ (update m).ext = m.ext ∧ (update m).src = m.src ∧
    (update m).invert = m.invert ∧ (update m).onTimer = m.onTimer := by
  unfold update
  by_cases h : value m ≠ (if level m then 1 else 0)
  · rw [if_pos h]; exact ⟨rfl, rfl, rfl, rfl, rfl⟩
  · rw [if_neg h]; exact ⟨rfl, rfl, rfl, rfl, rfl⟩

theorem value_wanted {m : M} (h : m.invert = true ∨ Sane m.src) : decide (value m % 256 ≠ 0) = Wanted m := by
  unfold value Wanted
  cases hi : m.invert with
  | true => by_cases h0 : m.src = 0 <;> simp [h0]
  | false =>
    rcases h with h | ⟨h1, h2⟩
    · rw [hi] at h; cases h
    · have : m.src % 256 = m.src := by omega
      simp [this]

theorem value_level {m : M} {b : Bool} (h : value m = if b then 1 else 0) : b = Wanted m := by
  unfold value at h
  unfold Wanted
  cases hi : m.invert with
  | true =>
    rw [hi] at h
    by_cases h0 : m.src = 0
    · cases b
      · simp [h0] at h
      · simp [h0]
    · cases b
      · simp [h0]
      · simp [h0] at h
  | false =>
    rw [hi] at h
    simp only [Bool.false_eq_true, if_false] at h
    cases b
    · simp at h; simp [h]
    · simp at h; simp [h]

/-- An update of a pin that is an output shows what is wanted. -/
theorem update_shows {m : M} (ho : m.output = true) (h : m.invert = true ∨ Sane m.src) : level (update m) = Wanted (update m) := by
  obtain ⟨e1, _, e3, e4, _⟩ := update_frame m
  have hw : Wanted (update m) = Wanted m := by unfold Wanted; rw [e3, e4]
  rw [hw]
  by_cases hv : value m ≠ (if level m then 1 else 0)
  · unfold update
    rw [if_pos hv]
    unfold level
    dsimp only
    rw [ho, if_pos rfl]
    exact value_wanted h
  · unfold update
    rw [if_neg hv]
    exact value_level (by simpa using hv)

theorem step_output (m : M) (o : Op) (h : m.output = true) : (step m o).output = true := by
  cases o with
  | source v => exact h
  | around b => exact h
  | init => rfl
  | iterate => unfold step; dsimp only; split; · exact h
               · rw [(update_frame m).1]; exact h
  | timer => unfold step; dsimp only; split; · rw [(update_frame m).1]; exact h
             · exact h
  | setInverted b => unfold step; dsimp only; rw [(update_frame _).1]; exact h
  | setOnTimer b => exact h

theorem run_output : ∀ (os : List Op) {m : M}, m.output = true → (run m os).output = true
  | [], _, h => h
  | o :: os, m, h => run_output os (step_output m o h)

theorem step_updates {m : M} {o : Op} (h : updates m o = true) : ∃ i, step m o = update { m with invert := i } := by
  cases o with
  | source v => cases h
  | around b => cases h
  | init => cases h
  | iterate =>
    have h : (!m.onTimer) = true := h
    refine ⟨m.invert, ?_⟩
    show (if m.onTimer then m else update m) = update m
    rw [if_neg (by simpa using h)]
  | timer =>
    have h : m.onTimer = true := h
    refine ⟨m.invert, ?_⟩
    show (if m.onTimer then update m else m) = update m
    rw [if_pos h]
  | setInverted b => exact ⟨b, rfl⟩
  | setOnTimer b => cases h

/-- In every history after the start: each update — in the loop, or on the timer if that was chosen, or by a change of the
logic — leaves the lamp as wanted. -/
theorem shows (m : M) (os : List Op) (o : Op) (hu : updates (run (step m .init) os) o = true)
    (hs : Sane (run (step m .init) os).src) :
    level (step (run (step m .init) os) o) = Wanted (step (run (step m .init) os) o) := by
  have ho : (run (step m .init) os).output = true := run_output os rfl
  obtain ⟨i, hi⟩ := step_updates hu
  rw [hi]
  exact update_shows (m := { run (step m .init) os with invert := i }) ho (Or.inr hs)

def start : M := ⟨false, false, true, 1, false, false, 0⟩

example : updates (run (step start .init) [.setOnTimer true, .source 0]) .timer = true ∧
    level (step (run (step start .init) [.setOnTimer true, .source 0]) .timer) = false := by decide

/-- The lamp stays as it is while the source and the logic do: other operations do not touch it. -/
theorem holds_still (m : M) (o : Op) (ho : m.output = true) (hl : level m = Wanted m) (hs : Sane m.src)
    (hq : (∀ v, o ≠ .source v) ∧ ∀ b, o ≠ .setInverted b) : level (step m o) = level m := by
  have hup : level (update m) = level m := by
    rw [update_shows ho (Or.inr hs), hl]
    obtain ⟨_, _, e3, e4, _⟩ := update_frame m
    unfold Wanted
    rw [e3, e4]
  cases o with
  | source v => exact absurd rfl (hq.1 v)
  | around b => unfold step level; dsimp only; rw [ho]; rfl
  | init =>
    unfold step
    dsimp only
    have he : { update m with output := true } = update m := by
      have := (update_frame m).1
      rw [ho] at this
      rw [← this]
    rw [he]
    exact hup
  | iterate => unfold step; dsimp only; split; · rfl
               · exact hup
  | timer => unfold step; dsimp only; split; · exact hup
             · rfl
  | setInverted b => exact absurd rfl (hq.2 b)
  | setOnTimer b => rfl

/-! ## At the start -/

/-- The full claim: after the start the lamp shows the source. -/
def ShownAtStart : Prop := ∀ m : M, Sane m.src → level (step m .init) = Wanted (step m .init)

theorem init_level (m : M) : level (step m .init) = (update m).latch := by
  unfold step level
  dsimp only
  rw [if_pos rfl]

/-- The pin is compared while it is still an input: if the circuit around it happens to have the level wanted, nothing is
written, and the pin becomes an output with what its latch had. -/
theorem start_wrong (m : M) (hi : m.output = false) (h01 : m.src = 0 ∨ m.src = 1) (hext : m.ext = Wanted m) (hl : m.latch ≠ Wanted m) :
    level (step m .init) ≠ Wanted (step m .init) := by
  rw [init_level]
  have hv : value m = if level m then 1 else 0 := by
    unfold level
    rw [hi, hext]
    unfold value Wanted
    rcases h01 with h | h <;> rw [h] <;> cases m.invert <;> simp
  have hu : update m = m := by
    unfold update
    rw [if_neg (by simp [hv])]
  have hw : Wanted (step m .init) = Wanted m := by
    unfold step
    dsimp only
    rw [hu]
    rfl
  rw [hw, hu]
  exact hl

theorem start_violation : ¬ ShownAtStart := fun h =>
  start_wrong start rfl (Or.inr rfl) (by decide) (by decide) (h start (by unfold Sane; decide))

/-- Proved where the level around the pin is not the one wanted, or its latch has it already. -/
theorem start_partial (m : M) (hs : Sane m.src) (h : m.output = false → m.ext ≠ Wanted m ∨ m.latch = Wanted m) :
    level (step m .init) = Wanted (step m .init) := by
  obtain ⟨_, _, e3, e4, _⟩ := update_frame m
  have hw : Wanted (step m .init) = Wanted m := by
    unfold step Wanted
    dsimp only
    rw [e3, e4]
  rw [init_level, hw]
  by_cases hv : value m ≠ (if level m then 1 else 0)
  · unfold update
    rw [if_pos hv]
    exact value_wanted (Or.inr hs)
  · have hl : level m = Wanted m := value_level (by simpa using hv)
    unfold update
    rw [if_neg hv]
    unfold level at hl
    cases ho : m.output with
    | true => rw [ho] at hl; exact hl
    | false =>
      rw [ho] at hl
      rcases h ho with h | h
      · exact absurd hl h
      · exact h

/-- With the first update after it the lamp is right in any case. -/
theorem start_mended (m : M) (hs : Sane m.src) (ht : m.onTimer = false) :
    level (step (step m .init) .iterate) = Wanted (step (step m .init) .iterate) := by
  obtain ⟨_, _, e3, _, e5⟩ := update_frame m
  have h1 : (step m .init).onTimer = false := by unfold step; dsimp only; rw [e5]; exact ht
  have h2 : (step m .init).src = m.src := by unfold step; dsimp only; rw [e3]
  exact shows m [] .iterate (by unfold updates run; rw [h1]; rfl) (by unfold run; rw [h2]; exact hs)

/-! ## Writes -/

/-- The full claim: while nothing changes an update writes nothing. -/
def QuietUpdates : Prop := ∀ m : M, m.output = true → Sane m.src → (update (update m)).writes = (update m).writes

/-- Proved for sources that give 0 or 1, as pins do, and with inverted logic. -/
theorem quiet_partial (m : M) (ho : m.output = true) (hs : Sane m.src) (h : m.invert = true ∨ m.src = 0 ∨ m.src = 1) :
    update (update m) = update m := by
  obtain ⟨_, _, e3, e4, _⟩ := update_frame m
  have hl := update_shows ho (Or.inr hs)
  have hv : value (update m) = if level (update m) then 1 else 0 := by
    rw [hl]
    unfold value Wanted
    rw [e3, e4]
    rcases h with h | h | h
    · rw [h]
      by_cases h0 : m.src = 0 <;> simp [h0]
    · rw [h]; cases m.invert <;> simp
    · rw [h]; cases m.invert <;> simp
  have hd : ∀ x : M, value x = (if level x then 1 else 0) → update x = x := by
    intro x hx
    unfold update
    rw [if_neg (by simp [hx])]
  exact hd _ hv

/-- With a source that gives another value each update writes. -/
theorem noisy (m : M) (hi : m.invert = false) (h : m.src ≠ 0) (h' : m.src ≠ 1) : (update m).writes = m.writes + 1 := by
  unfold update value
  rw [hi]
  simp only [Bool.false_eq_true, if_false]
  cases level m
  · simp [h]
  · simp [h']

theorem quiet_violation : ¬ QuietUpdates := fun h => by
  have := h ⟨true, false, false, 255, false, false, 0⟩ rfl (by unfold Sane; decide)
  revert this; decide

/-- A source outside a byte: 256 is shown as off although it is on. -/
theorem wide_source (m : M) (ho : m.output = true) (hi : m.invert = false) (k : Int) (hk : k ≠ 0) (h : m.src = 256 * k) :
    level (update m) = false ∧ Wanted m = true := by
  have hv : value m = 256 * k := by unfold value; rw [hi]; simpa using h
  constructor
  · unfold update
    rw [if_pos (by rw [hv]; cases level m <;> simp <;> omega)]
    unfold level
    dsimp only
    rw [ho, if_pos rfl, hv]
    simp
  · unfold Wanted
    rw [hi, h]
    simp
    omega

end Verif.Lamp
