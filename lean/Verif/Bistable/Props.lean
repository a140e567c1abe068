import Verif.Bistable.Model

/-!
# C84: a latching relay gets one pulse per change and ends where it was told
-/

namespace Verif.Bistable

/-! ## Pulses -/

/-- The coil is powered exactly during a pulse. -/
def Sound (s : Rel) : Prop := s.busy = s.coil

/-- How often somebody changed the relay over by hand. -/
def hands : List (Nat × Op) → Nat
  | [] => 0
  | (_, .hand) :: os => hands os + 1
  | _ :: os => hands os

/-- A position changed over `n` times. -/
def over (n : Nat) (b : Bool) : Bool := if n % 2 = 0 then b else !b

theorem over_succ (n : Nat) (b : Bool) : over (n + 1) b = over n (!b) := by
  unfold over
  rcases Nat.mod_two_eq_zero_or_one n with h | h
  · rw [if_pos h, if_neg (by omega)]
  · rw [if_pos (show (n + 1) % 2 = 0 by omega), if_neg (show ¬ n % 2 = 0 by omega), Bool.not_not]

theorem turnOn_busy (t d : Nat) (s : Rel) (h : s.busy = true) : turnOn t d s = s := by unfold turnOn; rw [if_pos h]
theorem turnOff_busy (t : Nat) (s : Rel) (h : s.busy = true) : turnOff t s = s := by unfold turnOff; rw [if_pos h]
theorem toggle_busy (t d : Nat) (s : Rel) (h : s.busy = true) : toggle t d s = s := by
  unfold toggle; rw [turnOn_busy t d s h, turnOff_busy t s h]; split <;> rfl

theorem timer_busy (t : Nat) (s : Rel) (h : s.busy = true) : timer t s = s := by
  unfold timer; rw [toggle_busy t 0 s h]; split <;> rfl

/-- Reading the status changes nothing but what is shown. -/
theorem readStatus_eq (t : Nat) (s : Rel) : ∃ a b, readStatus t s = { s with lastRead := a, shown := b } := by
  unfold readStatus
  split
  · exact ⟨_, _, rfl⟩
  · exact ⟨s.lastRead, s.shown, rfl⟩

theorem release_hold (t : Nat) (s : Rel) (h : since (clk t) s.disarm ≤ 200) : release t s = s := by
  unfold release; rw [if_neg]; simp only [Bool.and_eq_true, decide_eq_true_eq, not_and]; intro _; omega

theorem release_end (t : Nat) (s : Rel) (hb : s.busy = true) (h : since (clk t) s.disarm > 200) :
    release t s = { s with busy := false, coil := false } := by
  unfold release; rw [if_pos]; simp only [hb, Bool.true_and, decide_eq_true_eq]; exact h

theorem step_busy (t : Nat) (s : Rel) (o : Op) (hb : s.busy = true) (hc : s.coil = true) (hd : since (clk t) s.disarm ≤ 200) :
    (step t s o).busy = true ∧ (step t s o).coil = true ∧ (step t s o).disarm = s.disarm ∧
    (step t s o).latch = if o = .hand then !s.latch else s.latch := by
  cases o with
  | on d => rw [step, turnOn_busy t d s hb]; exact ⟨hb, hc, rfl, rfl⟩
  | off => rw [step, turnOff_busy t s hb]; exact ⟨hb, hc, rfl, rfl⟩
  | toggle d => rw [step, toggle_busy t d s hb]; exact ⟨hb, hc, rfl, rfl⟩
  | hand => exact ⟨hb, hc, rfl, rfl⟩
  | pass =>
    rw [step, pass, timer_busy t s hb]
    obtain ⟨a, b, e⟩ := readStatus_eq t s
    rw [e, release_hold t { s with lastRead := a, shown := b } hd]
    exact ⟨hb, hc, rfl, rfl⟩

/-- **C84.** A pulse lasts: for 200 ms after it began the coil stays powered, whatever is asked for, and only
somebody's hand changes the relay over. -/
theorem pulse_lasts (t0 : Nat) (os : List (Nat × Op)) : ∀ (s : Rel), s.busy = true → s.coil = true → s.disarm = clk t0 →
    (∀ x ∈ os, t0 ≤ x.1 ∧ x.1 ≤ t0 + 200) →
    (run s os).busy = true ∧ (run s os).coil = true ∧ (run s os).disarm = clk t0 ∧ (run s os).latch = over (hands os) s.latch := by
  induction os with
  | nil => intro s hb hc hd _; exact ⟨hb, hc, hd, rfl⟩
  | cons x os ih =>
    intro s hb hc hd ht
    obtain ⟨t, o⟩ := x
    have h := ht (t, o) (by simp)
    have hs : since (clk t) s.disarm ≤ 200 := by
      rw [hd, since_clk_eq t t0 h.1 (by have := h.2; dsimp only at this; omega)]; have := h.2; dsimp only at this; omega
    obtain ⟨g1, g2, g3, g4⟩ := step_busy t s o hb hc hs
    obtain ⟨k1, k2, k3, k4⟩ := ih (step t s o) g1 g2 (g3.trans hd) (fun x hx => ht x (by simp [hx]))
    refine ⟨k1, k2, k3, ?_⟩
    show (run (step t s o) os).latch = _
    rw [k4, g4]
    cases o with
    | hand => rw [if_pos rfl, hands, over_succ]
    | _ => rw [if_neg (by simp)]; rfl

/-- **C84.** A pulse ends: the first pass later than 200 ms takes the power off the coil. -/
theorem pulse_ends (t0 t : Nat) (s : Rel) (hb : s.busy = true) (hd : s.disarm = clk t0) (h : t0 + 200 < t) (h2 : t < t0 + 2 ^ 32) :
    (step t s .pass).busy = false ∧ (step t s .pass).coil = false ∧ (step t s .pass).latch = s.latch := by
  rw [step, pass, timer_busy t s hb]
  obtain ⟨a, b, e⟩ := readStatus_eq t s
  rw [e, release_end t { s with lastRead := a, shown := b } hb (by show since (clk t) s.disarm > 200; rw [hd, since_clk_eq t t0 (by omega) (by omega)]; omega)]
  exact ⟨rfl, rfl, rfl⟩

/-- At rest, with a status pin. -/
def rest : Rel :=
  { dur := 0, ts := 0, stored := 0, keep := false, busy := false, disarm := 0, lastRead := 0, status := true, shown := false, init := 2,
    coil := false, latch := false }

example : (run rest [(10, .on 0), (150, .off), (210, .pass)]).coil = true ∧ (run rest [(10, .on 0), (211, .pass)]).coil = false := by decide

/-! ## Obedience -/

theorem pulse_latch (t : Nat) (s : Rel) (hs : s.coil = false) : (pulse t s).latch = !s.latch := by
  show (if s.coil = true then s.latch else !s.latch) = _
  rw [if_neg (by simp [hs])]

/-- **C84.** Between pulses the relay does what it is told, if it can see its position. -/
theorem obeys (t d : Nat) (s : Rel) (hb : s.busy = false) (hs : Sound s) (hp : s.status = true) :
    (step t s (.on d)).latch = true ∧ (step t s .off).latch = false ∧ (step t s (.toggle d)).latch = !s.latch := by
  have hc : s.coil = false := by rw [← hs]; exact hb
  have h1 : (turnOn t d s).latch = true := by
    unfold turnOn
    rw [if_neg (by simp [hb])]
    rcases Bool.eq_false_or_eq_true s.latch with hl | hl
    · rw [if_neg (by simp [hp, Rel.isOn, hl])]; exact hl
    · rw [if_pos (by simp [Rel.isOn, hl])]
      refine (pulse_latch t _ ?_).trans ?_
      · exact hc
      · show (!s.latch) = true
        rw [hl]; rfl
  have h2 : (turnOff t s).latch = false := by
    unfold turnOff
    rw [if_neg (by simp [hb])]
    rcases Bool.eq_false_or_eq_true s.latch with hl | hl
    · rw [if_pos (by simp [hp, Rel.isOn, hl])]
      refine (pulse_latch t _ ?_).trans ?_
      · exact hc
      · show (!s.latch) = false
        rw [hl]; rfl
    · rw [if_neg (by simp [hp, Rel.isOn, hl])]; exact hl
  refine ⟨h1, h2, ?_⟩
  show (toggle t d s).latch = _
  unfold toggle
  cases hl : s.latch with
  | true => rw [if_pos (by simp [Rel.isOn, hp, hl]), h2]; rfl
  | false => rw [if_neg (by simp [Rel.isOn, hp, hl]), h1]; rfl

theorem sound_step (t : Nat) (s : Rel) (o : Op) (hs : Sound s) : Sound (step t s o) := by
  have hon : ∀ d, Sound (turnOn t d s) := by
    intro d; unfold turnOn; split
    · exact hs
    · split
      · rfl
      · exact hs
  have hoff : Sound (turnOff t s) := by
    unfold turnOff; repeat' split
    · exact hs
    · rfl
    · exact hs
  have htog : ∀ d, Sound (toggle t d s) := by
    intro d; unfold toggle; split
    · exact hoff
    · exact hon d
  cases o with
  | on d => exact hon d
  | off => exact hoff
  | toggle d => exact htog d
  | hand => exact hs
  | pass =>
    have h1 : Sound (timer t s) := by unfold timer; split; exact htog 0; exact hs
    rw [step, pass]
    obtain ⟨a, b, e⟩ := readStatus_eq t (timer t s)
    rw [e]
    unfold release
    split
    · rfl
    · exact h1

/-- **C84.** The coil is never left powered outside a pulse. -/
theorem sound_run (os : List (Nat × Op)) : ∀ (s : Rel), Sound s → Sound (run s os) := by
  induction os with
  | nil => intro s h; exact h
  | cons x os ih => intro s h; exact ih _ (sound_step x.1 s x.2 h)

/-! ## The last command -/

/-- The position after commands: that of the last one. -/
def told : List (Nat × Op) → Bool → Bool
  | [], b => b
  | (_, .on _) :: os, _ => told os true
  | (_, .off) :: os, _ => told os false
  | _ :: os, b => told os b

/-- Commands without a time limit, and passes. -/
def Plain (os : List (Nat × Op)) : Prop := ∀ x ∈ os, x.2 = .on 0 ∨ x.2 = .off ∨ x.2 = .pass

/-- The full claim: the relay ends where the last command puts it. -/
def LastCommandWins : Prop :=
  ∀ os : List (Nat × Op), Plain os → (os.map (·.1)).Pairwise (· ≤ ·) → (run rest os).latch = told os false

/-- **C84 is false as stated.** A command that comes during a pulse is lost: on, and off 100 ms later, leaves
the relay on. -/
theorem last_command_wins_violation : ¬ LastCommandWins := by
  intro h
  have := h [(10, .on 0), (110, .off), (400, .pass), (800, .pass)] (by intro x hx; revert x; decide) (by decide)
  revert this; decide

/-- Between any two commands there is a pass more than 200 ms after the first. `free` says that there was such
a pass since the last command, which came at `last`. -/
def Spaced : Bool → Nat → List (Nat × Op) → Prop
  | _, _, [] => True
  | free, last, (t, .pass) :: os => last ≤ t ∧ t < last + 2 ^ 32 ∧ Spaced (free || decide (t > last + 200)) last os
  | free, _, (t, .on d) :: os => d = 0 ∧ free = true ∧ Spaced false t os
  | free, _, (t, .off) :: os => free = true ∧ Spaced false t os
  | _, _, _ => False

theorem timer_none (t : Nat) (s : Rel) (h : s.dur = 0) : timer t s = s := by unfold timer; rw [if_neg (by simp [h])]

/-- No time limit is running and none is set. -/
def Untimed (s : Rel) : Prop := s.dur = 0 ∧ s.keep = false

theorem wanted_zero (s : Rel) (h : s.keep = false) : wanted 0 s = 0 := by unfold wanted; simp [h, s32]

theorem turnOn_fields (t : Nat) (s : Rel) (h : Untimed s) :
    Untimed (turnOn t 0 s) ∧ (turnOn t 0 s).status = s.status ∧ (s.busy = false → (turnOn t 0 s).busy = true → (turnOn t 0 s).disarm = clk t) := by
  unfold turnOn
  rw [wanted_zero s h.2, if_neg (show ¬ 0 > 0 by omega)]
  repeat' split
  · rename_i hb; exact ⟨h, rfl, fun h1 _ => by rw [h1] at hb; cases hb⟩
  · exact ⟨⟨rfl, h.2⟩, rfl, fun _ _ => rfl⟩
  · exact ⟨⟨rfl, h.2⟩, rfl, fun h1 h2 => by rw [h1] at h2; cases h2⟩

theorem turnOff_fields (t : Nat) (s : Rel) (h : Untimed s) :
    Untimed (turnOff t s) ∧ (turnOff t s).status = s.status ∧ (s.busy = false → (turnOff t s).busy = true → (turnOff t s).disarm = clk t) := by
  unfold turnOff
  repeat' split
  · rename_i hb; exact ⟨h, rfl, fun h1 _ => by rw [h1] at hb; cases hb⟩
  · exact ⟨⟨rfl, h.2⟩, rfl, fun _ _ => rfl⟩
  · exact ⟨⟨rfl, h.2⟩, rfl, fun h1 h2 => by rw [h1] at h2; cases h2⟩

/-- **C84, restricted.** With commands so far apart that the pulse has ended in between, the relay ends where
the last command puts it. Missing: commands during a pulse. -/
theorem last_command_wins_partial (os : List (Nat × Op)) : ∀ (s : Rel) (free : Bool) (last : Nat), Sound s → Untimed s → s.status = true →
    (free = true → s.busy = false) → (s.busy = true → s.disarm = clk last) → Spaced free last os → (run s os).latch = told os s.latch := by
  induction os with
  | nil => intros; rfl
  | cons x os ih =>
    intro s free last hs hu hp hf hb hsp
    obtain ⟨t, o⟩ := x
    cases o with
    | hand => exact absurd hsp (by simp [Spaced])
    | toggle d => exact absurd hsp (by simp [Spaced])
    | on d =>
      obtain ⟨rfl, h1, h2⟩ := hsp
      obtain ⟨g1, g2, g3⟩ := turnOn_fields t s hu
      have := ih (step t s (.on 0)) false t (sound_step t s _ hs) g1 (g2.trans hp) (fun h => by cases h) (g3 (hf h1)) h2
      show (run (step t s (.on 0)) os).latch = told os true
      rw [this, (obeys t 0 s (hf h1) hs hp).1]
    | off =>
      obtain ⟨h1, h2⟩ := hsp
      obtain ⟨g1, g2, g3⟩ := turnOff_fields t s hu
      have := ih (step t s .off) false t (sound_step t s _ hs) g1 (g2.trans hp) (fun h => by cases h) (g3 (hf h1)) h2
      show (run (step t s .off) os).latch = told os false
      rw [this, (obeys t 0 s (hf h1) hs hp).2.1]
    | pass =>
      obtain ⟨h1, h2, h3⟩ := hsp
      show (run (step t s .pass) os).latch = told os s.latch
      obtain ⟨a, b, e⟩ := readStatus_eq t s
      have he : step t s .pass = release t { s with lastRead := a, shown := b } := by rw [step, pass, timer_none t s hu.1, e]
      by_cases hr : s.busy = true ∧ t > last + 200
      · obtain ⟨hb1, hr⟩ := hr
        have hd := hb hb1
        rw [he, release_end t { s with lastRead := a, shown := b } hb1 (by show since (clk t) s.disarm > 200; rw [hd, since_clk_eq t last h1 (by omega)]; omega)]
        exact ih { s with lastRead := a, shown := b, busy := false, coil := false } _ last rfl hu hp (fun _ => rfl) (fun h => by cases h) h3
      · have hrel : release t { s with lastRead := a, shown := b } = { s with lastRead := a, shown := b } := by
          by_cases hb1 : s.busy = true
          · refine release_hold _ _ ?_
            show since (clk t) s.disarm ≤ 200
            rw [hb hb1, since_clk_eq t last h1 (by omega)]
            have : ¬ t > last + 200 := fun h => hr ⟨hb1, h⟩
            omega
          · unfold release; rw [if_neg]; show ¬ (s.busy && _) = true; simp [hb1]
        rw [he, hrel]
        refine ih { s with lastRead := a, shown := b } _ last hs hu hp ?_ hb h3
        intro hfree
        cases hfr : free with
        | true => exact hf hfr
        | false =>
          rw [hfr] at hfree
          simp only [Bool.false_or, decide_eq_true_eq] at hfree
          cases hbb : s.busy with
          | false => rfl
          | true => exact absurd ⟨hbb, hfree⟩ hr

example : Spaced true 0 [(10, .on 0), (250, .pass), (260, .off), (300, .pass), (461, .pass), (470, .on 0)] := by
  simp [Spaced]

/-! ## Time limits -/

/-- A time limit under a second is made a second. -/
theorem limit_used (d : Nat) (s : Rel) (hk : s.keep = false) (h0 : 0 < d) (h : d < 2 ^ 31) : wanted d s = max 1000 d := by
  have e : s32 d = d := by unfold s32; rw [if_pos (by omega)]; omega
  unfold wanted
  simp only [hk, Bool.false_eq_true, if_false, e]
  rw [if_pos (by omega)]
  split <;> omega

/-- The full claim about limits: every limit that can be sent is used. -/
def LimitUsed : Prop := ∀ d, 0 < d → d < 2 ^ 32 → wanted d rest ≠ 0

/-- **C84 is false as stated.** A limit of more than 24 days is taken for none. -/
theorem limit_used_violation : ¬ LimitUsed := by
  intro h
  have := h (2 ^ 31) (by decide) (by decide)
  revert this; decide

/-- The full claim: when its time is over the relay is off, two passes later at most, even if somebody has
changed it over by hand. -/
def TimerEnds : Prop :=
  ∀ (t0 d : Nat) (os : List (Nat × Op)), 0 < d → d < 2 ^ 31 → (∀ x ∈ os, x.2 = .pass ∨ x.2 = .hand) →
    (os.map (·.1)).Pairwise (· ≤ ·) → (∀ x ∈ os, t0 ≤ x.1 ∧ x.1 < t0 + 2 ^ 32) →
    (∀ x ∈ os, x.2 = .hand → x.1 ≤ t0 + d) → 2 ≤ (os.filter (fun x => x.1 > t0 + max 1000 d)).length →
    (run rest ((t0, .on d) :: os)).latch = false

/-- **C84 is false as stated.** At the end of the time the relay is changed over, not switched off: if somebody
has switched it off by hand before, it goes on, and stays on. -/
theorem timer_ends_violation : ¬ TimerEnds := by
  intro h
  have := h 10 5000 [(300, .pass), (1000, .hand), (6000, .pass), (6500, .pass), (9000, .pass)] (by decide) (by decide)
    (by intro x hx; revert x; decide) (by decide) (by intro x hx; revert x; decide) (by intro x hx; revert x; decide) (by decide)
  revert this; decide

/-- On and timed since `t0`, with a limit of `w`. -/
def Timed (t0 w : Nat) (s : Rel) : Prop :=
  s.latch = true ∧ s.dur = w ∧ s.ts = clk t0 ∧ s.status = true ∧ Sound s ∧ (s.busy = true → s.disarm = clk t0)

theorem pass_latch_untimed (t : Nat) (s : Rel) (h : s.dur = 0) : (pass t s).latch = s.latch ∧ (pass t s).dur = 0 := by
  rw [pass, timer_none t s h]
  obtain ⟨a, b, e⟩ := readStatus_eq t s
  rw [e]
  unfold release
  split <;> exact ⟨rfl, h⟩

theorem pass_early (t0 w t : Nat) (s : Rel) (h : Timed t0 w s) (h1 : t0 ≤ t) (h3 : t ≤ t0 + w) (h2 : t < t0 + 2 ^ 32) :
    Timed t0 w (pass t s) := by
  obtain ⟨a1, a2, a3, a4, a5, a6⟩ := h
  have ht : timer t s = s := by
    unfold timer
    rw [if_neg]
    rw [a3, since_clk_eq t t0 h1 (by omega), a2]
    omega
  rw [pass, ht]
  obtain ⟨a, b, e⟩ := readStatus_eq t s
  rw [e]
  unfold release
  split
  · exact ⟨a1, a2, a3, a4, rfl, fun h => by cases h⟩
  · exact ⟨a1, a2, a3, a4, a5, a6⟩

theorem pass_late (t0 w t : Nat) (s : Rel) (hw : 1000 ≤ w) (h : Timed t0 w s) (h3 : t > t0 + w) (h2 : t < t0 + 2 ^ 32) :
    (s.busy = true ∧ Timed t0 w (pass t s) ∧ (pass t s).busy = false) ∨ (s.busy = false ∧ (pass t s).latch = false ∧ (pass t s).dur = 0) := by
  obtain ⟨a1, a2, a3, a4, a5, a6⟩ := h
  cases hb : s.busy with
  | true =>
    refine Or.inl ⟨rfl, ?_⟩
    rw [pass, timer_busy t s hb]
    obtain ⟨a, b, e⟩ := readStatus_eq t s
    rw [e, release_end t { s with lastRead := a, shown := b } hb (by show since (clk t) s.disarm > 200; rw [a6 hb, since_clk_eq t t0 (by omega) (by omega)]; omega)]
    exact ⟨⟨a1, a2, a3, a4, rfl, fun h => by cases h⟩, rfl⟩
  | false =>
    refine Or.inr ⟨rfl, ?_⟩
    have hc : s.coil = false := by rw [← a5]; exact hb
    have ht : timer t s = pulse t { s with dur := 0 } := by
      unfold timer
      rw [if_pos]
      · unfold toggle
        rw [if_pos (by simp [Rel.isOn, a4, a1])]
        unfold turnOff
        rw [if_neg (by simp [hb]), if_pos (by simp [Rel.isOn, a4, a1])]
      · rw [a3, since_clk_eq t t0 (by omega) (by omega), a2]
        omega
    rw [pass, ht]
    obtain ⟨a, b, e⟩ := readStatus_eq t (pulse t { s with dur := 0 })
    rw [e]
    have hl : (pulse t { s with dur := 0 }).latch = false := by
      refine (pulse_latch t _ ?_).trans ?_
      · exact hc
      · show (!s.latch) = false
        rw [a1]; rfl
    unfold release
    split <;> exact ⟨hl, rfl⟩

/-- Passes at these times. -/
def passes (s : Rel) (ts : List Nat) : Rel := ts.foldl (fun s t => pass t s) s

theorem passes_untimed (ts : List Nat) : ∀ s : Rel, s.dur = 0 → (passes s ts).latch = s.latch := by
  induction ts with
  | nil => intro s _; rfl
  | cons t ts ih =>
    intro s h
    obtain ⟨g1, g2⟩ := pass_latch_untimed t s h
    show (passes (pass t s) ts).latch = _
    rw [ih _ g2, g1]

theorem passes_timed (t0 w : Nat) (hw : 1000 ≤ w) (ts : List Nat) : ∀ (s : Rel), Timed t0 w s →
    (∀ t ∈ ts, t0 ≤ t ∧ t < t0 + 2 ^ 32) →
    ((∀ t ∈ ts, t ≤ t0 + w) → (passes s ts).latch = true) ∧
    ((if s.busy then 2 else 1) ≤ (ts.filter (fun t => t > t0 + w)).length → (passes s ts).latch = false) := by
  induction ts with
  | nil => intro s h _; exact ⟨fun _ => h.1, fun h => by simp at h; split at h <;> omega⟩
  | cons t ts ih =>
    intro s h ht
    have h1 := ht t (by simp)
    have ht' : ∀ t ∈ ts, t0 ≤ t ∧ t < t0 + 2 ^ 32 := fun x hx => ht x (by simp [hx])
    by_cases he : t ≤ t0 + w
    · have g := pass_early t0 w t s h h1.1 he h1.2
      obtain ⟨k1, k2⟩ := ih (pass t s) g ht'
      refine ⟨fun hx => k1 (fun x hx' => hx x (by simp [hx'])), ?_⟩
      intro hc
      rw [List.filter_cons_of_neg (by simp; omega)] at hc
      refine k2 (Nat.le_trans ?_ hc)
      have : (pass t s).busy = true → s.busy = true := by
        intro hb
        cases hs : s.busy with
        | true => rfl
        | false =>
          exfalso
          have htm : timer t s = s := by
            unfold timer; rw [if_neg]; rw [h.2.2.1, since_clk_eq t t0 h1.1 (by omega), h.2.1]; omega
          rw [pass, htm] at hb
          obtain ⟨a, b, e⟩ := readStatus_eq t s
          rw [e] at hb
          unfold release at hb
          split at hb
          · cases hb
          · have : s.busy = true := hb
            rw [hs] at this; cases this
      cases hp : (pass t s).busy with
      | true => rw [this hp]; exact Nat.le_refl _
      | false => rw [if_neg (by simp)]; split <;> omega
    · refine ⟨fun hx => absurd (hx t (by simp)) he, ?_⟩
      intro hc
      rw [List.filter_cons_of_pos (by simp; omega), List.length_cons] at hc
      rcases pass_late t0 w t s hw h (by omega) h1.2 with ⟨b1, b2, b3⟩ | ⟨b1, b2, b3⟩
      · obtain ⟨_, k2⟩ := ih (pass t s) b2 ht'
        refine k2 ?_
        rw [b1] at hc
        rw [b3]
        simp only [if_true] at hc
        simp only [Bool.false_eq_true, if_false]
        omega
      · show (passes (pass t s) ts).latch = false
        rw [passes_untimed ts _ b3, b2]

/-- **C84, restricted.** Switched on with a time limit and left alone, the relay stays on until the time is over
and is off two passes later at the latest. Missing: changes by hand. -/
theorem timer_ends_partial (t0 d : Nat) (s : Rel) (ts : List Nat) (hb : s.busy = false) (hs : Sound s) (hp : s.status = true)
    (hk : s.keep = false) (h0 : 0 < d) (h : d < 2 ^ 31) (ht : ∀ t ∈ ts, t0 ≤ t ∧ t < t0 + 2 ^ 32) :
    ((∀ t ∈ ts, t ≤ t0 + max 1000 d) → (passes (step t0 s (.on d)) ts).latch = true) ∧
    (2 ≤ (ts.filter (fun t => t > t0 + max 1000 d)).length → (passes (step t0 s (.on d)) ts).latch = false) := by
  have hT : Timed t0 (max 1000 d) (step t0 s (.on d)) := by
    have hl := (obeys t0 d s hb hs hp).1
    have hw := limit_used d s hk h0 h
    refine ⟨hl, ?_, ?_, ?_, sound_step _ _ _ hs, ?_⟩ <;>
    · show _
      simp only [step]
      unfold turnOn
      rw [if_neg (by simp [hb]), hw]
      split
      · simp [pulse, show max 1000 d > 0 by omega, hp]
      · simp [show max 1000 d > 0 by omega, hp, hb]
  obtain ⟨k1, k2⟩ := passes_timed t0 (max 1000 d) (by omega) ts _ hT ht
  refine ⟨k1, fun hc => k2 (Nat.le_trans ?_ hc)⟩
  split <;> omega

example : (passes (step 10 rest (.on 500)) [300, 1010]).latch = true ∧ (passes (step 10 rest (.on 500)) [1011, 1012]).latch = false := by decide

/-- The full claim: a restart does not lose the time limit of a relay that keeps its state. -/
def RestartKeepsLimit : Prop :=
  ∀ (t t' : Nat) (s : Rel), s.busy = false → Sound s → s.status = true → s.init = -1 → s.latch = true → s.dur ≠ 0 →
    since (clk t) s.ts < s.dur → (restart t t' s).dur = s.dur - since (clk t) s.ts

/-- **C84 is false as stated.** After a restart the relay is on without a limit, although the rest of the time
was stored. -/
theorem restart_keeps_limit_violation : ¬ RestartKeepsLimit := by
  intro h
  have := h 3000 5 { rest with init := -1, latch := true, dur := 60000, ts := 1000 } rfl rfl rfl rfl rfl (by decide) (by decide)
  revert this; decide

end Verif.Bistable
