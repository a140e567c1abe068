import Verif.Relay.Remaining

/-!
# The remaining time of a relay shown in the app
-/

namespace Verif.Relay.Remain

open Verif Verif.Relay

/-! ## How commands set the timer -/

/-- A command leaves the timer alone, or stops it, or starts it at `t`. -/
def Sets (t : Nat) (r r' : Relay) : Prop := timer r' = timer r ∨ (r'.durationMs = 0 ∧ r'.ts = 0) ∨ (r'.durationMs ≠ 0 ∧ r'.ts = clk t)

theorem sets_turnOn (t d : Nat) (r r0 : Relay) : Sets t r0 (turnOn t d r) := by
  right
  unfold turnOn
  dsimp only
  by_cases h : (if r.keep || r.isStair || r.isImpulse then (if r.minDur > 0 ∧ r.stored = 0 then d % 2 ^ 32 else r.stored) else d % 2 ^ 32) = 0
  · left; exact ⟨h, by rw [if_neg (fun c => c h)]⟩
  · right; exact ⟨h, by rw [if_pos h]⟩

theorem sets_turnOff (t d : Nat) (r r0 : Relay) : Sets t r0 (turnOff t d r) := by
  right
  unfold turnOff
  dsimp only
  by_cases h : d % 2 ^ 32 = 0
  · left; exact ⟨h, by rw [if_neg (fun c => c h)]⟩
  · right; exact ⟨h, by rw [if_pos h]⟩

theorem sets_toggle (t d : Nat) (r r0 : Relay) : Sets t r0 (toggle t d r) := by
  unfold toggle
  split
  · exact sets_turnOff t d r r0
  · exact sets_turnOn t d r r0

theorem sets_stored (t : Nat) (r r0 : Relay) (x : Nat) (h : Sets t r0 r) : Sets t r0 { r with stored := x } := h

theorem sets_apply (t : Nat) (r : Relay) (c : Cmd) : Sets t r (apply t r c) := by
  cases c with
  | on d => exact sets_turnOn t d r r
  | off d => exact sets_turnOff t d r r
  | act a =>
    cases a with
    | turnOnWithoutTimer => exact sets_stored t _ r _ (sets_turnOn t 0 _ r)
    | turnOn => exact sets_turnOn t 0 r r
    | turnOff => exact sets_turnOff t 0 r r
    | toggle => exact sets_toggle t 0 r r
  | server v d =>
    show Sets t r (server t v d r)
    unfold server
    split
    · exact .inl rfl
    split
    · exact sets_stored t _ r _ (sets_turnOn t _ _ r)
    split
    · split
      · exact sets_turnOff t 0 r r
      · exact sets_turnOff t d r r
    · exact .inl rfl
  | config f time =>
    left
    show timer (applyConfig f time r) = timer r
    have e : timer (setFunction f r) = timer r := by
      unfold setFunction
      dsimp only
      split <;> rfl
    unfold applyConfig
    dsimp only
    split
    · split
      · exact e
      · exact e
    · exact e
  | pass =>
    show Sets t r (pass t r)
    unfold pass
    split
    · exact sets_toggle t 0 r r
    · exact .inl rfl

/-! ## What the server is told -/

/-- The timer ends at this (real) time. -/
def due (s : Sys) : Nat := s.start + s.r.durationMs

/-- The server knows: when a timer runs, the time it ends and the state after it (if the message was sent before the end, otherwise
that nothing remains); when none runs, that nothing remains. -/
def Knows (s : Sys) : Prop :=
  ∃ n, s.told = some n ∧ (s.r.durationMs ≠ 0 → (n.sent ≤ due s ∧ n.sent + n.remaining = due s ∧ n.target = !s.r.isOn) ∨ (due s < n.sent ∧ n.remaining = 0)) ∧
    (s.r.durationMs = 0 → n.remaining = 0)

/-- Time runs on; timers are not started in the milliseconds 0 and 1 of the counter or in the one last told, and a started timer is
looked at before the counter has gone round. -/
def Clean (s : Sys) (now t : Nat) : Op → Prop
  | .cmd c => now ≤ t ∧ (s.r.durationMs ≠ 0 → t < s.start + 2 ^ 32) ∧ ((apply t s.r c).durationMs ≠ 0 → timer (apply t s.r c) ≠ timer s.r → clk t ≠ 0 ∧ clk t ≠ 1 ∧ clk t ≠ s.upd)
  | .conn => now ≤ t ∧ (s.r.durationMs ≠ 0 → t < s.start + 2 ^ 32)
  | _ => now ≤ t

/-- All steps are clean. -/
def AllClean : Sys → Nat → List (Nat × Op) → Prop
  | _, _, [] => True
  | s, now, (t, o) :: l => Clean s now t o ∧ AllClean (step s t o) t l

/-- The invariant. -/
structure Inv (s : Sys) (now : Nat) : Prop where
  past : s.start ≤ now
  running : s.r.durationMs ≠ 0 → s.r.ts = clk s.start ∧ s.r.ts ≠ 0 ∧ s.r.ts ≠ 1
  idle : s.r.durationMs = 0 → s.r.ts = 0
  known : s.registered = true → s.upd = s.r.ts → Knows s
  zero : s.registered = true → s.upd = 0 → ∃ n, s.told = some n ∧ n.remaining = 0

theorem inv_fresh (r : Relay) : Inv (fresh r) 0 := ⟨Nat.le_refl _, fun h => absurd rfl h, fun _ => rfl, fun h => (by cases h), fun h => (by cases h)⟩

theorem inv_cmd (s : Sys) (now t : Nat) (c : Cmd) (h : Inv s now) (hc : Clean s now t (.cmd c)) : Inv (step s t (.cmd c)) t := by
  have hc' : now ≤ t ∧ (s.r.durationMs ≠ 0 → t < s.start + 2 ^ 32) ∧ ((apply t s.r c).durationMs ≠ 0 → timer (apply t s.r c) ≠ timer s.r → clk t ≠ 0 ∧ clk t ≠ 1 ∧ clk t ≠ s.upd) := hc
  obtain ⟨ht, _, hc'⟩ := hc'
  have hs := sets_apply t s.r c
  obtain ⟨h1, h2, h3, h4, h5⟩ := h
  unfold step
  dsimp only
  generalize apply t s.r c = r' at *
  by_cases e : timer r' = timer s.r
  · rw [if_pos e]
    have e' := e
    unfold timer at e'
    injection e' with d1 e'
    injection e' with d2 d3
    refine ⟨Nat.le_trans h1 ht, ?_, ?_, ?_, h5⟩
    · dsimp only; rw [d1, d2]; exact h2
    · dsimp only; rw [d1, d2]; exact h3
    · dsimp only
      rw [d2]
      intro a b
      have := h4 a b
      unfold Knows due at *
      dsimp only
      rw [d1, d3]
      exact this
  · rw [if_neg e]
    rcases hs with hs | ⟨a, b⟩ | ⟨a, b⟩
    · exact absurd hs e
    · refine ⟨Nat.le_refl _, fun c => absurd a c, fun _ => b, ?_, h5⟩
      dsimp only
      intro hr hu
      rw [b] at hu
      -- the old timer was not running, or was told at another time
      by_cases z : s.r.durationMs = 0
      · have k := h4 hr (by rw [hu]; exact (h3 z).symm)
        unfold Knows at *
        obtain ⟨n, n1, n2, n3⟩ := k
        exact ⟨n, n1, fun c => absurd a c, fun _ => n3 z⟩
      · obtain ⟨n, n1, n2⟩ := h5 hr hu
        exact ⟨n, n1, fun c => absurd a c, fun _ => n2⟩
    · obtain ⟨c0, c1, c2⟩ := hc' a e
      refine ⟨Nat.le_refl _, fun _ => ⟨b, by dsimp only; rw [b]; exact c0, by dsimp only; rw [b]; exact c1⟩, fun c => absurd c a, ?_, h5⟩
      dsimp only
      rw [b]
      intro _ hu
      exact absurd hu.symm c2

theorem remaining_idle (t : Nat) (r : Relay) (h : r.durationMs = 0) : remaining t r = (0, false) := by
  unfold remaining
  exact if_neg (fun c => c.1 h)

theorem remaining_running (t start : Nat) (r : Relay) (hd : r.durationMs ≠ 0) (hts : r.ts = clk start) (h1 : start ≤ t)
    (h2 : t < start + 2 ^ 32) :
    (t ≤ start + r.durationMs ∧ remaining t r = (start + r.durationMs - t, !r.isOn)) ∨ (start + r.durationMs < t ∧ remaining t r = (0, false)) := by
  have e : since (clk t) r.ts = t - start := by rw [hts]; exact since_clk_eq t start h1 (by omega)
  unfold remaining
  rw [e]
  by_cases z : t - start ≤ r.durationMs
  · left
    rw [if_pos ⟨hd, z⟩]
    exact ⟨by omega, by rw [show r.durationMs - (t - start) = start + r.durationMs - t by omega]⟩
  · right
    exact ⟨by omega, if_neg (fun c => z c.2)⟩

theorem inv_conn (s : Sys) (now t : Nat) (h : Inv s now) (hc : Clean s now t .conn) : Inv (step s t .conn) t := by
  have hc' : now ≤ t ∧ (s.r.durationMs ≠ 0 → t < s.start + 2 ^ 32) := hc
  obtain ⟨ht, hw⟩ := hc'
  obtain ⟨h1, h2, h3, h4, h5⟩ := h
  show Inv (conn t s) t
  unfold conn
  split
  · refine ⟨Nat.le_trans h1 ht, h2, h3, ?_, ?_⟩
    · intro hr _
      have hr' : s.registered = true := hr
      refine ⟨_, by dsimp only; rw [if_pos hr'], ?_, ?_⟩
      · intro hd
        dsimp only at hd ⊢
        show (t ≤ s.start + s.r.durationMs ∧ t + (remaining t s.r).1 = s.start + s.r.durationMs ∧ (remaining t s.r).2 = !s.r.isOn) ∨
          (s.start + s.r.durationMs < t ∧ (remaining t s.r).1 = 0)
        rcases remaining_running t s.start s.r hd (h2 hd).1 (Nat.le_trans h1 ht) (hw hd) with ⟨a, b⟩ | ⟨a, b⟩
        · left
          rw [b]
          exact ⟨a, by dsimp only; omega, rfl⟩
        · right
          rw [b]
          exact ⟨a, rfl⟩
      · intro hd
        dsimp only at hd ⊢
        rw [remaining_idle t s.r hd]
    · intro hr hu
      have hr' : s.registered = true := hr
      have hu' : s.r.ts = 0 := hu
      refine ⟨_, by dsimp only; rw [if_pos hr'], ?_⟩
      dsimp only
      by_cases hd : s.r.durationMs = 0
      · rw [remaining_idle t s.r hd]
      · exact absurd hu' (h2 hd).2.1
  · exact ⟨Nat.le_trans h1 ht, h2, h3, h4, h5⟩

theorem inv_step (s : Sys) (now t : Nat) (o : Op) (h : Inv s now) (hc : Clean s now t o) : Inv (step s t o) t := by
  cases o with
  | cmd c => exact inv_cmd s now t c h hc
  | conn => exact inv_conn s now t h hc
  | registered =>
    have ht : now ≤ t := hc
    obtain ⟨h1, h2, h3, h4, h5⟩ := h
    refine ⟨Nat.le_trans h1 ht, h2, h3, ?_, ?_⟩
    · intro _ hu
      have hu' : 1 = s.r.ts := hu
      exfalso
      by_cases hd : s.r.durationMs = 0
      · have := h3 hd; omega
      · exact (h2 hd).2.2 hu'.symm
    · intro _ hu
      have hu' : (1 : Nat) = 0 := hu
      omega
  | lost =>
    have ht : now ≤ t := hc
    obtain ⟨h1, h2, h3, h4, h5⟩ := h
    refine ⟨Nat.le_trans h1 ht, h2, h3, ?_, ?_⟩
    · intro hr; cases hr
    · intro hr; cases hr

/-- The time of the last step. -/
def last (now : Nat) : List (Nat × Op) → Nat
  | [] => now
  | (t, _) :: l => last t l

theorem inv_run (l : List (Nat × Op)) (s : Sys) (now : Nat) (h : Inv s now) (hc : AllClean s now l) : Inv (run s l) (last now l) := by
  induction l generalizing s now with
  | nil => exact h
  | cons p l ih =>
    obtain ⟨t, o⟩ := p
    exact ih (step s t o) t (inv_step s now t o h hc.1) hc.2

theorem conn_upd (t : Nat) (s : Sys) : (conn t s).upd = (conn t s).r.ts := by
  unfold conn
  split
  · rfl
  · rename_i h
    exact Classical.not_not.mp h

theorem conn_registered (t : Nat) (s : Sys) : (conn t s).registered = s.registered := by
  unfold conn
  split <;> rfl

/-- **What the app shows.**  After every clean history of the device, once the relay had its turn while registered, the server was told
the exact end of the timer that runs and the state after it, or that nothing remains. -/
theorem shown_partial (r : Relay) (l : List (Nat × Op)) (t : Nat) (hc : AllClean (fresh r) 0 l) (hc2 : Clean (run (fresh r) l) (last 0 l) t .conn)
    (hr : (run (fresh r) l).registered = true) : Knows (step (run (fresh r) l) t .conn) := by
  have h := inv_step _ _ t .conn (inv_run l (fresh r) 0 (inv_fresh r) hc) hc2
  exact h.known ((conn_registered t _).trans hr) (conn_upd t _)

/-- **Told again.**  After every new registration the next turn sends a message (its time is that of the turn). -/
theorem told_again_partial (r : Relay) (l : List (Nat × Op)) (t u : Nat) (hc : AllClean (fresh r) 0 l) :
    ∃ n, (step (step (run (fresh r) l) t .registered) u .conn).told = some n ∧ n.sent = u := by
  have h := inv_run l (fresh r) 0 (inv_fresh r) hc
  generalize run (fresh r) l = s at *
  have ne : (1 : Nat) ≠ s.r.ts := by
    by_cases hd : s.r.durationMs = 0
    · have := h.idle hd; omega
    · exact fun e => (h.running hd).2.2 e.symm
  show ∃ n, (conn u { s with registered := true, upd := 1 }).told = some n ∧ n.sent = u
  unfold conn
  rw [if_pos (show ({ s with registered := true, upd := 1 } : Sys).upd ≠ ({ s with registered := true, upd := 1 } : Sys).r.ts from ne)]
  exact ⟨_, rfl, rfl⟩

/-- **The time told is when the relay switches.**  A pass at time `t` (less than a round of the counter after the start) switches the relay
exactly when the end is over; before, nothing changes. -/
theorem switches_when_due (r : Relay) (l : List (Nat × Op)) (t : Nat) (hc : AllClean (fresh r) 0 l) (ht : last 0 l ≤ t)
    (hd : (run (fresh r) l).r.durationMs ≠ 0) (hw : t < (run (fresh r) l).start + 2 ^ 32) :
    (t ≤ due (run (fresh r) l) → pass t (run (fresh r) l).r = (run (fresh r) l).r) ∧
      (due (run (fresh r) l) < t → pass t (run (fresh r) l).r = toggle t 0 (run (fresh r) l).r) := by
  have h := inv_run l (fresh r) 0 (inv_fresh r) hc
  generalize run (fresh r) l = s at *
  have e : since (clk t) s.r.ts = t - s.start := by
    rw [(h.running hd).1]
    have := h.past
    exact since_clk_eq t s.start (by omega) (by omega)
  have := h.past
  unfold pass due
  rw [e]
  constructor
  · intro a
    exact if_neg (fun c => by omega)
  · intro a
    exact if_pos ⟨hd, by omega⟩

/-! ## A non-trivial history, and where it fails -/

/-- An ordinary relay. -/
def demo : Relay := { keep := false, highIsOn := false, pin := true }

/-- Registered, switched on for a minute, the link is lost and comes back, switched on for two minutes. -/
def story : List (Nat × Op) :=
  [(5000, .registered), (5010, .conn), (9000, .cmd (.server 1 60000)), (9004, .conn), (20000, .lost), (20500, .cmd .pass), (30000, .registered), (30007, .conn),
   (31000, .cmd (.server 1 120000))]

instance (s : Sys) (now t : Nat) (o : Op) : Decidable (Clean s now t o) := by
  cases o <;> unfold Clean <;> infer_instance

instance decClean : (s : Sys) → (now : Nat) → (l : List (Nat × Op)) → Decidable (AllClean s now l)
  | _, _, [] => .isTrue trivial
  | s, _, (t, o) :: l => @instDecidableAnd _ _ inferInstance (decClean (step s t o) t l)

example : AllClean (fresh demo) 0 story := by decide +kernel
example : Clean (run (fresh demo) story) (last 0 story) 31003 .conn := by decide +kernel
example : (run (fresh demo) story).registered = true := by decide +kernel
example : (run (fresh demo) (story.take 8)).told = some ⟨30007, 38993, false⟩ := by decide +kernel
example : (run (fresh demo) (story ++ [(31003, .conn)])).told = some ⟨31003, 119997, false⟩ := by decide +kernel
example : (run (fresh demo) (story ++ [(31003, .conn), (151001, .cmd .pass), (151001, .conn)])).told = some ⟨151001, 0, false⟩ := by decide +kernel
example : due (run (fresh demo) story) = 151000 := by decide +kernel

/-- The full claim: whatever happens and whenever, a registered device has told the server after the relay's turn. -/
def Always : Prop :=
  ∀ (r : Relay) (l : List (Nat × Op)) (t : Nat), (∀ p ∈ l, p.1 ≤ t) → l.Pairwise (fun a b => a.1 ≤ b.1) → t < 2 ^ 33 → (run (fresh r) l).registered = true →
    (t < (run (fresh r) l).start + 2 ^ 31) → ∃ n, (step (run (fresh r) l) t .conn).told = some n ∧
      ((step (run (fresh r) l) t .conn).r.durationMs ≠ 0 → t ≤ due (step (run (fresh r) l) t .conn) → n.sent + n.remaining = due (step (run (fresh r) l) t .conn))

/-- **Two timers in one millisecond.**  A second timer set in the millisecond in which the first was told is never told, whatever the
two durations: the app goes on showing the first. -/
theorem same_ms_violation (r : Relay) (t a b : Nat) (ha : a % 2 ^ 32 ≠ 0) (hb : b % 2 ^ 32 ≠ 0) :
    (run (fresh r) [(t, .registered), (t, .cmd (.off a)), (t, .conn), (t, .cmd (.off b)), (t, .conn)]).told
      = (run (fresh r) [(t, .registered), (t, .cmd (.off a)), (t, .conn)]).told ∧
    (run (fresh r) [(t, .registered), (t, .cmd (.off a)), (t, .conn), (t, .cmd (.off b)), (t, .conn)]).r.durationMs = b % 2 ^ 32 := by
  have e : ∀ (x : Nat) (q : Relay), x % 2 ^ 32 ≠ 0 → (apply t q (.off x)).ts = clk t := by
    intro x q hx
    show (turnOff t x q).ts = clk t
    unfold turnOff
    dsimp only
    exact if_pos hx
  have d : ∀ (x : Nat) (q : Relay), (apply t q (.off x)).durationMs = x % 2 ^ 32 := fun _ _ => rfl
  have nc : ∀ q : Sys, q.upd = q.r.ts → conn t q = q := fun q h => by unfold conn; exact if_neg (fun c => c h)
  have cr : ∀ q : Sys, (conn t q).r = q.r := fun q => by unfold conn; split <;> rfl
  show (conn t (step (conn t (step (step (fresh r) t .registered) t (.cmd (.off a)))) t (.cmd (.off b)))).told
      = (conn t (step (step (fresh r) t .registered) t (.cmd (.off a)))).told ∧
    (conn t (step (conn t (step (step (fresh r) t .registered) t (.cmd (.off a)))) t (.cmd (.off b)))).r.durationMs = b % 2 ^ 32
  have k1 : (step (step (fresh r) t .registered) t (.cmd (.off a))).r.ts = clk t := e a _ ha
  generalize step (step (fresh r) t .registered) t (.cmd (.off a)) = s1 at *
  have k2 := conn_upd t s1
  rw [cr, k1] at k2
  generalize conn t s1 = s2 at *
  have k3 : (step s2 t (.cmd (.off b))).upd = (step s2 t (.cmd (.off b))).r.ts := by
    show s2.upd = (apply t s2.r (.off b)).ts
    rw [k2, e b _ hb]
  rw [nc _ k3]
  exact ⟨rfl, d b s2.r⟩

/-- A minute, and in the same millisecond two minutes. -/
def twice : List (Nat × Op) := [(5000, .registered), (5010, .conn), (9000, .cmd (.server 1 60000)), (9000, .conn), (9000, .cmd (.server 1 120000))]

theorem always_violation : ¬ Always := by
  intro h
  have := h demo twice 9000 (by decide) (by decide) (by decide) (by decide +kernel) (by decide +kernel)
  obtain ⟨n, h1, h2⟩ := this
  have e : (step (run (fresh demo) twice) 9000 .conn).told = some ⟨9000, 60000, false⟩ := by decide +kernel
  rw [e] at h1
  injection h1 with h1
  have g := h2 (by decide +kernel) (by decide +kernel)
  rw [← h1] at g
  revert g
  decide +kernel

/-- **When the counter is at zero.**  A timer started in the millisecond in which the counter goes round looks like none: after "nothing
remains" was told, it is not told, although it runs. -/
theorem round_violation : ∃ l : List (Nat × Op), (run (fresh demo) l).registered = true ∧ (run (fresh demo) l).r.durationMs = 60000 ∧
    (∃ n, (run (fresh demo) l).told = some n ∧ n.remaining = 0) ∧
    ∀ t, (conn t (run (fresh demo) l)) = run (fresh demo) l := by
  refine ⟨[(5000, .registered), (5010, .conn), (4294967296, .cmd (.server 1 60000))], by decide +kernel, by decide +kernel, ⟨⟨5010, 0, false⟩, by decide +kernel, rfl⟩, ?_⟩
  intro t
  have k : (run (fresh demo) [(5000, .registered), (5010, .conn), (4294967296, .cmd (.server 1 60000))]).upd
      = (run (fresh demo) [(5000, .registered), (5010, .conn), (4294967296, .cmd (.server 1 60000))]).r.ts := by decide +kernel
  unfold conn
  exact if_neg (fun c => c k)

end Verif.Relay.Remain
