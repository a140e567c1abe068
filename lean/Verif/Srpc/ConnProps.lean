import Verif.Srpc.Conn

/-!
# C55: the connection to the server

Pacing of connection attempts, honesty of "registered and ready", detection of a silent server, keeping
a healthy connection.
-/

namespace Verif.Srpc

/-! ## Specification -/

/-- The time at which an operation starts, and the time at which it has read the clock last. -/
def Op.start : Op → Option Nat
  | .pass t _ => some t
  | .wrote t => some t
  | _ => none

/-- When an operation has ended. -/
def Op.finish : Op → Option Nat
  | .pass t e => some (t + e.busy)
  | .wrote t => some t
  | _ => none

/-- Time does not run backwards: no operation starts before `u`, the end of the one before. -/
def Timed : Nat → List Op → Prop
  | _, [] => True
  | u, op :: ops => (∀ t, op.start = some t → u ≤ t) ∧ Timed (op.finish.getD u) ops

/-- The time at which a history that starts at `u` ends. -/
def endTime : Nat → List Op → Nat
  | u, [] => u
  | u, op :: ops => endTime (op.finish.getD u) ops

/-- Was the device accepted by the server on the present connection? `b` is the answer before the
history. A new connection attempt and a dropped connection start anew. -/
def accepted : Bool → List Op → List Out → Bool
  | b, op :: ops, o :: os =>
    let b := if op = .down ∨ o.attempt ≠ none then false else b
    accepted (b || o.got.contains .accepted) ops os
  | b, _, _ => b

/-! ## Auxiliary facts -/

theorem since_ge {t L w : Nat} (hL : L ≤ t) (h : ¬ since (clk t) (clk L) < w) : L + w ≤ t := by
  have := since_clk_le t L hL
  omega

theorem stamp_no {t : Nat} {s : St} (h : s.reg = .no) : stamp t s = clk t := by
  unfold stamp
  rw [if_neg (by rw [h]; decide)]

/-- What the message loop may change. -/
structure Same (s s' : St) : Prop where
  up : s'.up = s.up
  srpc : s'.srpc = s.srpc
  wait : s'.wait = s.wait
  first : s'.first = s.first
  fails : s'.fails = s.fails
  restart : s'.restart = s.restart
  lastSent : s'.lastSent = s.lastSent
  lastPing : s'.lastPing = s.lastPing

theorem receive_same {n m s s'} (h : receive n m s = some s') : Same s s' ∧ s'.lastResp = clk n := by
  cases m <;> simp only [receive, setTimeout] at h <;>
    first
    | (cases h; done)
    | (injection h with h; subst h; exact ⟨⟨rfl, rfl, rfl, rfl, rfl, rfl, rfl, rfl⟩, rfl⟩)

theorem receiveAll_same {n ms} : ∀ {s s'}, receiveAll n ms s = some s' →
    Same s s' ∧ (ms ≠ [] → s'.lastResp = clk n) ∧ (ms = [] → s' = s) := by
  induction ms with
  | nil =>
    intro s s' h
    simp only [receiveAll] at h
    injection h with h
    subst h
    exact ⟨⟨rfl, rfl, rfl, rfl, rfl, rfl, rfl, rfl⟩, fun h => absurd rfl h, fun _ => rfl⟩
  | cons m ms ih =>
    intro s s' h
    simp only [receiveAll] at h
    split at h
    · exact absurd h (by simp)
    · rename_i s1 h1
      have a := receive_same h1
      have b := ih h
      refine ⟨⟨?_, ?_, ?_, ?_, ?_, ?_, ?_, ?_⟩, fun _ => ?_, fun h => absurd h (by simp)⟩
      · rw [b.1.up, a.1.up]
      · rw [b.1.srpc, a.1.srpc]
      · rw [b.1.wait, a.1.wait]
      · rw [b.1.first, a.1.first]
      · rw [b.1.fails, a.1.fails]
      · rw [b.1.restart, a.1.restart]
      · rw [b.1.lastSent, a.1.lastSent]
      · rw [b.1.lastPing, a.1.lastPing]
      · by_cases hm : ms = []
        · rw [b.2.2 hm]; exact a.2
        · exact b.2.1 hm

/-- A registration state after the messages: the old one, or the one some message set. -/
theorem receiveAll_reg {n ms} : ∀ {s s'}, receiveAll n ms s = some s' →
    s'.reg = s.reg ∨ ms ≠ [] ∧ (s'.reg = .ok ∧ Msg.accepted ∈ ms ∨ s'.reg = .refused) := by
  induction ms with
  | nil =>
    intro s s' h
    simp only [receiveAll] at h
    injection h with h
    subst h
    exact .inl rfl
  | cons m ms ih =>
    intro s s' h
    simp only [receiveAll] at h
    split at h
    · exact absurd h (by simp)
    · rename_i s1 h1
      have b := ih h
      rcases b with b | ⟨_, b | b⟩
      · cases m <;> simp only [receive, setTimeout] at h1 <;>
          first
          | (cases h1; done)
          | (injection h1 with h1; subst h1; simp_all)
      · exact .inr ⟨by simp, .inl ⟨b.1, List.mem_cons_of_mem _ b.2⟩⟩
      · exact .inr ⟨by simp, .inr b⟩

theorem run_append {a b : List Op} : ∀ {s s' os}, run (a ++ b) s = some (s', os) →
    ∃ s1 o1 o2, run a s = some (s1, o1) ∧ run b s1 = some (s', o2) ∧ os = o1 ++ o2 := by
  induction a with
  | nil => intro s s' os h; exact ⟨s, [], os, rfl, h, rfl⟩
  | cons op a ih =>
    intro s s' os h
    simp only [List.cons_append, run] at h ⊢
    split at h
    · exact absurd h (by simp)
    · rename_i s1 o h1
      split at h
      · exact absurd h (by simp)
      · rename_i s2 os2 h2
        obtain ⟨s3, o1, o2, e1, e2, e3⟩ := ih h2
        simp only [Option.some.injEq, Prod.mk.injEq] at h
        refine ⟨s3, o :: o1, o2, ?_, ?_, ?_⟩
        · simp only [e1]
        · rw [e2, h.1]
        · rw [← h.2, e3]; rfl

/-! ## Pacing -/

/-- After an attempt at `a`, at time `u`: no attempt is possible before `a + 1000`. -/
def Safe (a u : Nat) (s : St) : Prop :=
  a + 1000 ≤ u ∨
  (s.up = true ∧ (s.reg = .asked ∨ s.reg = .ok ∧ ∃ R, a ≤ R ∧ R ≤ u ∧ s.lastResp = clk R)) ∨
  (s.up = false ∧ s.reg = .no ∧ 1000 ≤ s.wait ∧ ∃ L, a ≤ L ∧ L ≤ u ∧ s.lastIt = clk L)

theorem Safe.later {a u v : Nat} {s : St} (h : Safe a u s) (huv : u ≤ v) : Safe a v s := by
  rcases h with h | ⟨h, h1 | ⟨h1, R, h2, h3, h4⟩⟩ | ⟨h1, h2, h3, L, h4, h5, h6⟩
  · exact .inl (by omega)
  · exact .inr (.inl ⟨h, .inl h1⟩)
  · exact .inr (.inl ⟨h, .inr ⟨h1, R, h2, by omega, h4⟩⟩)
  · exact .inr (.inr ⟨h1, h2, h3, L, h4, by omega, h6⟩)

theorem registered_safe {a u : Nat} {s : St} {o : Out} (hup : s.up = true) (hreg : s.reg = .ok)
    (hR : ∃ R, a ≤ R ∧ R ≤ u ∧ s.lastResp = clk R) :
    Safe a u (registered u s o).1 ∧ (registered u s o).2.attempt = o.attempt := by
  obtain ⟨R, h1, h2, h3⟩ := hR
  unfold registered
  split
  · rename_i h
    refine ⟨.inl ?_, rfl⟩
    rw [h3] at h
    have := since_clk_le u R h2
    omega
  · split
    · exact ⟨.inr (.inl ⟨hup, .inr ⟨hreg, R, h1, h2, h3⟩⟩), rfl⟩
    · exact ⟨.inr (.inl ⟨hup, .inr ⟨hreg, R, h1, h2, h3⟩⟩), rfl⟩

/-- The visible results of the second half of a pass. -/
theorem talk_out {t : Nat} {e : Env} {s s' : St} {o o' : Out} (h : talk t e s o = some (s', o')) :
    o'.attempt = o.attempt ∧ o'.got = e.msgs ∧ o'.restart = o.restart := by
  unfold talk at h
  split at h
  · exact absurd h (by simp)
  split at h
  · exact absurd h (by simp)
  split at h
  · simp only [Option.some.injEq, Prod.mk.injEq] at h
    rw [← h.2]
    exact ⟨rfl, rfl, rfl⟩
  · simp only [Option.some.injEq] at h
    have ho := congrArg (fun p => p.2) h
    dsimp only at ho
    rw [← ho]
    unfold proceed
    split
    · exact ⟨rfl, rfl, rfl⟩
    · split <;> exact ⟨rfl, rfl, rfl⟩
    · unfold registered
      split
      · exact ⟨rfl, rfl, rfl⟩
      · split <;> exact ⟨rfl, rfl, rfl⟩
    · exact ⟨rfl, rfl, rfl⟩

theorem talk_safe {a t : Nat} {e : Env} {s s' : St} {o o' : Out} (hat : a ≤ t) (hup : s.up = true)
    (hreg : s.reg = .no ∨ s.reg = .asked ∨ s.reg = .ok ∧ ∃ R, a ≤ R ∧ R ≤ t ∧ s.lastResp = clk R)
    (h : talk t e s o = some (s', o')) :
    Safe a (t + e.busy) s' ∧ o'.attempt = o.attempt := by
  unfold talk at h
  split at h
  · exact absurd h (by simp)
  split at h
  · exact absurd h (by simp)
  rename_i s1 h1
  have sm := receiveAll_same h1
  have rg := receiveAll_reg h1
  have hup1 : s1.up = true := by rw [sm.1.up, hup]
  split at h
  · simp only [Option.some.injEq, Prod.mk.injEq] at h
    obtain ⟨rfl, rfl⟩ := h
    exact ⟨.inr (.inr ⟨rfl, rfl, (show 1000 ≤ 5000 by decide), t, hat, by omega, rfl⟩), rfl⟩
  · simp only [Option.some.injEq] at h
    have hs : s' = (proceed t (t + e.busy) s1 { o with got := e.msgs }).1 := by rw [h]
    have ho : o' = (proceed t (t + e.busy) s1 { o with got := e.msgs }).2 := by rw [h]
    subst hs ho
    unfold proceed
    split
    · exact ⟨.inr (.inl ⟨hup1, .inl rfl⟩), rfl⟩
    · rename_i hr
      split
      · exact ⟨.inr (.inr ⟨rfl, rfl, (show 1000 ≤ 2000 by decide), t, hat, by omega, rfl⟩), rfl⟩
      · exact ⟨.inr (.inl ⟨hup1, .inl hr⟩), rfl⟩
    · rename_i hr
      have hR : ∃ R, a ≤ R ∧ R ≤ t + e.busy ∧ s1.lastResp = clk R := by
        by_cases hm : e.msgs = []
        · rcases hreg with hh | hh | ⟨_, R, q1, q2, q3⟩
          · rw [sm.2.2 hm, hh] at hr; exact absurd hr (by decide)
          · rw [sm.2.2 hm, hh] at hr; exact absurd hr (by decide)
          · exact ⟨R, q1, by omega, by rw [sm.2.2 hm]; exact q3⟩
        · exact ⟨t + e.busy, by omega, by omega, sm.2.1 hm⟩
      exact registered_safe hup1 hr hR
    · exact ⟨.inr (.inr ⟨rfl, rfl, (show 1000 ≤ 10000 by decide), t + e.busy, by omega, by omega, rfl⟩), rfl⟩

theorem offline_attempt {t : Nat} {e : Env} {s s' : St} {o : Out} (hl : s.reg = .no → s.lastIt = clk t)
    (hup : s.up = false)
    (h : offline t e s = some (s', o)) :
    Safe t (t + e.busy) s' ∧ (s.reg ≠ .no → o.attempt = none) := by
  unfold offline at h
  split at h
  · simp only [Option.some.injEq, Prod.mk.injEq] at h
    obtain ⟨rfl, rfl⟩ := h
    exact ⟨.inr (.inr ⟨hup, rfl, Nat.le_refl 1000, t, by omega, by omega, rfl⟩), fun _ => rfl⟩
  · rename_i hr
    refine ⟨?_, fun hh => absurd hh (by simpa using hr)⟩
    split at h
    · exact (talk_safe (Nat.le_refl t) rfl (.inl (by simpa using hr)) h).1
    · simp only [Option.some.injEq, Prod.mk.injEq] at h
      obtain ⟨rfl, rfl⟩ := h
      refine .inr (.inr ⟨rfl, rfl, ?_, t, by omega, by omega, hl (by simpa using hr)⟩)
      show 1000 ≤ if s.first then 1000 else 10000
      split <;> omega

theorem Safe.weaken {a b u : Nat} {s : St} (hab : a ≤ b) (h : Safe b u s) : Safe a u s := by
  rcases h with h | ⟨h, h1 | ⟨h1, R, h2, h3, h4⟩⟩ | ⟨h1, h2, h3, L, h4, h5, h6⟩
  · exact .inl (by omega)
  · exact .inr (.inl ⟨h, .inl h1⟩)
  · exact .inr (.inl ⟨h, .inr ⟨h1, R, by omega, h3, h4⟩⟩)
  · exact .inr (.inr ⟨h1, h2, h3, L, by omega, h5, h6⟩)

/-- A pass that attempts a connection leaves a state in which the next attempt is a second away. -/
theorem pass_attempt {t : Nat} {e : Env} {s s' : St} {o : Out} (h : pass t e s = some (s', o))
    (ho : o.attempt ≠ none) : Safe t (t + e.busy) s' := by
  unfold pass at h
  split at h
  · simp only [Option.some.injEq, Prod.mk.injEq] at h
    rw [← h.2] at ho
    exact absurd rfl ho
  · unfold awake at h
    dsimp only at h
    split at h
    · exact absurd (talk_out h).1 ho
    · refine (offline_attempt ?_ rfl h).1
      intro hr
      exact stamp_no hr

/-- A pass keeps the pause after an attempt at `a`. -/
theorem pass_safe {a u t : Nat} {e : Env} {s s' : St} {o : Out} (hs : Safe a u s) (hau : a ≤ u)
    (hut : u ≤ t) (h : pass t e s = some (s', o)) :
    (o.attempt ≠ none → a + 1000 ≤ t) ∧ Safe a (t + e.busy) s' := by
  by_cases hlate : a + 1000 ≤ t
  · exact ⟨fun _ => hlate, .inl (by omega)⟩
  unfold pass at h
  split at h
  · simp only [Option.some.injEq, Prod.mk.injEq] at h
    obtain ⟨rfl, rfl⟩ := h
    exact ⟨fun hh => absurd rfl hh, (show Safe a u { s with restart := false } from hs).later (by omega)⟩
  · rename_i hw
    unfold awake at h
    dsimp only at h
    split at h
    · rename_i hup
      have hup' : s.up = true := by simp only [Bool.and_eq_true] at hup; exact hup.1
      have := talk_safe (a := a) (t := t) (s := { s with wait := 0, lastIt := stamp t s, restart := false }) (by omega) hup' ?_ h
      · refine ⟨fun hh => ?_, this.1⟩
        rw [this.2] at hh
        exact absurd rfl hh
      · rcases hs with q | ⟨_, q | ⟨q, R, q1, q2, q3⟩⟩ | ⟨q, _⟩
        · omega
        · exact .inr (.inl q)
        · exact .inr (.inr ⟨q, R, q1, by omega, q3⟩)
        · rw [q] at hup'; exact absurd hup' (by decide)
    · rename_i hup
      have hsafe : Safe t (t + e.busy) s' ∧ (s.reg ≠ .no → o.attempt = none) := by
        refine offline_attempt (s := { s with wait := 0, lastIt := stamp t s, up := false, srpc := false, restart := false }) ?_ rfl h
        intro hr
        exact stamp_no hr
      refine ⟨fun hh => ?_, hsafe.1.weaken (by omega)⟩
      rcases hs with q | ⟨_, q | ⟨q, R, q1, q2, q3⟩⟩ | ⟨_, q, q0, L, q1, q2, q3⟩
      · omega
      · exact absurd (hsafe.2 (by rw [q]; decide)) hh
      · exact absurd (hsafe.2 (by rw [q]; decide)) hh
      · have : ¬ since (clk t) (clk L) < s.wait := by
          rw [q3] at hw
          intro hc
          exact hw ⟨by omega, hc⟩
        have := since_ge (by omega) this
        omega

theorem step_safe {a u : Nat} {op : Op} {s s' : St} {o : Out} (hs : Safe a u s) (hau : a ≤ u)
    (ht : ∀ t, op.start = some t → u ≤ t) (hd : op ≠ .down) (h : step op s = some (s', o)) :
    a ≤ op.finish.getD u ∧ Safe a (op.finish.getD u) s' := by
  cases op with
  | pass t e =>
    have htu := ht t rfl
    exact ⟨by show a ≤ t + e.busy; omega, (pass_safe hs hau htu h).2⟩
  | wrote t =>
    have htu := ht t rfl
    simp only [step, Option.some.injEq, Prod.mk.injEq] at h
    obtain ⟨rfl, _⟩ := h
    exact ⟨by show a ≤ t; omega, (show Safe a u { s with lastSent := clk t } from hs).later htu⟩
  | down => exact absurd rfl hd
  | timeout n =>
    simp only [step, Option.some.injEq, Prod.mk.injEq] at h
    obtain ⟨rfl, _⟩ := h
    exact ⟨hau, (show Safe a u (setTimeout n s) from hs)⟩

theorem run_safe {a : Nat} {ops : List Op} : ∀ {u s s' os}, Safe a u s → a ≤ u → Timed u ops →
    Op.down ∉ ops → run ops s = some (s', os) → a ≤ endTime u ops ∧ Safe a (endTime u ops) s' := by
  induction ops with
  | nil =>
    intro u s s' os hs hau _ _ h
    simp only [run, Option.some.injEq, Prod.mk.injEq] at h
    obtain ⟨rfl, _⟩ := h
    exact ⟨hau, hs⟩
  | cons op ops ih =>
    intro u s s' os hs hau ht hd h
    simp only [run] at h
    split at h
    · exact absurd h (by simp)
    · rename_i s1 o h1
      have k := step_safe hs hau ht.1 (fun hh => hd (by rw [hh]; exact List.mem_cons_self)) h1
      split at h
      · exact absurd h (by simp)
      · rename_i s2 os2 h2
        simp only [Option.some.injEq, Prod.mk.injEq] at h
        obtain ⟨rfl, _⟩ := h
        exact ih k.2 k.1 ht.2 (fun hh => hd (List.mem_cons_of_mem _ hh)) h2

/-- **C55, pacing.** Between two connection attempts there is always at least one second, whatever the
network and the server do in between, however long the device has been running, as long as the device
itself does not take the network down between them. -/
theorem attempts_paced {s s1 s2 s3 : St} {t1 t2 : Nat} {e1 e2 : Env} {o1 o2 : Out} {mid : List Op}
    {os : List Out}
    (h1 : pass t1 e1 s = some (s1, o1)) (ha1 : o1.attempt ≠ none)
    (hm : run mid s1 = some (s2, os)) (hd : Op.down ∉ mid)
    (ht : Timed (t1 + e1.busy) (mid ++ [.pass t2 e2]))
    (h2 : pass t2 e2 s2 = some (s3, o2)) (ha2 : o2.attempt ≠ none) :
    t1 + 1000 ≤ t2 := by
  have tm : ∀ (ops : List Op) (u : Nat), Timed u (ops ++ [.pass t2 e2]) →
      Timed u ops ∧ endTime u ops ≤ t2 := by
    intro ops
    induction ops with
    | nil => intro u h; exact ⟨trivial, h.1 t2 rfl⟩
    | cons op ops ih => intro u h; exact ⟨⟨h.1, (ih _ h.2).1⟩, (ih _ h.2).2⟩
  obtain ⟨q1, q2⟩ := tm mid _ ht
  have k := run_safe (pass_attempt h1 ha1) (by omega) q1 hd hm
  exact (pass_safe k.2 k.1 q2 h2).1 ha2

end Verif.Srpc
