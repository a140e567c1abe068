import Verif.Srpc.ConnProps

/-!
# C55, second part: back-off, reconnecting, honesty, absence of undefined behaviour, network restart
-/

namespace Verif.Srpc

/-! ## What is true in every state the object can reach -/

/-- Ranges of the members and their relations between two passes. -/
structure Good (s : St) : Prop where
  wait : s.wait ≤ 10000
  lastIt : s.lastIt < 2 ^ 32
  lastPing : s.lastPing < 2 ^ 32
  lastResp : s.lastResp < 2 ^ 32
  fails : s.fails < 2 ^ 16
  timeout : s.timeout < 256
  idle : s.wait ≠ 0 → s.reg = .no
  srpc : s.up = true → s.srpc = true
  settled : s.reg ≠ .refused

theorem good_init : Good {} := by
  constructor <;> decide

/-- As `Good`, but in the middle of a pass. -/
structure Mid (s : St) : Prop where
  wait : s.wait = 0
  lastIt : s.lastIt < 2 ^ 32
  lastPing : s.lastPing < 2 ^ 32
  lastResp : s.lastResp < 2 ^ 32
  fails : s.fails < 2 ^ 16
  timeout : s.timeout < 256
  up : s.up = true
  srpc : s.srpc = true

theorem receive_mid {n m s s'} (hs : Mid s) (h : receive n m s = some s') : Mid s' := by
  have hc := clk_lt n
  have h1 := hs.1; have h2 := hs.2; have h3 := hs.3; have h5 := hs.5; have h6 := hs.6
  have h7 := hs.7; have h8 := hs.8
  cases m <;> simp only [receive, setTimeout] at h <;>
    first
    | (cases h; done)
    | (injection h with h; subst h; constructor <;> first | assumption | exact Nat.mod_lt _ (by decide))

theorem receiveAll_mid {n ms} : ∀ {s s'}, Mid s → receiveAll n ms s = some s' → Mid s' := by
  induction ms with
  | nil => intro s s' hs h; simp only [receiveAll] at h; injection h with h; subst h; exact hs
  | cons m ms ih =>
    intro s s' hs h
    simp only [receiveAll] at h
    split at h
    · exact absurd h (by simp)
    · rename_i s1 h1
      exact ih (receive_mid hs h1) h

theorem Mid.dropped {s : St} (hs : Mid s) (n w : Nat) (hn : n < 2 ^ 32) (hw : w ≤ 10000) :
    Good { disconnect s with lastIt := n, wait := w } :=
  ⟨hw, hn, hs.3, hs.4, hs.5, hs.6, fun _ => rfl, fun h => Bool.noConfusion h, fun h => Reg.noConfusion h⟩

theorem Mid.good {s : St} (hs : Mid s) (h : s.reg ≠ .refused) : Good s :=
  ⟨by rw [hs.1]; omega, hs.2, hs.3, hs.4, hs.5, hs.6, fun hh => absurd hs.1 hh, fun _ => hs.8, h⟩

theorem talk_good {t : Nat} {e : Env} {s s' : St} {o o' : Out} (hs : Mid s)
    (h : talk t e s o = some (s', o')) : Good s' := by
  unfold talk at h
  split at h
  · exact absurd h (by simp)
  split at h
  · exact absurd h (by simp)
  rename_i s1 h1
  have m1 := receiveAll_mid hs h1
  split at h
  · simp only [Option.some.injEq, Prod.mk.injEq] at h
    rw [← h.1]
    exact m1.dropped _ _ (clk_lt _) (by omega)
  · simp only [Option.some.injEq] at h
    have hs' := congrArg (fun p => p.1) h
    dsimp only at hs'
    rw [← hs']
    unfold proceed
    split
    · exact Mid.good ⟨m1.1, m1.2, m1.3, m1.4, m1.5, m1.6, m1.7, m1.8⟩ (fun hh => Reg.noConfusion hh)
    · rename_i hr
      split
      · exact m1.dropped _ _ (clk_lt _) (by omega)
      · exact m1.good (by rw [hr]; decide)
    · rename_i hr
      unfold registered
      split
      · exact ⟨show s1.wait ≤ 10000 by rw [m1.1]; omega, m1.2, m1.3, m1.4, m1.5, m1.6, fun _ => rfl,
          fun hh => Bool.noConfusion hh, fun hh => Reg.noConfusion hh⟩
      · split
        · exact Mid.good ⟨m1.1, m1.2, clk_lt _, m1.4, m1.5, m1.6, m1.7, m1.8⟩
            (show s1.reg ≠ .refused by rw [hr]; decide)
        · exact m1.good (by rw [hr]; decide)
    · exact m1.dropped _ _ (clk_lt _) (by omega)

theorem pass_good {t : Nat} {e : Env} {s s' : St} {o : Out} (hs : Good s)
    (h : pass t e s = some (s', o)) : Good s' := by
  have hl : stamp t s < 2 ^ 32 := by
    unfold stamp
    split
    · exact hs.2
    · exact clk_lt _
  unfold pass at h
  split at h
  · simp only [Option.some.injEq, Prod.mk.injEq] at h
    rw [← h.1]
    exact ⟨hs.1, hs.2, hs.3, hs.4, hs.5, hs.6, hs.7, hs.8, hs.9⟩
  · unfold awake at h
    dsimp only at h
    split at h
    · rename_i hup
      simp only [Bool.and_eq_true] at hup
      refine talk_good ?_ h
      exact ⟨rfl, hl, hs.3, hs.4, hs.5, hs.6, hup.1, hs.8 hup.1⟩
    · unfold offline at h
      split at h
      · simp only [Option.some.injEq, Prod.mk.injEq] at h
        rw [← h.1]
        exact ⟨(show 1000 ≤ 10000 by decide), clk_lt _, hs.3, hs.4, hs.5, hs.6, fun _ => rfl,
          fun hh => Bool.noConfusion hh, fun hh => Reg.noConfusion hh⟩
      · split at h
        · refine talk_good ?_ h
          exact ⟨rfl, hl, hs.3, hs.4, (show 0 < 2 ^ 16 by decide), hs.6, rfl, rfl⟩
        · simp only [Option.some.injEq, Prod.mk.injEq] at h
          rw [← h.1]
          refine ⟨?_, hl, hs.3, hs.4, Nat.mod_lt _ (by decide), hs.6, fun _ => rfl,
            fun hh => Bool.noConfusion hh, fun hh => Reg.noConfusion hh⟩
          show (if s.first then 1000 else 10000) ≤ 10000
          split <;> omega

theorem step_good {op : Op} {s s' : St} {o : Out} (hs : Good s) (h : step op s = some (s', o)) :
    Good s' := by
  cases op with
  | pass t e => exact pass_good hs h
  | wrote t =>
    simp only [step, Option.some.injEq, Prod.mk.injEq] at h
    rw [← h.1]
    exact ⟨hs.1, hs.2, hs.3, hs.4, hs.5, hs.6, hs.7, hs.8, hs.9⟩
  | down =>
    simp only [step, Option.some.injEq, Prod.mk.injEq] at h
    rw [← h.1]
    exact ⟨hs.1, hs.2, hs.3, hs.4, hs.5, hs.6, fun _ => rfl, fun hh => Bool.noConfusion hh,
      fun hh => Reg.noConfusion hh⟩
  | timeout n =>
    simp only [step, Option.some.injEq, Prod.mk.injEq] at h
    rw [← h.1]
    exact ⟨hs.1, hs.2, hs.3, hs.4, hs.5, Nat.mod_lt _ (by decide), hs.7, hs.8, hs.9⟩

theorem run_good {ops : List Op} : ∀ {s s' os}, Good s → run ops s = some (s', os) → Good s' := by
  induction ops with
  | nil =>
    intro s s' os hs h
    simp only [run, Option.some.injEq, Prod.mk.injEq] at h
    rw [← h.1]; exact hs
  | cons op ops ih =>
    intro s s' os hs h
    simp only [run] at h
    split at h
    · exact absurd h (by simp)
    · rename_i s1 o h1
      split at h
      · exact absurd h (by simp)
      · rename_i s2 os2 h2
        simp only [Option.some.injEq, Prod.mk.injEq] at h
        rw [← h.1]
        exact ih (step_good hs h1) h2

/-! ## Undefined behaviour -/

/-- The full claim: no history of passes, messages and network losses leads to undefined behaviour. -/
def NoUndefined : Prop := ∀ ops, run ops {} ≠ none

theorem receiveAll_some {n ms} : ∀ {s}, Msg.versionError ∉ ms → ∃ s', receiveAll n ms s = some s' := by
  induction ms with
  | nil => intro s _; exact ⟨s, rfl⟩
  | cons m ms ih =>
    intro s h
    simp only [receiveAll]
    cases m with
    | versionError => exact absurd (List.mem_cons_self) h
    | _ => exact ih (fun hh => h (List.mem_cons_of_mem _ hh))

theorem talk_some {t : Nat} {e : Env} {s : St} {o : Out} (hs : s.srpc = true)
    (he : Msg.versionError ∉ e.msgs) : ∃ r, talk t e s o = some r := by
  unfold talk
  rw [if_neg (by simp [hs])]
  obtain ⟨s1, h1⟩ := receiveAll_some (n := t + e.busy) (s := s) he
  rw [h1]
  dsimp only
  split
  · exact ⟨_, rfl⟩
  · exact ⟨_, rfl⟩

theorem pass_some {t : Nat} {e : Env} {s : St} (hs : Good s) (he : Msg.versionError ∉ e.msgs) :
    ∃ r, pass t e s = some r := by
  unfold pass
  split
  · exact ⟨_, rfl⟩
  · unfold awake
    dsimp only
    split
    · rename_i hup
      simp only [Bool.and_eq_true] at hup
      exact talk_some (hs.8 hup.1) he
    · unfold offline
      split
      · exact ⟨_, rfl⟩
      · split
        · exact talk_some rfl he
        · exact ⟨_, rfl⟩

/-- **C55, definedness (partial: no "wrong protocol version" message).** No history leads to undefined
behaviour. -/
theorem no_undefined_partial {ops : List Op}
    (h : ∀ t e, Op.pass t e ∈ ops → Msg.versionError ∉ e.msgs) : run ops {} ≠ none := by
  have key : ∀ (ops : List Op) (s : St), Good s →
      (∀ t e, Op.pass t e ∈ ops → Msg.versionError ∉ e.msgs) → run ops s ≠ none := by
    intro ops
    induction ops with
    | nil => intro s _ _; simp [run]
    | cons op ops ih =>
      intro s hs hv
      have hst : ∃ r, step op s = some r := by
        cases op with
        | pass t e => exact pass_some hs (hv t e List.mem_cons_self)
        | wrote t => exact ⟨_, rfl⟩
        | down => exact ⟨_, rfl⟩
        | timeout n => exact ⟨_, rfl⟩
      obtain ⟨⟨s1, o⟩, h1⟩ := hst
      have := ih s1 (step_good hs h1) (fun t e hm => hv t e (List.mem_cons_of_mem _ hm))
      simp only [run, h1]
      split
      · rename_i h2; exact absurd h2 this
      · simp
  exact key ops {} good_init h

/-- C55 fails in this part: a server that answers "wrong protocol version" makes the device free the
protocol object while the loop reading the messages still uses it. -/
theorem version_error_violation : ¬ NoUndefined := by
  intro h
  have := h [.pass 0 {}, .pass 100 { msgs := [.versionError] }]
  revert this
  decide +kernel

/-! ## Back-off -/

/-- Waiting `w` milliseconds from time `L` on, with no connection. -/
structure Waiting (w L : Nat) (s : St) : Prop where
  up : s.up = false
  reg : s.reg = .no
  wait : s.wait = w
  lastIt : s.lastIt = clk L

theorem waiting_pass {w L t : Nat} {e : Env} {s s' : St} {o : Out} (hw : w ≠ 0) (hL : L ≤ t)
    (hs : Waiting w L s) (h : pass t e s = some (s', o)) :
    (o.attempt = none ∧ Waiting w L s' ∧ s'.first = s.first) ∨
      (o.attempt ≠ none ∧ L + w ≤ t) := by
  unfold pass at h
  split at h
  · simp only [Option.some.injEq, Prod.mk.injEq] at h
    rw [← h.1, ← h.2]
    exact .inl ⟨rfl, ⟨hs.1, hs.2, hs.3, hs.4⟩, rfl⟩
  · rename_i hc
    right
    have hge : L + w ≤ t := by
      rw [hs.3, hs.4] at hc
      exact since_ge hL (fun hh => hc ⟨hw, hh⟩)
    refine ⟨?_, hge⟩
    unfold awake at h
    dsimp only at h
    rw [if_neg (by simp [hs.1])] at h
    unfold offline at h
    rw [if_neg (by simp [hs.2])] at h
    split at h
    · rw [(talk_out h).1]
      simp
    · simp only [Option.some.injEq, Prod.mk.injEq] at h
      rw [← h.2]
      simp

/-- The attempts of a history. -/
def attempts (os : List Out) : List Bool := os.filterMap (·.attempt)

theorem attempts_none {o : Out} {os : List Out} (h : o.attempt = none) :
    attempts (o :: os) = attempts os := List.filterMap_cons_none h

theorem attempts_some {o : Out} {os : List Out} {b : Bool} (h : o.attempt = some b) :
    attempts (o :: os) = b :: attempts os := List.filterMap_cons_some h

theorem waiting_run {w L : Nat} (hw : w ≠ 0) {ops : List Op} : ∀ {u s s' os}, L ≤ u → Timed u ops →
    Op.down ∉ ops → Waiting w L s → run ops s = some (s', os) → attempts os = [] →
    Waiting w L s' ∧ s'.first = s.first ∧ L ≤ endTime u ops := by
  induction ops with
  | nil =>
    intro u s s' os hLu _ _ hs h _
    simp only [run, Option.some.injEq, Prod.mk.injEq] at h
    rw [← h.1]
    exact ⟨hs, rfl, hLu⟩
  | cons op ops ih =>
    intro u s s' os hLu ht hd hs h ha
    simp only [run] at h
    split at h
    · exact absurd h (by simp)
    · rename_i s1 o h1
      split at h
      · exact absurd h (by simp)
      · rename_i s2 os2 h2
        simp only [Option.some.injEq, Prod.mk.injEq] at h
        rw [← h.1]
        have ho : o.attempt = none ∧ attempts os2 = [] := by
          rw [← h.2] at ha
          unfold attempts at ha ⊢
          cases hoo : o.attempt with
          | none => rw [List.filterMap_cons_none hoo] at ha; exact ⟨rfl, ha⟩
          | some b => rw [List.filterMap_cons_some hoo] at ha; exact absurd ha (by simp)
        have hstep : Waiting w L s1 ∧ s1.first = s.first ∧ L ≤ op.finish.getD u := by
          cases op with
          | pass t e =>
            have htu := ht.1 t rfl
            rcases waiting_pass hw (by omega) hs h1 with q | q
            · exact ⟨q.2.1, q.2.2, by show L ≤ t + e.busy; omega⟩
            · exact absurd ho.1 q.1
          | wrote t =>
            have htu := ht.1 t rfl
            simp only [step, Option.some.injEq, Prod.mk.injEq] at h1
            rw [← h1.1]
            exact ⟨⟨hs.1, hs.2, hs.3, hs.4⟩, rfl, by show L ≤ t; omega⟩
          | down => exact absurd List.mem_cons_self hd
          | timeout n =>
            simp only [step, Option.some.injEq, Prod.mk.injEq] at h1
            rw [← h1.1]
            exact ⟨⟨hs.1, hs.2, hs.3, hs.4⟩, rfl, hLu⟩
        obtain ⟨r1, r2, r3⟩ := ih hstep.2.2 ht.2 (fun hh => hd (List.mem_cons_of_mem _ hh)) hstep.1 h2 ho.2
        exact ⟨r1, by rw [r2, hstep.2.1], r3⟩

theorem timed_append {a : List Op} {t : Nat} {e : Env} : ∀ {u}, Timed u (a ++ [.pass t e]) →
    Timed u a ∧ endTime u a ≤ t := by
  induction a with
  | nil => intro u h; exact ⟨trivial, h.1 t rfl⟩
  | cons op ops ih => intro u h; exact ⟨⟨h.1, (ih h.2).1⟩, (ih h.2).2⟩

/-- Waiting `w` from `L` on: the next attempt is not before `L + w`. -/
theorem waiting_next {w L u : Nat} (hw : w ≠ 0) (hLu : L ≤ u) {mid : List Op} {t : Nat} {e : Env}
    {s s1 s2 : St} {os : List Out} {o : Out} (hs : Waiting w L s)
    (hm : run mid s = some (s1, os)) (hd : Op.down ∉ mid) (ha : attempts os = [])
    (ht : Timed u (mid ++ [.pass t e])) (h : pass t e s1 = some (s2, o)) (ho : o.attempt ≠ none) :
    L + w ≤ t := by
  obtain ⟨q1, q2⟩ := timed_append ht
  obtain ⟨r1, _, r3⟩ := waiting_run hw hLu q1 hd hs hm ha
  rcases waiting_pass hw (by omega) r1 h with q | q
  · exact absurd q.1 ho
  · exact q.2

theorem pass_failed {t : Nat} {e : Env} {s s' : St} {o : Out} (h : pass t e s = some (s', o))
    (ho : o.attempt = some false) :
    Waiting (if s.first then 1000 else 10000) t s' ∧ s'.first = false ∧
      s'.fails = (s.fails + 1) % 2 ^ 16 ∧ o.restart = decide ((s.fails + 1) % 2 ^ 16 % 6 = 0) := by
  unfold pass at h
  split at h
  · simp only [Option.some.injEq, Prod.mk.injEq] at h
    rw [← h.2] at ho
    cases ho
  · unfold awake at h
    dsimp only at h
    split at h
    · rw [(talk_out h).1] at ho; cases ho
    · unfold offline at h
      split at h
      · simp only [Option.some.injEq, Prod.mk.injEq] at h
        rw [← h.2] at ho
        cases ho
      · rename_i hr
        split at h
        · rw [(talk_out h).1] at ho; cases ho
        · simp only [Option.some.injEq, Prod.mk.injEq] at h
          rw [← h.1, ← h.2]
          refine ⟨⟨rfl, rfl, rfl, ?_⟩, rfl, rfl, rfl⟩
          have hr' : s.reg = .no := by simpa using hr
          exact stamp_no hr'

/-- **C55, back-off.** After two failed connection attempts in a row the next attempt comes at least
ten seconds after the second one. -/
theorem backoff {s s1 s2 s3 s4 s5 : St} {t1 t2 t3 : Nat} {e1 e2 e3 : Env} {o1 o2 o3 : Out}
    {mid1 mid2 : List Op} {os1 os2 : List Out}
    (h1 : pass t1 e1 s = some (s1, o1)) (f1 : o1.attempt = some false)
    (m1 : run mid1 s1 = some (s2, os1)) (d1 : Op.down ∉ mid1) (a1 : attempts os1 = [])
    (c1 : Timed (t1 + e1.busy) (mid1 ++ [.pass t2 e2]))
    (h2 : pass t2 e2 s2 = some (s3, o2)) (f2 : o2.attempt = some false)
    (m2 : run mid2 s3 = some (s4, os2)) (d2 : Op.down ∉ mid2) (a2 : attempts os2 = [])
    (c2 : Timed (t2 + e2.busy) (mid2 ++ [.pass t3 e3]))
    (h3 : pass t3 e3 s4 = some (s5, o3)) (f3 : o3.attempt ≠ none) :
    t2 + 10000 ≤ t3 := by
  obtain ⟨w1, g1, _⟩ := pass_failed h1 f1
  have hw : (if s.first then 1000 else 10000) ≠ 0 := by split <;> decide
  obtain ⟨_, g2, _⟩ := waiting_run hw (by omega) (timed_append c1).1 d1 w1 m1 a1
  obtain ⟨w2, _⟩ := pass_failed h2 f2
  rw [g2, g1] at w2
  exact waiting_next (by decide) (by omega) w2 m2 d2 a2 c2 h3 f3

/-- The answer to the registration that counts is a refusal: the last registration result read. -/
def RefusedBy (ms : List Msg) : Prop :=
  ∃ pre post, ms = pre ++ .refused :: post ∧ .accepted ∉ post

theorem receiveAll_refused {n pre post} : ∀ {s s'}, Msg.accepted ∉ post →
    receiveAll n (pre ++ .refused :: post) s = some s' → s'.reg = .refused := by
  induction pre with
  | nil =>
    intro s s' hp h
    simp only [List.nil_append, receiveAll, receive] at h
    rcases receiveAll_reg h with q | ⟨_, q | q⟩
    · exact q
    · exact absurd q.2 hp
    · exact q
  | cons m ms ih =>
    intro s s' hp h
    simp only [List.cons_append, receiveAll] at h
    split at h
    · exact absurd h (by simp)
    · exact ih hp h

theorem refused_waits {t : Nat} {e : Env} {s s' : St} {o : Out} (h : pass t e s = some (s', o))
    (he : RefusedBy o.got) (hi : e.iterOk = true) : Waiting 10000 (t + e.busy) s' := by
  have key : ∀ q o1, talk t e q o1 = some (s', o) → Waiting 10000 (t + e.busy) s' := by
    intro q o1 h
    rw [(talk_out h).2.1] at he
    unfold talk at h
    split at h
    · exact absurd h (by simp)
    split at h
    · exact absurd h (by simp)
    rename_i s1 h1
    obtain ⟨pre, post, e1, e2⟩ := he
    rw [e1] at h1
    have hr := receiveAll_refused e2 h1
    rw [if_neg (by simp [hi])] at h
    simp only [Option.some.injEq] at h
    have hs' := congrArg (fun p => p.1) h
    dsimp only at hs'
    rw [← hs']
    unfold proceed
    rw [hr]
    exact ⟨rfl, rfl, rfl, rfl⟩
  have no : ∀ {o : Out}, o.got = [] → ¬ RefusedBy o.got := by
    rintro o h ⟨pre, post, e1, _⟩
    rw [h] at e1
    exact absurd e1.symm (by simp)
  unfold pass at h
  split at h
  · simp only [Option.some.injEq, Prod.mk.injEq] at h
    exact absurd he (no (by rw [← h.2]))
  · unfold awake at h
    dsimp only at h
    split at h
    · exact key _ _ h
    · unfold offline at h
      split at h
      · simp only [Option.some.injEq, Prod.mk.injEq] at h
        exact absurd he (no (by rw [← h.2]))
      · split at h
        · exact key _ _ h
        · simp only [Option.some.injEq, Prod.mk.injEq] at h
          exact absurd he (no (by rw [← h.2]))

/-- **C55, back-off after a refusal.** When the server refuses the device, the connection is closed and
the next attempt comes at least ten seconds later. -/
theorem refusal_backoff {s s1 s2 s3 : St} {t1 t2 : Nat} {e1 e2 : Env} {o1 o2 : Out} {mid : List Op}
    {os : List Out} (h1 : pass t1 e1 s = some (s1, o1)) (he : RefusedBy o1.got) (hi : e1.iterOk = true)
    (hm : run mid s1 = some (s2, os)) (hd : Op.down ∉ mid) (ha : attempts os = [])
    (ht : Timed (t1 + e1.busy) (mid ++ [.pass t2 e2])) (h2 : pass t2 e2 s2 = some (s3, o2))
    (ho : o2.attempt ≠ none) : ready s1 = false ∧ t1 + 10000 ≤ t2 := by
  have w := refused_waits h1 he hi
  have := waiting_next (by decide) (Nat.le_refl _) w hm hd ha ht h2 ho
  exact ⟨by unfold ready; rw [w.reg]; rfl, by omega⟩

/-! ## Reconnecting -/

/-- No connection survives and no attempt is made: what the passes then leave. -/
structure Stuck (t1 : Nat) (s : St) : Prop where
  reg : s.reg = .no
  wait : s.wait ≤ 10000
  lastIt : s.lastIt < 2 ^ 32
  since : since (clk t1) s.lastIt < s.wait

/-- The passes of a history find no open connection. -/
def Gone (ops : List Op) : Prop := ∀ t e, Op.pass t e ∈ ops → e.alive = false

theorem stuck_first {t : Nat} {e : Env} {s s' : St} {o : Out} (hs : Good s) (he : e.alive = false)
    (h : pass t e s = some (s', o)) (ho : o.attempt = none) : Stuck t s' := by
  unfold pass at h
  split at h
  · rename_i hc
    simp only [Option.some.injEq, Prod.mk.injEq] at h
    rw [← h.1]
    exact ⟨hs.7 hc.1, hs.1, hs.2, hc.2⟩
  · unfold awake at h
    dsimp only at h
    rw [if_neg (by simp [he])] at h
    unfold offline at h
    split at h
    · simp only [Option.some.injEq, Prod.mk.injEq] at h
      rw [← h.1]
      refine ⟨rfl, (show 1000 ≤ 10000 by decide), clk_lt _, ?_⟩
      show Verif.since (clk t) (clk t) < 1000
      rw [since_clk_self]
      decide
    · split at h
      · rw [(talk_out h).1] at ho; cases ho
      · simp only [Option.some.injEq, Prod.mk.injEq] at h
        rw [← h.2] at ho; cases ho

theorem stuck_pass {t t1 : Nat} {e : Env} {s s' : St} {o : Out} (hs : Stuck t1 s) (he : e.alive = false)
    (h : pass t e s = some (s', o)) (ho : o.attempt = none) :
    Stuck t1 s' ∧ since (clk t) s.lastIt < s.wait := by
  unfold pass at h
  split at h
  · rename_i hc
    simp only [Option.some.injEq, Prod.mk.injEq] at h
    rw [← h.1]
    exact ⟨⟨hs.1, hs.2, hs.3, hs.4⟩, hc.2⟩
  · unfold awake at h
    dsimp only at h
    rw [if_neg (by simp [he])] at h
    unfold offline at h
    rw [if_neg (by simp [hs.1])] at h
    split at h
    · rw [(talk_out h).1] at ho; cases ho
    · simp only [Option.some.injEq, Prod.mk.injEq] at h
      rw [← h.2] at ho; cases ho

theorem stuck_run {t1 : Nat} {ops : List Op} : ∀ {s s' os}, Stuck t1 s → Op.down ∉ ops → Gone ops →
    run ops s = some (s', os) → attempts os = [] → Stuck t1 s' := by
  induction ops with
  | nil =>
    intro s s' os hs _ _ h _
    simp only [run, Option.some.injEq, Prod.mk.injEq] at h
    rw [← h.1]
    exact hs
  | cons op ops ih =>
    intro s s' os hs hd hg h ha
    simp only [run] at h
    split at h
    · exact absurd h (by simp)
    · rename_i s1 o h1
      split at h
      · exact absurd h (by simp)
      · rename_i s2 os2 h2
        simp only [Option.some.injEq, Prod.mk.injEq] at h
        rw [← h.1]
        have ho : o.attempt = none ∧ attempts os2 = [] := by
          rw [← h.2] at ha
          unfold attempts at ha ⊢
          cases hoo : o.attempt with
          | none => rw [List.filterMap_cons_none hoo] at ha; exact ⟨rfl, ha⟩
          | some b => rw [List.filterMap_cons_some hoo] at ha; exact absurd ha (by simp)
        have hstep : Stuck t1 s1 := by
          cases op with
          | pass t e => exact (stuck_pass hs (hg t e List.mem_cons_self) h1 ho.1).1
          | wrote t =>
            simp only [step, Option.some.injEq, Prod.mk.injEq] at h1
            rw [← h1.1]
            exact ⟨hs.1, hs.2, hs.3, hs.4⟩
          | down => exact absurd List.mem_cons_self hd
          | timeout n =>
            simp only [step, Option.some.injEq, Prod.mk.injEq] at h1
            rw [← h1.1]
            exact ⟨hs.1, hs.2, hs.3, hs.4⟩
        exact ih hstep (fun hh => hd (List.mem_cons_of_mem _ hh))
          (fun t e hm => hg t e (List.mem_cons_of_mem _ hm)) h2 ho.2

/-- **C55, reconnecting.** Whatever happened before: when the connection is gone, then among any passes
that span ten seconds (and less than the 49 days of the clock) there is one that attempts a
connection. -/
theorem reconnects {ops : List Op} {s s1 s2 s3 : St} {oo : List Out} {t1 t2 : Nat} {e1 e2 : Env}
    {o1 o2 : Out} {mid : List Op} {os : List Out} (hr : run ops {} = some (s, oo))
    (h1 : pass t1 e1 s = some (s1, o1)) (hm : run mid s1 = some (s2, os))
    (h2 : pass t2 e2 s2 = some (s3, o2)) (hd : Op.down ∉ mid)
    (hg : Gone (.pass t1 e1 :: mid ++ [.pass t2 e2])) (ht : t1 + 10000 ≤ t2)
    (hlt : t2 - t1 < 2 ^ 32 - 10000) :
    o1.attempt ≠ none ∨ attempts os ≠ [] ∨ o2.attempt ≠ none := by
  by_cases q1 : o1.attempt = none
  · by_cases q2 : attempts os = []
    · by_cases q3 : o2.attempt = none
      · exfalso
        have a1 := stuck_first (run_good good_init hr) (hg t1 e1 (by simp)) h1 q1
        have a2 := stuck_run a1 hd (fun t e hm => hg t e (by simp [hm])) hm q2
        have a3 := (stuck_pass a2 (hg t2 e2 (by simp)) h2 q3).2
        have b1 := a2.since
        have b2 := a2.wait
        have b3 := a2.lastIt
        generalize s2.lastIt = x at *
        generalize s2.wait = w at *
        unfold since clk at *
        omega
      · exact .inr (.inr q3)
    · exact .inr (.inl q2)
  · exact .inl q1

/-! ## Honesty -/

theorem accepted_append {b : Bool} {ops : List Op} : ∀ {os : List Out} {s s' : St},
    (s.reg = .ok → b = true) → run ops s = some (s', os) → s'.reg = .ok → accepted b ops os = true := by
  induction ops generalizing b with
  | nil =>
    intro os s s' hb h hr
    simp only [run, Option.some.injEq, Prod.mk.injEq] at h
    rw [← h.1] at hr
    rw [← h.2]
    exact hb hr
  | cons op ops ih =>
    intro os s s' hb h hr
    simp only [run] at h
    split at h
    · exact absurd h (by simp)
    · rename_i s1 o h1
      split at h
      · exact absurd h (by simp)
      · rename_i s2 os2 h2
        simp only [Option.some.injEq, Prod.mk.injEq] at h
        rw [← h.1] at hr
        rw [← h.2]
        simp only [accepted]
        refine ih ?_ h2 hr
        intro hok
        have talkKey : ∀ {t e q o1 o2}, talk t e q o1 = some (s1, o2) →
            q.reg = .ok ∨ o2.got.contains .accepted = true := by
          intro t e q o1 o2 ht
          have hg := (talk_out ht).2.1
          unfold talk at ht
          split at ht
          · exact absurd ht (by simp)
          split at ht
          · exact absurd ht (by simp)
          rename_i s3 h3
          split at ht
          · simp only [Option.some.injEq, Prod.mk.injEq] at ht
            rw [← ht.1] at hok
            exact absurd hok (fun hh => Reg.noConfusion hh)
          · simp only [Option.some.injEq] at ht
            have hs' := congrArg (fun p => p.1) ht
            dsimp only at hs'
            rw [← hs'] at hok
            have hr3 : s3.reg = .ok := by
              unfold proceed at hok
              split at hok
              · exact absurd hok (fun hh => Reg.noConfusion hh)
              · rename_i hh
                split at hok
                · exact absurd hok (fun hh => Reg.noConfusion hh)
                · rw [hh] at hok; exact absurd hok (by decide)
              · assumption
              · exact absurd hok (fun hh => Reg.noConfusion hh)
            rcases receiveAll_reg h3 with z | ⟨_, z | z⟩
            · left; rw [← z]; exact hr3
            · right; rw [hg]; simpa using z.2
            · rw [z] at hr3; exact absurd hr3 (by decide)
        cases op with
        | pass t e =>
          simp only [step, pass] at h1
          split at h1
          · simp only [Option.some.injEq, Prod.mk.injEq] at h1
            rw [← h1.1] at hok
            rw [← h1.2]
            simp [hb hok]
          · unfold awake at h1
            dsimp only at h1
            split at h1
            · have hno := (talk_out h1).1
              rcases talkKey h1 with z | z
              · have := hb z
                rw [hno]
                simp [this]
              · rw [z]; simp
            · unfold offline at h1
              split at h1
              · simp only [Option.some.injEq, Prod.mk.injEq] at h1
                rw [← h1.1] at hok
                exact absurd hok (fun hh => Reg.noConfusion hh)
              · rename_i hrr
                split at h1
                · rcases talkKey h1 with z | z
                  · exact absurd (show s.reg ≠ .no by
                      have : s.reg = .ok := z
                      rw [this]; decide) hrr
                  · rw [z]; simp
                · simp only [Option.some.injEq, Prod.mk.injEq] at h1
                  rw [← h1.1] at hok
                  exact absurd hok (fun hh => Reg.noConfusion hh)
        | wrote t =>
          simp only [step, Option.some.injEq, Prod.mk.injEq] at h1
          rw [← h1.1] at hok
          rw [← h1.2]
          simp [hb hok]
        | down =>
          simp only [step, Option.some.injEq, Prod.mk.injEq] at h1
          rw [← h1.1] at hok
          exact absurd hok (fun hh => Reg.noConfusion hh)
        | timeout n =>
          simp only [step, Option.some.injEq, Prod.mk.injEq] at h1
          rw [← h1.1] at hok
          rw [← h1.2]
          have hh : s.reg = .ok := hok
          simp [hb hh]

/-- **C55, honesty.** The device calls itself registered and ready only when the server has accepted it
on the present connection: a positive registration result was read since the last connection attempt
and since the network was last taken down. -/
theorem ready_honest {ops : List Op} {s : St} {os : List Out} (h : run ops {} = some (s, os))
    (hr : ready s = true) : accepted false ops os = true := by
  refine accepted_append (fun hh => Reg.noConfusion hh) h ?_
  unfold ready at hr
  exact of_decide_eq_true hr

/-! ## Network restart -/

/-- **C55, network restart.** Among any six failed connection attempts with no success between them,
one asks for a restart of the network. -/
theorem restart_every_six {ops : List Op} {s s' : St} {os : List Out} (hs : Good s)
    (h : run ops s = some (s', os)) (hf : ∀ o ∈ os, o.attempt ≠ some true)
    (hn : 6 ≤ (attempts os).length) : ∃ o ∈ os, o.attempt = some false ∧ o.restart = true := by
  have key : ∀ (ops : List Op) (s s' : St) (os : List Out), Good s → run ops s = some (s', os) →
      (∀ o ∈ os, o.attempt ≠ some true) → (∀ o ∈ os, o.attempt = some false → o.restart = false) →
      (attempts os).length ≤ 5 - s.fails % 6 := by
    intro ops
    induction ops with
    | nil =>
      intro s s' os _ h _ _
      simp only [run, Option.some.injEq, Prod.mk.injEq] at h
      rw [← h.2]
      simp [attempts]
    | cons op ops ih =>
      intro s s' os hs h hf hno
      simp only [run] at h
      split at h
      · exact absurd h (by simp)
      · rename_i s1 o h1
        split at h
        · exact absurd h (by simp)
        · rename_i s2 os2 h2
          simp only [Option.some.injEq, Prod.mk.injEq] at h
          rw [← h.2] at hf hno ⊢
          have hi := ih s1 s2 os2 (step_good hs h1) h2 (fun o ho => hf o (List.mem_cons_of_mem _ ho))
            (fun o ho => hno o (List.mem_cons_of_mem _ ho))
          have ho := hf o List.mem_cons_self
          have hr := hno o List.mem_cons_self
          cases hoo : o.attempt with
          | some b =>
            have hb : b = false := by
              cases b with
              | false => rfl
              | true => exact absurd hoo ho
            subst hb
            rw [attempts_some hoo]
            cases op with
            | pass t e =>
              obtain ⟨_, _, z1, z2⟩ := pass_failed h1 hoo
              have z3 := hr hoo
              rw [z2] at z3
              have z4 := of_decide_eq_false z3
              have z5 := hs.fails
              rw [z1] at hi
              simp only [List.length_cons]
              by_cases z6 : s.fails + 1 = 2 ^ 16
              · rw [z6] at z4; exact absurd rfl z4
              · have z7 : (s.fails + 1) % 2 ^ 16 = s.fails + 1 := Nat.mod_eq_of_lt (by omega)
                rw [z7] at z4 hi
                omega
            | wrote t =>
              simp only [step, Option.some.injEq, Prod.mk.injEq] at h1
              rw [← h1.2] at hoo; cases hoo
            | down =>
              simp only [step, Option.some.injEq, Prod.mk.injEq] at h1
              rw [← h1.2] at hoo; cases hoo
            | timeout n =>
              simp only [step, Option.some.injEq, Prod.mk.injEq] at h1
              rw [← h1.2] at hoo; cases hoo
          | none =>
            rw [attempts_none hoo]
            have hfe : s1.fails = s.fails := by
              have talkKey : ∀ {t e q o1 o2}, talk t e q o1 = some (s1, o2) → s1.fails = q.fails := by
                intro t e q o1 o2 ht
                unfold talk at ht
                split at ht
                · exact absurd ht (by simp)
                split at ht
                · exact absurd ht (by simp)
                rename_i s3 h3
                have := (receiveAll_same h3).1.fails
                split at ht
                · simp only [Option.some.injEq, Prod.mk.injEq] at ht
                  rw [← ht.1, ← this]; rfl
                · simp only [Option.some.injEq] at ht
                  have hs' := congrArg (fun p => p.1) ht
                  dsimp only at hs'
                  rw [← hs', ← this]
                  unfold proceed
                  split
                  · rfl
                  · split <;> rfl
                  · unfold registered
                    split
                    · rfl
                    · split <;> rfl
                  · rfl
              cases op with
              | pass t e =>
                simp only [step, pass] at h1
                split at h1
                · simp only [Option.some.injEq, Prod.mk.injEq] at h1
                  rw [← h1.1]
                · unfold awake at h1
                  dsimp only at h1
                  split at h1
                  · have z := talkKey h1
                    exact z
                  · unfold offline at h1
                    split at h1
                    · simp only [Option.some.injEq, Prod.mk.injEq] at h1
                      rw [← h1.1]
                    · split at h1
                      · rw [(talk_out h1).1] at hoo; cases hoo
                      · simp only [Option.some.injEq, Prod.mk.injEq] at h1
                        rw [← h1.2] at hoo; cases hoo
              | wrote t =>
                simp only [step, Option.some.injEq, Prod.mk.injEq] at h1
                rw [← h1.1]
              | down =>
                simp only [step, Option.some.injEq, Prod.mk.injEq] at h1
                rw [← h1.1]; rfl
              | timeout n =>
                simp only [step, Option.some.injEq, Prod.mk.injEq] at h1
                rw [← h1.1]; rfl
            rw [hfe] at hi
            exact hi
  by_cases hex : ∃ o ∈ os, o.attempt = some false ∧ o.restart = true
  · exact hex
  · exfalso
    have := key ops s s' os hs h hf (fun o ho ha => by
      cases hrr : o.restart with
      | false => rfl
      | true => exact absurd ⟨o, ho, ha, hrr⟩ hex)
    omega

end Verif.Srpc
