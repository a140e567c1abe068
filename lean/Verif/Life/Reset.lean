import Verif.Life.Props

/-!
# Restarts that were asked for, factory reset, restart without connection
-/

namespace Verif.Life

/-! ## Scheduled restart -/

/-- A restart is scheduled. -/
structure Sched (t0 F : Nat) (s : St) : Prop where
  ts : s.ts = clk t0
  force : s.force = F
  req : s.req = .none

theorem work_forced {now : Nat} {e : Env} {s : St} (h : s.force ≠ 0) : work now e s = s := by
  unfold work
  rw [if_pos h]

theorem doCheck_keeps (s : St) : (doCheck s).ts = s.ts ∧ (doCheck s).force = s.force ∧ (doCheck s).req = s.req ∧
    (doCheck s).off = s.off ∧ (doCheck s).factory = s.factory ∧ (doCheck s).notReady = s.notReady ∧ (doCheck s).cfgTs = s.cfgTs := by
  unfold doCheck
  split <;> exact ⟨rfl, rfl, rfl, rfl, rfl, rfl, rfl⟩

theorem sched_pass {f : Fixed} {t0 F t : Nat} {e : Env} {s : St} (h : Sched t0 F s) (hF : F ≠ 0) (hF2 : F ≤ 300000) :
    (∃ w, pass f (clk t) e s = .restart w) ∨ ∃ s', pass f (clk t) e s = .on s' ∧ Sched t0 F s' := by
  have hh : Sched t0 F (hour f (clk t) s) ∨ needed f (clk t) e (hour f (clk t) s) ≠ none := by
    unfold hour
    split
    · rename_i h0
      unfold leave
      split
      · exact .inl ⟨h.ts, h.force, h.req⟩
      · unfold setup
        split
        · exact .inl ⟨h.ts, h.force, h.req⟩
        · split
          · right
            rename_i hm
            intro hn
            unfold needed at hn
            have hz : (enterConfig (clk t) { s with off := 1, cfgTs := 0, web := false }).ts = 0 := by
              unfold enterConfig
              dsimp only
              rw [if_pos hm]
            have hz2 : (enterConfig (clk t) { s with off := 1, cfgTs := 0, web := false }).force = F := h.force
            rw [hz, hz2] at hn
            have hs : since (clk t) 0 > F := by
              have := h0.2
              have hl := clk_lt t
              unfold offTime at this
              unfold since
              omega
            rw [if_neg (by simp), if_pos ⟨hF, hs⟩] at hn
            cases hn
          · exact .inl ⟨h.ts, h.force, h.req⟩
    · exact .inl h
  unfold pass
  rcases hh with hh | hh
  · generalize hour f (clk t) s = s1 at hh
    cases needed f (clk t) e s1 with
    | some w => exact .inl ⟨w, rfl⟩
    | none =>
      dsimp only
      have hd : doRequest (clk t) s1 = s1 := by
        unfold doRequest
        rw [hh.req]
      rw [hd]
      split
      · exact .inl ⟨_, rfl⟩
      · right
        refine ⟨_, rfl, ?_⟩
        have hk := doCheck_keeps s1
        rw [work_forced (by rw [hk.2.1, hh.force]; exact hF)]
        exact ⟨hk.1.trans hh.ts, hk.2.1.trans hh.force, hk.2.2.1.trans hh.req⟩
  · cases hn : needed f (clk t) e (hour f (clk t) s) with
    | some w => exact .inl ⟨w, rfl⟩
    | none => exact absurd hn hh

theorem sched_passes {f : Fixed} {t0 F : Nat} (hF : F ≠ 0) (hF2 : F ≤ 300000) (l : List (Nat × Env)) : ∀ {s : St}, Sched t0 F s →
    (∃ w, run f s (passes l) = .restart w) ∨ ∃ s', run f s (passes l) = .on s' ∧ Sched t0 F s' := by
  induction l with
  | nil => intro s h; exact .inr ⟨s, rfl, h⟩
  | cons x l ih =>
    intro s h
    show (∃ w, (match pass f (clk x.1) x.2 s with | .on s' => run f s' (passes l) | .restart w => .restart w) = .restart w) ∨ ∃ s', (match pass f (clk x.1) x.2 s with | .on s' => run f s' (passes l) | .restart w => .restart w) = .on s' ∧ _
    rcases sched_pass (f := f) (t := x.1) (e := x.2) h hF hF2 with ⟨w, hw⟩ | ⟨s1, h1, h2⟩
    · rw [hw]
      exact .inl ⟨w, rfl⟩
    · rw [h1]
      exact ih h2

/-- The time after which a restart was asked for. -/
def after (n : Int) : Nat := if n ≤ 0 then 1 else n.toNat

theorem sched_schedule {t0 : Nat} {n : Int} {s : St} (h : s.req = .none) : Sched t0 (after n) (schedule (clk t0) n s) := ⟨rfl, rfl, h⟩

/-- A restart that was asked for happens, at the latest in the first pass after the time is over. -/
theorem restart_in_time (f : Fixed) (s : St) (hreq : s.req = .none) (t0 : Nat) (n : Int) (hn : n ≤ 300000)
    (l : List (Nat × Env)) (t : Nat) (e : Env) (ht : t0 + after n < t) (ht2 : t < t0 + 2 ^ 32) :
    ∃ w, run f s ((t0, .schedule n) :: passes (l ++ [(t, e)])) = .restart w := by
  have hF : after n ≠ 0 := by unfold after; split <;> omega
  have hF2 : after n ≤ 300000 := by unfold after; split <;> omega
  show ∃ w, run f (schedule (clk t0) n s) (passes (l ++ [(t, e)])) = .restart w
  unfold passes
  rw [List.map_append, run_append]
  rcases sched_passes (f := f) hF hF2 l (sched_schedule (t0 := t0) (n := n) hreq) with ⟨w, hw⟩ | ⟨s2, h1, h2⟩
  · have hw : run f (schedule (clk t0) n s) (List.map (fun x => (x.1, Op.pass x.2)) l) = .restart w := hw
    rw [hw]
    exact ⟨w, rfl⟩
  · have h1 : run f (schedule (clk t0) n s) (List.map (fun x => (x.1, Op.pass x.2)) l) = .on s2 := h1
    rw [h1]
    show ∃ w, (match pass f (clk t) e s2 with | .on s' => Out.on s' | .restart w => .restart w) = .restart w
    have hsin : since (clk t) (clk t0) = t - t0 := since_clk_eq t t0 (by omega) (by omega)
    have hne : ∃ w, pass f (clk t) e s2 = .restart w := by
      rcases sched_pass (f := f) (t := t) (e := e) h2 hF hF2 with hw | ⟨s3, h3, h4⟩
      · exact hw
      · unfold pass at h3
        split at h3
        · cases h3
        · rename_i hnn
          exfalso
          -- the scheduled time is over
          have key : needed f (clk t) e (hour f (clk t) s2) ≠ none := by
            have hs1 : (hour f (clk t) s2).force = after n ∧ ((hour f (clk t) s2).ts = clk t0 ∨
                ((hour f (clk t) s2).ts = 0 ∧ clk t > offTime)) := by
              unfold hour
              split
              · rename_i h0
                unfold leave
                split
                · exact ⟨h2.force, .inl h2.ts⟩
                · unfold setup
                  split
                  · exact ⟨h2.force, .inl h2.ts⟩
                  · split
                    · refine ⟨h2.force, .inr ⟨?_, h0.2⟩⟩
                      rename_i hm
                      unfold enterConfig
                      dsimp only
                      rw [if_pos hm]
                    · exact ⟨h2.force, .inl h2.ts⟩
              · exact ⟨h2.force, .inl h2.ts⟩
            unfold needed
            split
            · intro x; cases x
            · rw [if_pos]
              · intro x; cases x
              · refine ⟨by rw [hs1.1]; exact hF, ?_⟩
                rw [hs1.1]
                rcases hs1.2 with q | ⟨q, q2⟩
                · rw [q, hsin]
                  omega
                · rw [q]
                  have hl := clk_lt t
                  unfold offTime at q2
                  unfold since
                  omega
          exact key hnn
    obtain ⟨w, hw⟩ := hne
    rw [hw]
    exact ⟨w, rfl⟩

/-- It does not happen before, when nothing else asks for it. -/
theorem restart_not_early_partial (f : Fixed) (s : St) (hreq : s.req = .none) (hfac : s.factory = false) (hoff : s.off = 2)
    (t0 : Nat) (n : Int) (hn : n ≤ 300000) (l : List (Nat × Env)) (hl : ∀ x ∈ l, t0 ≤ x.1 ∧ x.1 ≤ t0 + after n)
    (hlim : f.limit ≠ 0 → s.notReady / 10 < f.limit ∧ ∀ x ∈ l, x.2.fail < f.limit) :
    ∃ s', run f s ((t0, .schedule n) :: passes l) = .on s' := by
  have hF : after n ≠ 0 := by unfold after; split <;> omega
  have hF2 : after n ≤ 300000 := by unfold after; split <;> omega
  show ∃ s', run f (schedule (clk t0) n s) (passes l) = .on s'
  have hs : Sched t0 (after n) (schedule (clk t0) n s) := sched_schedule hreq
  have h1 : (schedule (clk t0) n s).factory = false ∧ (schedule (clk t0) n s).off = 2 ∧ (f.limit ≠ 0 → (schedule (clk t0) n s).notReady / 10 < f.limit) :=
    ⟨hfac, hoff, fun x => (hlim x).1⟩
  generalize schedule (clk t0) n s = s1 at hs h1
  have hlim2 : f.limit ≠ 0 → ∀ x ∈ l, x.2.fail < f.limit := fun x => (hlim x).2
  clear hlim
  induction l generalizing s1 with
  | nil => exact ⟨s1, rfl⟩
  | cons x l ih =>
    have hx := hl x List.mem_cons_self
    have hsin : since (clk x.1) (clk t0) = x.1 - t0 := since_clk_eq x.1 t0 (by omega) (by omega)
    have hh : hour f (clk x.1) s1 = s1 := by
      unfold hour
      rw [if_neg (by rw [h1.2.1]; simp)]
    have hn : needed f (clk x.1) x.2 s1 = none := by
      unfold needed
      rw [hs.ts, hs.force, hsin, if_neg (by unfold cfgTime; omega), if_neg (by omega), if_neg]
      rintro ⟨q1, q2⟩
      have := h1.2.2 q1
      have := hlim2 q1 x List.mem_cons_self
      omega
    have hd : doRequest (clk x.1) s1 = s1 := by
      unfold doRequest
      rw [hs.req]
    have hk := doCheck_keeps s1
    have hp : pass f (clk x.1) x.2 s1 = .on (doCheck s1) := by
      unfold pass
      rw [hh, hn]
      dsimp only
      rw [hd, h1.1, if_neg (by decide), work_forced (by rw [hk.2.1, hs.force]; exact hF)]
    show ∃ s', (match pass f (clk x.1) x.2 s1 with | .on s' => run f s' (passes l) | .restart w => .restart w) = .on s'
    rw [hp]
    refine ih (fun y hy => hl y (List.mem_cons_of_mem _ hy)) (doCheck s1) ?_ ?_ (fun q y hy => hlim2 q y (List.mem_cons_of_mem _ hy))
    · exact ⟨hk.1.trans hs.ts, hk.2.1.trans hs.force, hk.2.2.1.trans hs.req⟩
    · refine ⟨hk.2.2.2.2.1.trans h1.1, hk.2.2.2.1.trans h1.2.1, fun q => ?_⟩
      rw [hk.2.2.2.2.2.1]
      exact h1.2.2 q

/-- Never before the time that was asked for, whatever it is. -/
def NotEarly : Prop :=
  ∀ (s : St), s.req = .none → s.factory = false → s.off = 2 → ∀ (t0 : Nat) (n : Int) (l : List (Nat × Env)), n < 2 ^ 31 →
    (∀ x ∈ l, t0 ≤ x.1 ∧ x.1 ≤ t0 + after n) → ∃ s', run {} s ((t0, .schedule n) :: passes l) = .on s'

instance (o : Out) : Decidable (∃ s', o = .on s') :=
  match o with
  | .on s => .isTrue ⟨s, rfl⟩
  | .restart _ => .isFalse (fun h => by obtain ⟨_, h⟩ := h; cases h)

/-- A restart in ten minutes happens after five. -/
theorem restart_early_violation : ¬ NotEarly := by
  intro h
  have := h (start {} 0 .normal true) rfl rfl rfl 1000 600000 [(301001, {})] (by decide) (by decide)
  clear h
  revert this
  decide +kernel

example : run {} (start {} 0 .normal true) [(1000, .schedule 5000), (6000, .pass {})] ≠ .restart .asked ∧
    run {} (start {} 0 .normal true) [(1000, .schedule 5000), (6000, .pass {}), (6001, .pass {})] = .restart .asked := by decide +kernel

/-! ## Factory reset -/

/-- In time order, not before `t`. -/
def InOrder (t : Nat) : List (Nat × Op) → Prop
  | [] => True
  | x :: l => t ≤ x.1 ∧ InOrder x.1 l

/-- Not on the way to a factory reset: at time `t`, the configuration mode was entered at `T0` or later. -/
structure Safe (T0 t : Nat) (s : St) : Prop where
  ok : Ok s
  factory : s.factory = false
  entry : s.mode ≠ .config ∨ ∃ E, T0 ≤ E ∧ E ≤ t ∧ s.cfgTs = clk E

theorem safe_mono {T0 t t' : Nat} {s : St} (h : Safe T0 t s) (ht : t ≤ t') : Safe T0 t' s :=
  ⟨h.ok, h.factory, h.entry.imp id fun ⟨E, h1, h2, h3⟩ => ⟨E, h1, by omega, h3⟩⟩

theorem safe_enter {T0 t : Nat} {s : St} (h : Safe T0 t s) (ht : T0 ≤ t) : Safe T0 t (enterConfig (clk t) s) := by
  refine ⟨ok_enter h.ok, h.factory, .inr ?_⟩
  by_cases hz : s.cfgTs = 0
  · refine ⟨t, ht, Nat.le_refl _, ?_⟩
    unfold enterConfig
    dsimp only
    rw [if_pos hz]
  · rcases h.entry with hm | ⟨E, h1, h2, h3⟩
    · exact absurd (h.ok.off hm).2 hz
    · refine ⟨E, h1, h2, ?_⟩
      unfold enterConfig
      dsimp only
      rw [if_neg hz]
      exact h3

theorem safe_noTimeout {T0 t : Nat} {s : St} (h : Safe T0 t s) : Safe T0 t (noTimeout s) := by
  refine ⟨ok_noTimeout h.ok, ?_, ?_⟩
  · unfold noTimeout
    split <;> exact h.factory
  · unfold noTimeout
    split <;> exact h.entry

theorem safe_request {T0 t : Nat} {r : Req} {s : St} (h : Safe T0 t s) : Safe T0 t (request r s) := ⟨ok_request h.ok, h.factory, h.entry⟩

theorem safe_hour {f : Fixed} {T0 t : Nat} {s : St} (h : Safe T0 t s) (ht : T0 ≤ t) : Safe T0 t (hour f (clk t) s) := by
  refine ⟨ok_hour h.ok, ?_, ?_⟩
  · unfold hour leave setup
    repeat' split
    all_goals exact h.factory
  · unfold hour
    split
    · unfold leave
      split
      · exact .inl (by assumption)
      · unfold setup
        split
        · exact .inl (show Mode.normal ≠ .config by decide)
        · split
          · refine .inr ⟨t, ht, Nat.le_refl _, ?_⟩
            unfold enterConfig
            dsimp only
            rw [if_pos rfl]
          · exact .inl (by assumption)
    · exact h.entry

theorem safe_doRequest {T0 t : Nat} {s : St} (h : Safe T0 t s) (ht : T0 ≤ t) : Safe T0 t (doRequest (clk t) s) := by
  unfold doRequest
  split
  · exact h
  · exact safe_request (r := .none) (safe_enter h ht)
  · exact safe_request (r := .none) (safe_noTimeout (safe_enter h ht))

theorem safe_doCheck {T0 t : Nat} {s : St} (h : Safe T0 t s) : Safe T0 t (doCheck s) := by
  refine ⟨ok_doCheck h.ok, (doCheck_keeps s).2.2.2.2.1.trans h.factory, ?_⟩
  rcases h.entry with hm | ⟨E, h1, h2, h3⟩
  · left
    unfold doCheck
    split
    · show Mode.update ≠ .config
      decide
    · exact hm
  · exact .inr ⟨E, h1, h2, (doCheck_keeps s).2.2.2.2.2.2.trans h3⟩

theorem safe_network {T0 t : Nat} {e : Env} {s : St} (h : Safe T0 t s) : Safe T0 t (network e s).2 := by
  refine ⟨ok_network h.ok, ?_, ?_⟩
  all_goals (unfold network; repeat' split)
  all_goals first | exact h.factory | exact h.entry

theorem safe_update {now T0 t : Nat} {e : Env} {s : St} (h : Safe T0 t s) : Safe T0 t (update now e s) := by
  refine ⟨ok_update h.ok, ?_, ?_⟩
  · unfold update
    repeat' split
    all_goals exact h.factory
  · unfold update
    repeat' split
    all_goals first | exact h.entry | exact .inl (show Mode.normal ≠ .config by decide)

theorem safe_work {now T0 t : Nat} {e : Env} {s : St} (h : Safe T0 t s) : Safe T0 t (work now e s) := by
  have h2 : Safe T0 t { s with wait := 0, last := now } := ⟨⟨h.ok.off, h.ok.ts⟩, h.factory, h.entry⟩
  unfold work
  repeat' split
  all_goals first | exact h | exact h2 | exact safe_update (safe_network h2) | exact safe_network h2

theorem safe_action {f : Fixed} {T0 t : Nat} {a : Action} {s : St} (h : Safe T0 t s) (ha : a ≠ .factoryReset) (ht2 : t ≤ T0 + 2000) :
    Safe T0 t (action f (clk t) a s) := by
  refine ⟨ok_action h.ok, ?_, ?_⟩
  · cases a with
    | factoryReset => exact absurd rfl ha
    | enterOrReset =>
      unfold action
      dsimp only
      split
      · exact h.factory
      · rename_i hm
        rcases h.entry with q | ⟨E, h1, h2, h3⟩
        · exact absurd q hm
        · rw [if_neg]
          · exact h.factory
          · rw [h3]
            have := since_clk_le t E h2
            omega
    | _ =>
      unfold action
      dsimp only
      repeat' split
      all_goals exact h.factory
  · cases a
    all_goals (unfold action; dsimp only)
    all_goals repeat' split
    all_goals exact h.entry

/-- Whatever happens within two seconds after the device was last seen outside the configuration mode, without the
explicit action: no factory reset. -/
theorem no_reset_by_accident (f : Fixed) (T0 : Nat) (l : List (Nat × Op)) : ∀ (t : Nat) (s : St), Safe T0 t s → T0 ≤ t → InOrder t l →
    (∀ x ∈ l, x.1 ≤ T0 + 2000) → (∀ (x : Nat) (a : Action), (x, Op.action a) ∈ l → a ≠ .factoryReset) →
    run f s l ≠ .restart .factory ∧ ∀ s', run f s l = .on s' → s'.factory = false := by
  induction l with
  | nil =>
    intro t s h _ _ _ _
    refine ⟨fun x => (by cases x), fun s' hs => ?_⟩
    injection hs with hs
    exact hs ▸ h.factory
  | cons x l ih =>
    intro t s h ht hord hle hact
    obtain ⟨t1, op⟩ := x
    have hts : t ≤ t1 := hord.1
    have hT : T0 ≤ t1 := by omega
    have hT2 : t1 ≤ T0 + 2000 := hle (t1, op) List.mem_cons_self
    have h1 := safe_mono h hts
    have hrec : ∀ s1, Safe T0 t1 s1 → run f s1 l ≠ .restart .factory ∧ ∀ s', run f s1 l = .on s' → s'.factory = false :=
      fun s1 hs1 => ih t1 s1 hs1 hT hord.2 (fun y hy => hle y (List.mem_cons_of_mem _ hy)) (fun y a hy => hact y a (List.mem_cons_of_mem _ hy))
    show (match step f t1 op s with | .on s' => run f s' l | .restart w => .restart w) ≠ .restart .factory ∧
      ∀ s', (match step f t1 op s with | .on s' => run f s' l | .restart w => Out.restart w) = .on s' → s'.factory = false
    cases op with
    | pass e =>
      show (match pass f (clk t1) e s with | .on s' => run f s' l | .restart w => .restart w) ≠ .restart .factory ∧
        ∀ s', (match pass f (clk t1) e s with | .on s' => run f s' l | .restart w => Out.restart w) = .on s' → s'.factory = false
      have hd := safe_doRequest (safe_hour (f := f) h1 hT) hT
      unfold pass
      cases hn : needed f (clk t1) e (hour f (clk t1) s) with
      | some w =>
        dsimp only
        refine ⟨fun x => ?_, fun s' hs => (by cases hs)⟩
        injection x with x
        subst x
        unfold needed at hn
        repeat' split at hn
        all_goals cases hn
      | none =>
        dsimp only
        rw [hd.factory, if_neg (by decide)]
        exact hrec _ (safe_work (safe_doCheck hd))
    | action a => exact hrec _ (safe_action h1 (hact t1 a List.mem_cons_self) hT2)
    | server => exact hrec _ (safe_request h1)
    | visit => exact hrec _ (safe_noTimeout h1)
    | schedule n => exact hrec _ ⟨ok_schedule h1.ok, h1.factory, h1.entry⟩
    | powerCycles => exact hrec _ (safe_enter h1 hT)

example : Safe 5000 5000 (start {} 0 .normal true) ∧
    InOrder 5000 [(5001, .action .enterOrReset), (5002, .pass {}), (7000, .action .enterOrReset), (7000, .pass {})] :=
  ⟨⟨ok_start _ _ _ _, rfl, .inl (by decide)⟩, by simp [InOrder]⟩

/-- Two presses, more than two seconds apart, do it. -/
example : run {} (start {} 0 .normal true)
    [(5001, .action .enterOrReset), (5002, .pass {}), (7003, .action .enterOrReset), (7003, .pass {})] = .restart .factory := by
  decide +kernel

/-- An explicit factory reset is done in the next pass, when no restart for another reason is due in it. -/
theorem reset_when_asked_partial (f : Fixed) (s : St) (t0 t : Nat) (e : Env) (h : needed f (clk t) e (hour f (clk t) s) = none) :
    run f s [(t0, .action .factoryReset), (t, .pass e)] = .restart .factory := by
  show (match pass f (clk t) e { s with factory := true } with | .on s' => Out.on s' | .restart w => .restart w) = _
  have hh : hour f (clk t) { s with factory := true } = { hour f (clk t) s with factory := true } := by
    unfold hour
    by_cases hc : s.off = 0 ∧ clk t > offTime
    · rw [if_pos hc, if_pos hc]
      unfold leave
      by_cases hm : s.mode ≠ .config
      · rw [if_pos hm, if_pos hm]
      · rw [if_neg hm, if_neg hm]
        unfold setup
        have hg : goesOffline f { s with factory := true, off := 1, cfgTs := 0, web := false } =
            goesOffline f { s with off := 1, cfgTs := 0, web := false } := rfl
        dsimp only
        rw [hg]
        have hm := Decidable.not_not.mp hm
        split
        · rfl
        · rfl
    · rw [if_neg hc, if_neg hc]
  have hn : needed f (clk t) e { hour f (clk t) s with factory := true } = none := by rw [← h]; rfl
  have hp : pass f (clk t) e { s with factory := true } = .restart .factory := by
    unfold pass
    rw [hh, hn]
    dsimp only
    rw [if_pos]
    unfold doRequest
    split
    · rfl
    · rfl
    · unfold noTimeout
      split <;> rfl
  rw [hp]

/-- An explicit factory reset is done. -/
def ResetWhenAsked : Prop :=
  ∀ (l : List (Nat × Op)) (s : St) (t0 t : Nat), run {} (start {} 0 .normal true) l = .on s →
    run {} s [(t0, .action .factoryReset), (t, .pass {})] = .restart .factory

/-- With the restart due in the same pass, the device restarts and keeps its configuration. -/
theorem reset_lost_violation : ¬ ResetWhenAsked := by
  intro h
  have := h [(1000, .server), (1000, .pass {})] (match run {} (start {} 0 .normal true) [(1000, .server), (1000, .pass {})] with | .on s => s | .restart _ => {}) 301000 301001 (by decide +kernel)
  clear h
  revert this
  decide +kernel

end Verif.Life
