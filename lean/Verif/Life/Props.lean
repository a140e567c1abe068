import Verif.Life.Model

/-!
# Device modes, restarts, factory reset: properties
-/

namespace Verif.Life

/-- Passes only. -/
def passes (l : List (Nat × Env)) : List (Nat × Op) := l.map fun x => (x.1, .pass x.2)

theorem run_append (f : Fixed) (l m : List (Nat × Op)) : ∀ s, run f s (l ++ m) =
    match run f s l with
    | .on s' => run f s' m
    | .restart w => .restart w := by
  induction l with
  | nil => intro s; rfl
  | cons x l ih =>
    intro s
    obtain ⟨t, op⟩ := x
    show (match step f t op s with | .on s' => run f s' (l ++ m) | .restart w => .restart w) = _
    show _ = (match (match step f t op s with | .on s' => run f s' l | .restart w => Out.restart w) with | .on s' => run f s' m | .restart w => .restart w)
    cases step f t op s with
    | on s' => exact ih s'
    | restart w => rfl

/-! ## Invariant -/

/-- Outside the configuration mode the hour is over and no entry is remembered; a restart time without a forced restart
exists only in a configuration mode that was entered from another mode. -/
structure Ok (s : St) : Prop where
  off : s.mode ≠ .config → s.off = 2 ∧ s.cfgTs = 0
  ts : s.force = 0 → s.mode ≠ .config ∨ s.off ≠ 2 → s.ts = 0

theorem ok_setup {f : Fixed} {now : Nat} {s : St} (hc : s.mode = .config → s.ts = 0 ∨ s.force ≠ 0)
    (hn : s.mode ≠ .config → s.ts = 0 ∨ s.force ≠ 0) (h0 : s.cfgTs = 0) : Ok (setup f now s) := by
  unfold setup
  split
  · have hm : s.mode = .config := by
      rename_i h
      unfold goesOffline at h
      simp at h
      exact h.1
    exact ⟨fun _ => ⟨rfl, h0⟩, fun hf _ => (hc hm).resolve_right (fun x => x hf)⟩
  · split
    · rename_i hm
      exact ⟨fun x => absurd rfl x, fun hf _ => by unfold enterConfig; simp [hm]⟩
    · rename_i hm
      exact ⟨fun _ => ⟨rfl, h0⟩, fun hf _ => (hn hm).resolve_right (fun x => x hf)⟩

theorem ok_start (f : Fixed) (now : Nat) (m : Mode) (c : Bool) : Ok (start f now m c) :=
  ok_setup (fun _ => .inl rfl) (fun _ => .inl rfl) rfl

theorem ok_enter {now : Nat} {s : St} (h : Ok s) : Ok (enterConfig now s) := by
  refine ⟨fun x => absurd rfl x, fun hf hx => ?_⟩
  rcases hx with hx | hx
  · exact absurd rfl hx
  · unfold enterConfig at *
    dsimp only at *
    by_cases hm : s.mode = .config
    · rw [if_pos hm]
    · exact absurd (h.off hm).1 hx

theorem ok_noTimeout {s : St} (h : Ok s) : Ok (noTimeout s) := by
  unfold noTimeout
  split
  · exact ⟨fun hm => ⟨rfl, (h.off hm).2⟩, fun _ _ => rfl⟩
  · exact h

theorem ok_schedule {now : Nat} {n : Int} {s : St} (h : Ok s) : Ok (schedule now n s) := by
  refine ⟨h.off, fun hf => ?_⟩
  exfalso
  unfold schedule at hf
  dsimp only at hf
  split at hf <;> omega

theorem ok_request {r : Req} {s : St} (h : Ok s) : Ok (request r s) := ⟨h.off, h.ts⟩

theorem ok_action {f : Fixed} {now : Nat} {a : Action} {s : St} (h : Ok s) : Ok (action f now a s) := by
  unfold action
  repeat' split
  all_goals first | exact ok_schedule h | exact ok_request h | exact h | exact ⟨h.off, h.ts⟩

theorem ok_hour {f : Fixed} {now : Nat} {s : St} (h : Ok s) : Ok (hour f now s) := by
  unfold hour
  split
  · rename_i h0
    have hm : s.mode = .config := by
      apply Decidable.byContradiction
      intro hm
      have := (h.off hm).1
      omega
    unfold leave
    rw [if_neg (by simp [hm])]
    refine ok_setup (fun _ => ?_) (fun x => absurd hm x) rfl
    by_cases hf : s.force = 0
    · exact .inl (h.ts hf (.inr (by omega)))
    · exact .inr hf
  · exact h

theorem ok_doRequest {now : Nat} {s : St} (h : Ok s) : Ok (doRequest now s) := by
  unfold doRequest
  split
  · exact h
  · exact ok_request (ok_enter h)
  · exact ok_request (ok_noTimeout (ok_enter h))

theorem ok_mode {s : St} (h : Ok s) {m : Mode} (hs : s.mode ≠ .config) (c : Bool) (st : Bool) :
    Ok { s with mode := m, check := c, started := st } :=
  ⟨fun _ => h.off hs, fun hf _ => h.ts hf (.inl hs)⟩

theorem ok_doCheck {s : St} (h : Ok s) : Ok (doCheck s) := by
  unfold doCheck
  split
  · refine ⟨fun hm => ?_, fun hf hx => ?_⟩
    · have : s.mode ≠ .config := by
        intro x
        apply hm
        dsimp only
        rw [if_neg (by simp [x])]
        exact x
      exact h.off this
    · by_cases hm : s.mode = .config
      · apply h.ts hf
        rcases hx with hx | hx
        · left
          intro x
          apply hx
          dsimp only
          rw [if_neg (by simp [x])]
          exact x
        · exact .inr hx
      · exact h.ts hf (.inl hm)
  · exact h

theorem ok_network {e : Env} {s : St} (h : Ok s) : Ok (network e s).2 := by
  unfold network
  repeat' split
  all_goals first | exact h | exact ⟨h.off, h.ts⟩

theorem ok_update {now : Nat} {e : Env} {s : St} (h : Ok s) : Ok (update now e s) := by
  unfold update
  split
  · exact h
  · rename_i hm
    have hm : s.mode ≠ .config := by
      have : s.mode = .update := Decidable.not_not.mp hm
      rw [this]
      decide
    split
    · exact ⟨fun _ => h.off hm, fun hf _ => h.ts hf (.inl hm)⟩
    · split
      · exact ⟨h.off, h.ts⟩
      · split
        · exact ⟨fun _ => h.off hm, fun hf _ => h.ts hf (.inl hm)⟩
        · refine ⟨fun _ => h.off hm, fun hf => ?_⟩
          exfalso
          revert hf
          show ¬ (1 : Nat) = 0
          decide
        · exact h

theorem ok_work {now : Nat} {e : Env} {s : St} (h : Ok s) : Ok (work now e s) := by
  have h2 : Ok { s with wait := 0, last := now } := ⟨h.off, h.ts⟩
  unfold work
  repeat' split
  all_goals first | exact h | exact h2 | exact ok_update (ok_network h2) | exact ok_network h2

theorem ok_step {f : Fixed} {t : Nat} {op : Op} {s s' : St} (h : Ok s) (hs : step f t op s = .on s') : Ok s' := by
  cases op with
  | pass e =>
    unfold step pass at hs
    dsimp only at hs
    split at hs
    · cases hs
    · split at hs
      · cases hs
      · injection hs with hs
        subst hs
        exact ok_work (ok_doCheck (ok_doRequest (ok_hour h)))
  | action a => injection hs with hs; subst hs; exact ok_action h
  | server => injection hs with hs; subst hs; exact ok_request h
  | visit => injection hs with hs; subst hs; exact ok_noTimeout h
  | schedule n => injection hs with hs; subst hs; exact ok_schedule h
  | powerCycles => injection hs with hs; subst hs; exact ok_enter h

/-- Every state that the device reaches. -/
theorem ok_run (f : Fixed) (l : List (Nat × Op)) : ∀ (s s' : St), Ok s → run f s l = .on s' → Ok s' := by
  induction l with
  | nil => intro s s' h hr; injection hr with hr; exact hr ▸ h
  | cons x l ih =>
    intro s s' h hr
    obtain ⟨t, op⟩ := x
    unfold run at hr
    split at hr
    · rename_i s1 hs
      exact ih s1 s' (ok_step h hs) hr
    · cases hr

/-! ## Configuration mode -/

/-- In the configuration mode, waiting. -/
structure Waiting (f : Fixed) (ts : Nat) (s : St) : Prop where
  mode : s.mode = .config
  ts : s.ts = ts
  force : s.force = 0
  off : s.off = 2
  req : s.req = .none
  factory : s.factory = false
  web : s.web = true
  net : f.limit ≠ 0 → s.notReady / 10 < f.limit

/-- A pass in the configuration mode changes nothing that matters. -/
theorem waiting_pass {f : Fixed} {ts t : Nat} {e : Env} {s : St} (h : Waiting f ts s) (hts : ts = 0 ∨ since (clk t) ts ≤ cfgTime)
    (he : f.limit ≠ 0 → e.fail < f.limit) : ∃ s', pass f (clk t) e s = .on s' ∧ Waiting f ts s' := by
  have hh : hour f (clk t) s = s := by
    unfold hour
    rw [if_neg (by rw [h.off]; simp)]
  have hn : needed f (clk t) e s = none := by
    unfold needed
    rw [if_neg (by rw [h.ts]; rcases hts with x | x; exact fun y => y.1 x; exact fun y => absurd y.2 (by omega)),
      if_neg (by rw [h.force]; simp), if_neg]
    rintro ⟨h1, h2⟩
    have := h.net h1
    have := he h1
    omega
  have hr : doRequest (clk t) s = s := by
    unfold doRequest
    rw [h.req]
  unfold pass
  rw [hh, hn]
  dsimp only
  rw [hr, h.factory, if_neg (by decide)]
  refine ⟨_, rfl, ?_⟩
  have hc : ∃ c, doCheck s = { s with check := c } := by
    unfold doCheck
    split
    · refine ⟨false, ?_⟩
      rw [if_neg (by simp [h.mode])]
    · exact ⟨s.check, rfl⟩
  obtain ⟨c, hc⟩ := hc
  rw [hc]
  have hw : Waiting f ts { s with check := c } := ⟨h.mode, h.ts, h.force, h.off, h.req, h.factory, h.web, h.net⟩
  generalize ({ s with check := c } : St) = s1 at hw
  unfold work
  rw [if_neg (by rw [hw.force]; simp)]
  split
  · exact hw
  · have hw2 : Waiting f ts { s1 with wait := 0, last := clk t } := ⟨hw.mode, hw.ts, hw.force, hw.off, hw.req, hw.factory, hw.web, hw.net⟩
    split
    · exact hw2
    · have hnet : network e { s1 with wait := 0, last := clk t } = (true, { s1 with wait := 0, last := clk t }) := by
        unfold network
        rw [if_pos hw2.mode]
      rw [hnet, if_pos rfl]
      unfold update
      dsimp only
      rw [if_pos (by rw [hw.mode]; decide)]
      exact hw2

theorem waiting_passes {f : Fixed} {ts : Nat} (l : List (Nat × Env)) : ∀ {s : St}, Waiting f ts s →
    (∀ x ∈ l, (ts = 0 ∨ since (clk x.1) ts ≤ cfgTime) ∧ (f.limit ≠ 0 → x.2.fail < f.limit)) →
    ∃ s', run f s (passes l) = .on s' ∧ Waiting f ts s' := by
  induction l with
  | nil => intro s h _; exact ⟨s, rfl, h⟩
  | cons x l ih =>
    intro s h hl
    have hx := hl x List.mem_cons_self
    obtain ⟨s1, h1, h2⟩ := waiting_pass (t := x.1) h hx.1 hx.2
    obtain ⟨s2, h3, h4⟩ := ih h2 (fun y hy => hl y (List.mem_cons_of_mem _ hy))
    refine ⟨s2, ?_, h4⟩
    show (match pass f (clk x.1) x.2 s with | .on s' => run f s' (passes l) | .restart w => .restart w) = _
    rw [h1]
    exact h3

/-- The pass that enters the configuration mode. -/
theorem enter_pass {f : Fixed} {t : Nat} {e : Env} {s : St} (h : Ok s) (hm : s.mode ≠ .config) (hf : s.force = 0)
    (hfac : s.factory = false) (hlim : f.limit ≠ 0 → e.fail < f.limit ∧ s.notReady / 10 < f.limit) :
    (s.req = .withTimeout → ∃ s', pass f (clk t) e s = .on s' ∧ Waiting f (clk t) s') ∧
    (s.req = .withoutTimeout → ∃ s', pass f (clk t) e s = .on s' ∧ Waiting f 0 s') := by
  have hoff := (h.off hm).1
  have hts := h.ts hf (.inl hm)
  have hh : hour f (clk t) s = s := by
    unfold hour
    rw [if_neg (by rw [hoff]; simp)]
  have hn : needed f (clk t) e s = none := by
    unfold needed
    rw [if_neg (by rw [hts]; simp), if_neg (by rw [hf]; simp), if_neg]
    rintro ⟨h1, h2⟩
    have := hlim h1
    omega
  have fin : ∀ (ts : Nat) (s1 : St), Waiting f ts s1 → ∃ s', Out.on (work (clk t) e (doCheck s1)) = .on s' ∧ Waiting f ts s' := by
    intro ts s1 hw
    refine ⟨_, rfl, ?_⟩
    have hc : Waiting f ts (doCheck s1) := by
      unfold doCheck
      split
      · refine ⟨?_, hw.ts, hw.force, hw.off, hw.req, hw.factory, hw.web, hw.net⟩
        dsimp only
        rw [if_neg (by simp [hw.mode])]
        exact hw.mode
      · exact hw
    generalize doCheck s1 = s2 at hc
    unfold work
    rw [if_neg (by rw [hc.force]; simp)]
    split
    · exact hc
    · have hw2 : Waiting f ts { s2 with wait := 0, last := clk t } := ⟨hc.mode, hc.ts, hc.force, hc.off, hc.req, hc.factory, hc.web, hc.net⟩
      split
      · exact hw2
      · have hnet : network e { s2 with wait := 0, last := clk t } = (true, { s2 with wait := 0, last := clk t }) := by
          unfold network
          rw [if_pos hw2.mode]
        rw [hnet, if_pos rfl]
        unfold update
        dsimp only
        rw [if_pos (by rw [hc.mode]; decide)]
        exact hw2
  constructor
  · intro hr
    unfold pass
    rw [hh, hn]
    dsimp only
    have hd : doRequest (clk t) s = { enterConfig (clk t) s with req := .none } := by
      unfold doRequest
      rw [hr]
    rw [hd]
    have hfac' : ({ enterConfig (clk t) s with req := .none } : St).factory = false := hfac
    rw [hfac', if_neg (by decide)]
    refine fin _ _ ⟨rfl, ?_, hf, hoff, rfl, hfac, rfl, fun x => (hlim x).2⟩
    show (if s.mode = .config then 0 else clk t) = clk t
    rw [if_neg hm]
  · intro hr
    unfold pass
    rw [hh, hn]
    dsimp only
    have hd : doRequest (clk t) s = { noTimeout (enterConfig (clk t) s) with req := .none } := by
      unfold doRequest
      rw [hr]
    have hd2 : noTimeout (enterConfig (clk t) s) = { enterConfig (clk t) s with ts := 0, off := 2 } := by
      unfold noTimeout
      rw [if_pos (show (enterConfig (clk t) s).force = 0 from hf)]
    rw [hd, hd2]
    have hfac' : ({ enterConfig (clk t) s with ts := 0, off := 2, req := .none } : St).factory = false := hfac
    rw [hfac', if_neg (by decide)]
    exact fin _ _ ⟨rfl, rfl, hf, rfl, rfl, hfac, rfl, fun x => (hlim x).2⟩

/-- A configuration mode that the server asked for is there, with its web page, for five minutes... -/
theorem remote_config_stays (f : Fixed) (s : St) (h : Ok s) (hm : s.mode ≠ .config) (hf : s.force = 0) (hfac : s.factory = false)
    (t1 : Nat) (e1 : Env) (l : List (Nat × Env)) (hl : ∀ x ∈ l, t1 ≤ x.1 ∧ x.1 ≤ t1 + 300000)
    (hlim : f.limit ≠ 0 → s.notReady / 10 < f.limit ∧ ∀ x ∈ (t1, e1) :: l, x.2.fail < f.limit) :
    ∃ s', run f s ((t1, .server) :: passes ((t1, e1) :: l)) = .on s' ∧ s'.mode = .config ∧ s'.web = true := by
  have h2 : Ok (request .withTimeout s) := ok_request h
  obtain ⟨s1, q1, q2⟩ := (enter_pass (t := t1) (e := e1) (f := f) (s := request .withTimeout s) h2 hm hf hfac
    (fun x => ⟨(hlim x).2 _ List.mem_cons_self, (hlim x).1⟩)).1 rfl
  obtain ⟨s2, q3, q4⟩ := waiting_passes l q2 (by
    intro x hx
    refine ⟨.inr ?_, fun hh => (hlim hh).2 _ (List.mem_cons_of_mem _ hx)⟩
    have := hl x hx
    have := since_clk_le x.1 t1 (by omega)
    unfold cfgTime
    omega)
  refine ⟨s2, ?_, q4.mode, q4.web⟩
  show (match pass f (clk t1) e1 (request .withTimeout s) with | .on s' => run f s' (passes l) | .restart w => .restart w) = _
  rw [q1]
  exact q3

/-- ... and then ends with a restart, when nobody opens the page (a visit would be an operation of its own here). -/
theorem remote_config_ends (f : Fixed) (s : St) (h : Ok s) (hm : s.mode ≠ .config) (hf : s.force = 0) (hfac : s.factory = false)
    (t1 : Nat) (h1 : clk t1 ≠ 0) (e1 : Env) (l : List (Nat × Env)) (hl : ∀ x ∈ l, t1 ≤ x.1 ∧ x.1 ≤ t1 + 300000)
    (hlim : f.limit ≠ 0 → s.notReady / 10 < f.limit ∧ ∀ x ∈ (t1, e1) :: l, x.2.fail < f.limit)
    (t : Nat) (e : Env) (ht : t1 + 300000 < t) (ht2 : t < t1 + 2 ^ 32) :
    run f s ((t1, .server) :: passes ((t1, e1) :: l ++ [(t, e)])) = .restart .timeout := by
  have h2 : Ok (request .withTimeout s) := ok_request h
  obtain ⟨s1, q1, q2⟩ := (enter_pass (t := t1) (e := e1) (f := f) (s := request .withTimeout s) h2 hm hf hfac
    (fun x => ⟨(hlim x).2 _ List.mem_cons_self, (hlim x).1⟩)).1 rfl
  obtain ⟨s2, q3, q4⟩ := waiting_passes l q2 (by
    intro x hx
    refine ⟨.inr ?_, fun hh => (hlim hh).2 _ (List.mem_cons_of_mem _ hx)⟩
    have := hl x hx
    have := since_clk_le x.1 t1 (by omega)
    unfold cfgTime
    omega)
  show (match pass f (clk t1) e1 (request .withTimeout s) with | .on s' => run f s' (passes (l ++ [(t, e)])) | .restart w => .restart w) = _
  rw [q1]
  show run f s1 (passes (l ++ [(t, e)])) = _
  unfold passes
  rw [List.map_append, run_append]
  have q3 : run f s1 (List.map (fun x => (x.1, Op.pass x.2)) l) = .on s2 := q3
  rw [q3]
  show (match pass f (clk t) e s2 with | .on s' => Out.on s' | .restart w => .restart w) = _
  have hp : pass f (clk t) e s2 = .restart .timeout := by
    unfold pass
    have hh : hour f (clk t) s2 = s2 := by
      unfold hour
      rw [if_neg (by rw [q4.off]; simp)]
    have hn : needed f (clk t) e s2 = some .timeout := by
      unfold needed
      rw [if_pos]
      rw [q4.ts, since_clk_eq t t1 (by omega) (by omega)]
      unfold cfgTime
      exact ⟨h1, by omega⟩
    rw [hh, hn]
  rw [hp]

example : Ok (start {} 0 .normal true) ∧ (start {} 0 .normal true).mode ≠ .config ∧ (start {} 0 .normal true).force = 0 ∧
    (start {} 0 .normal true).factory = false := ⟨ok_start _ _ _ _, by decide, by decide, by decide⟩

/-- A configuration mode that was entered with the button stays. -/
theorem button_config_stays (f : Fixed) (s : St) (h : Ok s) (hm : s.mode ≠ .config) (hf : s.force = 0) (hfac : s.factory = false)
    (a : Action) (ha : a = .enterConfig ∨ a = .toggleConfig ∨ a = .enterOrReset) (t0 t1 : Nat) (e1 : Env) (l : List (Nat × Env))
    (hlim : f.limit ≠ 0 → s.notReady / 10 < f.limit ∧ ∀ x ∈ (t1, e1) :: l, x.2.fail < f.limit) :
    ∃ s', run f s ((t0, .action a) :: passes ((t1, e1) :: l)) = .on s' ∧ s'.mode = .config ∧ s'.web = true := by
  have hact : action f (clk t0) a s = request .withoutTimeout s := by
    rcases ha with rfl | rfl | rfl <;> (unfold action; dsimp only; rw [if_pos hm])
  have h2 : Ok (request .withoutTimeout s) := ok_request h
  obtain ⟨s1, q1, q2⟩ := (enter_pass (t := t1) (e := e1) (f := f) (s := request .withoutTimeout s) h2 hm hf hfac
    (fun x => ⟨(hlim x).2 _ List.mem_cons_self, (hlim x).1⟩)).2 rfl
  obtain ⟨s2, q3, q4⟩ := waiting_passes l q2 (fun x hx => ⟨.inl rfl, fun hh => (hlim hh).2 _ (List.mem_cons_of_mem _ hx)⟩)
  refine ⟨s2, ?_, q4.mode, q4.web⟩
  show (match step f t0 (.action a) s with | .on s' => run f s' (passes ((t1, e1) :: l)) | .restart w => .restart w) = _
  show run f (action f (clk t0) a s) _ = _
  rw [hact]
  show (match pass f (clk t1) e1 (request .withoutTimeout s) with | .on s' => run f s' (passes l) | .restart w => .restart w) = _
  rw [q1]
  exact q3

/-- A visit of the page keeps a configuration mode that the server asked for. -/
theorem visited_config_stays (f : Fixed) (ts : Nat) (s : St) (h : Waiting f ts s) (t0 : Nat) (l : List (Nat × Env))
    (hlim : f.limit ≠ 0 → ∀ x ∈ l, x.2.fail < f.limit) :
    ∃ s', run f s ((t0, .visit) :: passes l) = .on s' ∧ s'.mode = .config := by
  have hv : noTimeout s = { s with ts := 0, off := 2 } := by
    unfold noTimeout
    rw [if_pos h.force]
  obtain ⟨s2, q3, q4⟩ := waiting_passes (f := f) (ts := 0) (s := noTimeout s) l
    (by rw [hv]; exact ⟨h.mode, rfl, h.force, rfl, h.req, h.factory, h.web, h.net⟩)
    (fun x hx => ⟨.inl rfl, fun hh => hlim hh x hx⟩)
  exact ⟨s2, q3, q4.mode⟩

end Verif.Life
