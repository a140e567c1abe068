import Verif.Life.Reset

/-!
# Restart without connection, device without configuration, findings
-/

namespace Verif.Life

/-! ## Restart without connection -/

/-- The network is not looked at any more: configuration or offline mode. -/
def Apart (s : St) : Prop := s.mode = .config ∨ s.skip = true

/-- At time `t`: the counter is bounded by the time since `T`. -/
structure Quiet (T t : Nat) (s : St) : Prop where
  cnt : s.notReady * 100 ≤ t - T + 100
  gap : Apart s ∨ s.notReady = 0 ∨ (s.wait = 100 ∧ ∃ u, T ≤ u ∧ u ≤ t ∧ s.last = clk u ∧ s.notReady * 100 ≤ u - T + 100)

theorem quiet_mono {T t t' : Nat} {s : St} (h : Quiet T t s) (ht : t ≤ t') : Quiet T t' s := by
  refine ⟨by have := h.cnt; omega, ?_⟩
  rcases h.gap with q | q | ⟨q, u, h1, h2, h3, h4⟩
  · exact .inl q
  · exact .inr (.inl q)
  · exact .inr (.inr ⟨q, u, h1, by omega, h3, h4⟩)

/-- Steps that leave the network fields alone and keep an apart device apart. -/
theorem quiet_keep {T t : Nat} {s s' : St} (h : Quiet T t s) (h1 : s'.notReady = s.notReady) (h2 : s'.wait = s.wait)
    (h3 : s'.last = s.last) (h4 : Apart s → Apart s') : Quiet T t s' := by
  refine ⟨by rw [h1]; exact h.cnt, ?_⟩
  rw [h1, h2, h3]
  rcases h.gap with q | q
  · exact .inl (h4 q)
  · exact .inr q

theorem quiet_enter {T t now : Nat} {s : St} (h : Quiet T t s) : Quiet T t (enterConfig now s) :=
  quiet_keep h rfl rfl rfl fun _ => .inl rfl

theorem quiet_noTimeout {T t : Nat} {s : St} (h : Quiet T t s) : Quiet T t (noTimeout s) := by
  unfold noTimeout
  split
  · exact quiet_keep h rfl rfl rfl id
  · exact h

theorem quiet_hour {f : Fixed} {T t now : Nat} {s : St} (h : Quiet T t s) : Quiet T t (hour f now s) := by
  unfold hour leave setup
  repeat' split
  · exact quiet_keep h rfl rfl rfl id
  · exact quiet_keep h rfl rfl rfl fun _ => .inr rfl
  · exact quiet_keep h rfl rfl rfl fun _ => .inl rfl
  · exact quiet_keep h rfl rfl rfl id
  · exact h

theorem quiet_doRequest {T t now : Nat} {s : St} (h : Quiet T t s) : Quiet T t (doRequest now s) := by
  unfold doRequest
  split
  · exact h
  · exact quiet_keep (quiet_enter (now := now) h) rfl rfl rfl id
  · exact quiet_keep (quiet_noTimeout (quiet_enter (now := now) h)) rfl rfl rfl id

theorem quiet_doCheck {T t : Nat} {s : St} (h : Quiet T t s) : Quiet T t (doCheck s) := by
  unfold doCheck
  split
  · refine quiet_keep h rfl rfl rfl fun q => ?_
    rcases q with q | q
    · left
      show (if s.mode ≠ .config then Mode.update else s.mode) = .config
      rw [if_neg (by simp [q])]
      exact q
    · exact .inr q
  · exact h

theorem quiet_action {f : Fixed} {T t now : Nat} {a : Action} {s : St} (h : Quiet T t s) : Quiet T t (action f now a s) := by
  cases a
  all_goals (unfold action; dsimp only)
  all_goals repeat' split
  all_goals first | exact h | exact quiet_keep h rfl rfl rfl id

theorem quiet_update {now T t : Nat} {e : Env} {s : St} (h : Quiet T t s) : Quiet T t (update now e s) := by
  unfold update
  split
  · exact h
  · rename_i hm
    have hm : s.mode = .update := Decidable.not_not.mp hm
    have ha : ∀ (m : Mode), Apart s → (m = .config ∨ s.skip = true) := by
      intro m q
      rcases q with q | q
      · rw [hm] at q
        cases q
      · exact .inr q
    split
    · exact quiet_keep h rfl rfl rfl (ha _)
    · split
      · exact quiet_keep h rfl rfl rfl (ha _)
      · split
        · exact quiet_keep h rfl rfl rfl (ha _)
        · exact quiet_keep h rfl rfl rfl (ha _)
        · exact h

theorem quiet_work {T t : Nat} {e : Env} {s : St} (h : Quiet T t s) (hT : T ≤ t) (hs : t < T + 2 ^ 32) : Quiet T t (work (clk t) e s) := by
  unfold work
  split
  · exact h
  · split
    · exact h
    · rename_i hw
      split
      · rename_i hk
        refine ⟨h.cnt, .inl (.inr hk)⟩
      · rename_i hk
        have hnet : Quiet T t (network e { s with wait := 0, last := clk t }).2 := by
          unfold network
          split
          · rename_i hm
            exact ⟨h.cnt, .inl (.inl hm)⟩
          · rename_i hm
            split
            · exact ⟨by show 0 * 100 ≤ _; omega, .inr (.inl rfl)⟩
            · have hb : (s.notReady + 1) * 100 ≤ t - T + 100 := by
                rcases h.gap with q | q | ⟨q, u, h1, h2, h3, h4⟩
                · rcases q with q | q
                  · exact absurd q hm
                  · exact absurd q hk
                · rw [q]
                  omega
                · have hsin := since_clk_eq t u h2 (by omega)
                  have : ¬ since (clk t) s.last < 100 := fun x => hw ⟨by rw [q]; decide, by rw [q]; exact x⟩
                  rw [h3, hsin] at this
                  omega
              exact ⟨hb, .inr (.inr ⟨rfl, t, hT, Nat.le_refl _, rfl, hb⟩)⟩
        split
        · exact quiet_update hnet
        · exact hnet

/-- Whatever happens: no restart because of a missing network before the limit is over, when the last time it was ready
(or the start of the device) was at `T`. The protocols have not given up either. -/
theorem no_early_connection_reset (f : Fixed) (T : Nat) (hL : 1000 * f.limit < 2 ^ 32) (l : List (Nat × Op)) : ∀ (t : Nat) (s : St),
    Quiet T t s → T ≤ t → InOrder t l → (∀ x ∈ l, x.1 + 100 < T + 1000 * f.limit) →
    (∀ (x : Nat) (e : Env), (x, Op.pass e) ∈ l → e.fail < f.limit) → run f s l ≠ .restart .connection := by
  induction l with
  | nil => intro t s _ _ _ _ _ x; cases x
  | cons x l ih =>
    intro t s h ht hord hle hfail
    obtain ⟨t1, op⟩ := x
    have hts : t ≤ t1 := hord.1
    have hT : T ≤ t1 := by omega
    have hT2 : t1 + 100 < T + 1000 * f.limit := hle (t1, op) List.mem_cons_self
    have h1 := quiet_mono h hts
    have hrec : ∀ s1, Quiet T t1 s1 → run f s1 l ≠ .restart .connection :=
      fun s1 hs1 => ih t1 s1 hs1 hT hord.2 (fun y hy => hle y (List.mem_cons_of_mem _ hy)) (fun y a hy => hfail y a (List.mem_cons_of_mem _ hy))
    show (match step f t1 op s with | .on s' => run f s' l | .restart w => .restart w) ≠ .restart .connection
    cases op with
    | pass e =>
      show (match pass f (clk t1) e s with | .on s' => run f s' l | .restart w => .restart w) ≠ .restart .connection
      have hh := quiet_hour (f := f) (now := clk t1) h1
      unfold pass
      cases hn : needed f (clk t1) e (hour f (clk t1) s) with
      | some w =>
        dsimp only
        intro x
        injection x with x
        subst x
        unfold needed at hn
        split at hn
        · cases hn
        · split at hn
          · cases hn
          · split at hn
            · rename_i hc
              have := hfail t1 e List.mem_cons_self
              have := hh.cnt
              rcases hc.2 with q | q <;> omega
            · cases hn
      | none =>
        dsimp only
        by_cases hq : (doRequest (clk t1) (hour f (clk t1) s)).factory = true
        · rw [if_pos hq]
          intro x
          cases x
        · rw [if_neg hq]
          exact hrec _ (quiet_work (quiet_doCheck (quiet_doRequest hh)) hT (by omega))
    | action a => exact hrec _ (quiet_action h1)
    | server => exact hrec _ (quiet_keep h1 rfl rfl rfl id)
    | visit => exact hrec _ (quiet_noTimeout h1)
    | schedule n => exact hrec _ (quiet_keep h1 rfl rfl rfl id)
    | powerCycles => exact hrec _ (quiet_enter h1)

example : Quiet 0 0 (start { limit := 60 } 0 .normal true) := ⟨by decide, .inr (.inl rfl)⟩

/-! The other direction. -/

/-- Ordinary operation with nothing pending. -/
structure Idle (s : St) : Prop where
  mode : s.mode = .normal
  skip : s.skip = false
  force : s.force = 0
  off : s.off = 2
  req : s.req = .none
  check : s.check = false
  factory : s.factory = false
  ts : s.ts = 0

/-- In an idle state a pass either restarts because of the connection, or only the network is looked at. -/
theorem idle_pass {f : Fixed} {t : Nat} {e : Env} {s : St} (h : Idle s) :
    pass f (clk t) e s = if f.limit ≠ 0 ∧ (s.notReady / 10 ≥ f.limit ∨ e.fail ≥ f.limit) then .restart .connection
      else if s.wait ≠ 0 ∧ since (clk t) s.last < s.wait then .on s
      else if e.ready then .on { s with wait := 0, last := clk t, notReady := 0 }
      else .on { s with wait := 100, last := clk t, notReady := s.notReady + 1 } := by
  have hh : hour f (clk t) s = s := by
    unfold hour
    rw [if_neg (by rw [h.off]; simp)]
  have hd : doRequest (clk t) s = s := by
    unfold doRequest
    rw [h.req]
  have hc : doCheck s = s := by
    unfold doCheck
    rw [h.check, if_neg (by decide)]
  have hn : needed f (clk t) e s = if f.limit ≠ 0 ∧ (s.notReady / 10 ≥ f.limit ∨ e.fail ≥ f.limit) then some .connection else none := by
    unfold needed
    rw [if_neg (by rw [h.ts]; simp), if_neg (by rw [h.force]; simp)]
  unfold pass
  rw [hh, hn, hd, hc]
  by_cases hcond : f.limit ≠ 0 ∧ (s.notReady / 10 ≥ f.limit ∨ e.fail ≥ f.limit)
  · rw [if_pos hcond, if_pos hcond]
  · rw [if_neg hcond, if_neg hcond]
    dsimp only
    rw [if_neg (by rw [h.factory]; decide)]
    unfold work
    rw [if_neg (by rw [h.force]; simp)]
    by_cases hw : s.wait ≠ 0 ∧ since (clk t) s.last < s.wait
    · rw [if_pos hw, if_pos hw]
    · rw [if_neg hw, if_neg hw, if_neg (by rw [h.skip]; decide)]
      have hm : ¬ s.mode = .config := by rw [h.mode]; decide
      have hup : ∀ s1 : St, s1.mode = .normal → update (clk t) e s1 = s1 := by
        intro s1 hs1
        unfold update
        rw [if_pos (by rw [hs1]; decide)]
      by_cases hr : e.ready = true
      · have hnet : network e { s with wait := 0, last := clk t } = (true, { s with wait := 0, last := clk t, notReady := 0 }) := by
          unfold network
          rw [if_neg hm, if_pos hr]
        rw [hnet, if_pos hr, if_pos rfl]
        exact congrArg Out.on (hup _ h.mode)
      · have hnet : network e { s with wait := 0, last := clk t } = (false, { s with wait := 100, last := clk t, notReady := s.notReady + 1 }) := by
          unfold network
          rw [if_neg hm, if_neg hr]
        rw [hnet, if_neg hr, if_neg (show ¬ (false = true) by decide)]

/-- The network is never ready, and a pass comes at least every `g` ms after time `t`. -/
def Down (g t : Nat) : List (Nat × Env) → Prop
  | [] => True
  | x :: l => t ≤ x.1 ∧ x.1 ≤ t + g ∧ x.2.ready = false ∧ Down g x.1 l

/-- The last time of a list. -/
def lastTime (t : Nat) : List (Nat × Env) → Nat
  | [] => t
  | x :: l => lastTime x.1 l

/-- Counting since `T`, at time `t`, with passes every `g` ms. -/
structure Counting (g T t : Nat) (s : St) : Prop where
  idle : Idle s
  wait : s.wait = 100
  some : 1 ≤ s.notReady
  last : ∃ u, T ≤ u ∧ u ≤ t ∧ t < u + 100 ∧ s.last = clk u ∧ u - T ≤ (s.notReady - 1) * (100 + g)

theorem counting_passes (f : Fixed) (hL : f.limit ≠ 0) (g T : Nat) (hg : 100 + g < 2 ^ 32) (l : List (Nat × Env)) : ∀ (t : Nat) (s : St),
    Counting g T t s → Down g t l → s.notReady < 10 * f.limit →
    run f s (passes l) = .restart .connection ∨ lastTime t l < T + (10 * f.limit) * (100 + g) := by
  induction l with
  | nil =>
    intro t s h _ hc
    right
    obtain ⟨u, h1, h2, h3, h4, h5⟩ := h.last
    show t < _
    have hsm := h.some
    have : (s.notReady - 1) * (100 + g) + (100 + g) ≤ 10 * f.limit * (100 + g) := by
      have : (s.notReady - 1) * (100 + g) + (100 + g) = (s.notReady - 1 + 1) * (100 + g) := by rw [Nat.add_mul, Nat.one_mul]
      rw [this]
      exact Nat.mul_le_mul_right _ (by omega)
    omega
  | cons x l ih =>
    intro t s h hd hc
    obtain ⟨t1, e⟩ := x
    obtain ⟨d1, d2, d3, d4⟩ := hd
    dsimp only at d1 d2 d3 d4
    obtain ⟨u, h1, h2, h3, h4, h5⟩ := h.last
    have hsin : since (clk t1) (clk u) = t1 - u := since_clk_eq t1 u (by omega) (by omega)
    show (match pass f (clk t1) e s with | .on s' => run f s' (passes l) | .restart w => .restart w) = _ ∨ lastTime t1 l < _
    rw [idle_pass h.idle, h.wait, h4, hsin, d3]
    split
    · rename_i hx
      split at hx
      · cases hx
      · rename_i hcond
        rename_i s1
        split at hx
        · injection hx with hx
          subst hx
          rename_i hw
          refine ih t1 s ?_ d4 hc
          exact ⟨h.idle, h.wait, h.some, u, h1, by omega, by omega, h4, h5⟩
        · rename_i hw
          rw [if_neg (by decide)] at hx
          injection hx with hx
          have hn1 : s1.notReady = s.notReady + 1 := by rw [← hx]
          have hct : Counting g T t1 s1 := by
            subst hx
            refine ⟨⟨h.idle.mode, h.idle.skip, h.idle.force, h.idle.off, h.idle.req, h.idle.check, h.idle.factory, h.idle.ts⟩,
              rfl, by show 1 ≤ s.notReady + 1; omega, t1, by omega, Nat.le_refl _, by omega, rfl, ?_⟩
            show t1 - T ≤ (s.notReady + 1 - 1) * (100 + g)
            have hsm := h.some
            have : (s.notReady - 1) * (100 + g) + (100 + g) = (s.notReady + 1 - 1) * (100 + g) := by
              have : s.notReady + 1 - 1 = s.notReady - 1 + 1 := by omega
              rw [this, Nat.add_mul, Nat.one_mul]
            omega
          by_cases hfull : s1.notReady < 10 * f.limit
          · exact ih t1 s1 hct d4 hfull
          · -- the next pass restarts
            cases l with
            | nil =>
              right
              show t1 < _
              have : (s.notReady - 1) * (100 + g) + (100 + g) ≤ 10 * f.limit * (100 + g) := by
                have : (s.notReady - 1) * (100 + g) + (100 + g) = (s.notReady - 1 + 1) * (100 + g) := by rw [Nat.add_mul, Nat.one_mul]
                rw [this]
                have hsm := h.some
                exact Nat.mul_le_mul_right _ (by omega)
              have hdiff : t1 < u + (100 + g) := by omega
              omega
            | cons y l =>
              left
              show (match pass f (clk y.1) y.2 s1 with | .on s' => run f s' (passes l) | .restart w => .restart w) = _
              rw [idle_pass hct.idle, if_pos ⟨hL, .inl (by omega)⟩]
    · rename_i w hx
      left
      repeat' split at hx
      all_goals cases hx
      all_goals rfl

/-- Without a network the device restarts, when the passes come every `g` ms: at the latest `10 · limit · (100 + g)` ms
after the first pass that saw it missing. -/
theorem connection_reset_partial (f : Fixed) (hL : f.limit ≠ 0) (g T : Nat) (hg : 100 + g < 2 ^ 32) (s : St) (h : Idle s)
    (hw : s.wait = 0) (hn : s.notReady = 0) (e : Env) (he : e.ready = false) (l : List (Nat × Env)) (hd : Down g T l)
    (hlate : T + 10 * f.limit * (100 + g) ≤ lastTime T l) :
    run f s (passes ((T, e) :: l)) = .restart .connection := by
  show (match pass f (clk T) e s with | .on s' => run f s' (passes l) | .restart w => .restart w) = _
  rw [idle_pass h, hw, hn, he]
  split
  · rename_i s1 hx
    rw [if_neg (show ¬ (0 ≠ 0 ∧ since (clk T) s.last < 0) by simp), if_neg (by decide : ¬ (false = true))] at hx
    split at hx
    · cases hx
    · injection hx with hx
      subst hx
      rcases counting_passes f hL g T hg l T { s with wait := 100, last := clk T, notReady := 0 + 1 } ⟨⟨h.mode, h.skip, h.force, h.off, h.req, h.check, h.factory, h.ts⟩, rfl, by show 1 ≤ 0 + 1; omega, T, Nat.le_refl _, Nat.le_refl _, by omega, rfl, by omega⟩ hd (show 0 + 1 < 10 * f.limit by omega) with q | q
      · exact q
      · omega
  · rename_i w hx
    rw [if_neg (show ¬ (0 ≠ 0 ∧ since (clk T) s.last < 0) by simp), if_neg (by decide : ¬ (false = true))] at hx
    split at hx
    · rw [← hx]
    · cases hx

example : Idle (start { limit := 60 } 0 .normal true) := ⟨rfl, rfl, rfl, rfl, rfl, rfl, rfl, rfl⟩

/-- The restart comes within two seconds after the limit, when the passes come at least every second. -/
def ConnectionResetInTime : Prop :=
  ∀ (f : Fixed), f.limit ≠ 0 → ∀ (s : St), Idle s → s.wait = 0 → s.notReady = 0 → ∀ (T : Nat) (e : Env), e.ready = false →
    ∀ (l : List (Nat × Env)), Down 1000 T l → T + 1000 * f.limit + 2000 ≤ lastTime T l → run f s (passes ((T, e) :: l)) = .restart .connection

/-- Passes are counted, not time. -/
theorem connection_reset_late_violation : ¬ ConnectionResetInTime := by
  intro h
  have := h { limit := 60 } (by decide) (start { limit := 60 } 0 .normal true) ⟨rfl, rfl, rfl, rfl, rfl, rfl, rfl, rfl⟩ rfl rfl 0
    { ready := false } rfl ((List.range 63).map fun i => (1000 * i, { ready := false })) (by simp [List.range, List.range.loop, Down])
    (by decide +kernel)
  clear h
  revert this
  decide +kernel

/-! ## Device without a complete configuration -/

/-- Configuration mode since the start. -/
structure Fresh (s : St) : Prop where
  mode : s.mode = .config
  force : s.force = 0
  ts : s.ts = 0
  req : s.req = .none
  factory : s.factory = false
  web : s.web = true
  net : s.notReady = 0

theorem fresh_pass {f : Fixed} (hlim : f.limit = 0) {t : Nat} {e : Env} {s : St}
    (hh : Fresh (hour f (clk t) s)) : ∃ s', pass f (clk t) e s = .on s' ∧ Fresh s' ∧ s'.off = (hour f (clk t) s).off := by
  unfold pass
  generalize hour f (clk t) s = s1 at hh
  have hn : needed f (clk t) e s1 = none := by
    unfold needed
    rw [if_neg (by rw [hh.ts]; simp), if_neg (by rw [hh.force]; simp), if_neg (by rw [hlim]; simp)]
  have hd : doRequest (clk t) s1 = s1 := by
    unfold doRequest
    rw [hh.req]
  rw [hn]
  dsimp only
  rw [hd, hh.factory, if_neg (by decide)]
  refine ⟨_, rfl, ?_⟩
  have hk := doCheck_keeps s1
  have hm : (doCheck s1).mode = .config ∧ (doCheck s1).web = s1.web := by
    unfold doCheck
    split
    · refine ⟨?_, rfl⟩
      dsimp only
      rw [if_neg (by simp [hh.mode])]
      exact hh.mode
    · exact ⟨hh.mode, rfl⟩
  generalize doCheck s1 = s2 at hk hm
  have hf : Fresh s2 := ⟨hm.1, hk.2.1.trans hh.force, hk.1.trans hh.ts, hk.2.2.1.trans hh.req, hk.2.2.2.2.1.trans hh.factory,
    hm.2.trans hh.web, hk.2.2.2.2.2.1.trans hh.net⟩
  have hf2 : Fresh { s2 with wait := 0, last := clk t } := ⟨hf.mode, hf.force, hf.ts, hf.req, hf.factory, hf.web, hf.net⟩
  unfold work
  rw [if_neg (by rw [hf.force]; simp)]
  split
  · exact ⟨hf, hk.2.2.2.1⟩
  · split
    · exact ⟨hf2, hk.2.2.2.1⟩
    · have hnet : network e { s2 with wait := 0, last := clk t } = (true, { s2 with wait := 0, last := clk t }) := by
        unfold network
        rw [if_pos hf2.mode]
      rw [hnet, if_pos rfl]
      unfold update
      dsimp only
      rw [if_pos (by rw [hf.mode]; decide)]
      exact ⟨hf2, hk.2.2.2.1⟩

/-- Without a complete configuration, and without an offline mode, the device waits in the configuration mode with its page,
however long. -/
theorem unconfigured_waits (f : Fixed) (hlim : f.limit = 0) (hoff : f.offline = 0) (now : Nat) (m : Mode) (l : List (Nat × Env)) :
    ∃ s', run f (start f now m false) (passes l) = .on s' ∧ s'.mode = .config ∧ s'.web = true := by
  have hgo : ∀ s, goesOffline f s = false := by
    intro s
    unfold goesOffline
    simp [hoff]
  have h0 : Fresh (start f now m false) := by
    unfold start
    rw [if_neg (show ¬ (false = true) by decide)]
    unfold setup
    rw [hgo, if_neg (show ¬ (false = true) by decide), if_pos rfl]
    exact ⟨rfl, rfl, rfl, rfl, rfl, rfl, rfl⟩
  suffices hs : ∀ s, Fresh s → ∃ s', run f s (passes l) = .on s' ∧ Fresh s' by
    obtain ⟨s', h1, h2⟩ := hs _ h0
    exact ⟨s', h1, h2.mode, h2.web⟩
  clear h0
  induction l with
  | nil => intro s h; exact ⟨s, rfl, h⟩
  | cons x l ih =>
    intro s h
    have hh : Fresh (hour f (clk x.1) s) := by
      unfold hour
      split
      · unfold leave
        rw [if_neg (by simp [h.mode])]
        unfold setup
        rw [hgo, if_neg (by decide), if_pos h.mode]
        refine ⟨rfl, h.force, ?_, h.req, h.factory, rfl, h.net⟩
        unfold enterConfig
        dsimp only
        rw [if_pos h.mode]
      · exact h
    obtain ⟨s1, h1, h2, _⟩ := fresh_pass hlim (t := x.1) (e := x.2) hh
    obtain ⟨s2, h3, h4⟩ := ih s1 h2
    refine ⟨s2, ?_, h4⟩
    show (match pass f (clk x.1) x.2 s with | .on s' => run f s' (passes l) | .restart w => .restart w) = _
    rw [h1]
    exact h3

/-- With the offline mode after an hour: configuration mode with the page for an hour... -/
theorem offline_mode_waits (f : Fixed) (hlim : f.limit = 0) (hoff : f.offline = 2) (hp : f.proto = true) (now : Nat) (m : Mode)
    (l : List (Nat × Env)) (hl : ∀ x ∈ l, x.1 ≤ 3600000) :
    ∃ s', run f (start f now m false) (passes l) = .on s' ∧ s'.mode = .config ∧ s'.web = true ∧ Fresh s' ∧ s'.off = 0 := by
  have h0 : Fresh (start f now m false) ∧ (start f now m false).off = 0 := by
    unfold start
    rw [if_neg (show ¬ (false = true) by decide)]
    unfold setup
    rw [if_neg (by simp [goesOffline, hoff, hp]), if_pos rfl]
    exact ⟨⟨rfl, rfl, rfl, rfl, rfl, rfl, rfl⟩, rfl⟩
  suffices hs : ∀ s, Fresh s → s.off = 0 → ∃ s', run f s (passes l) = .on s' ∧ Fresh s' ∧ s'.off = 0 by
    obtain ⟨s', h1, h2, h3⟩ := hs _ h0.1 h0.2
    exact ⟨s', h1, h2.mode, h2.web, h2, h3⟩
  clear h0
  induction l with
  | nil => intro s h h0; exact ⟨s, rfl, h, h0⟩
  | cons x l ih =>
    intro s h h0
    have hx := hl x List.mem_cons_self
    have hc : clk x.1 = x.1 := Nat.mod_eq_of_lt (by omega)
    have hh : hour f (clk x.1) s = s := by
      unfold hour
      rw [if_neg]
      rintro ⟨_, q⟩
      unfold offTime at q
      rw [hc] at q
      omega
    obtain ⟨s1, h1, h2, h5⟩ := fresh_pass hlim (t := x.1) (e := x.2) (s := s) (by rw [hh]; exact h)
    rw [hh, h0] at h5
    obtain ⟨s2, h3, h4⟩ := ih (fun y hy => hl y (List.mem_cons_of_mem _ hy)) s1 h2 h5
    refine ⟨s2, ?_, h4⟩
    show (match pass f (clk x.1) x.2 s with | .on s' => run f s' (passes l) | .restart w => .restart w) = _
    rw [h1]
    exact h3

/-- ... and after it the device works without network and without the page. -/
theorem offline_mode_begins (f : Fixed) (hlim : f.limit = 0) (hoff : f.offline = 2) (hp : f.proto = true) (now : Nat) (m : Mode)
    (l : List (Nat × Env)) (hl : ∀ x ∈ l, x.1 ≤ 3600000) (t : Nat) (ht : 3600000 < t) (ht2 : t < 2 ^ 32) (e : Env) :
    ∃ s', run f (start f now m false) (passes (l ++ [(t, e)])) = .on s' ∧ (s'.mode = .normal ∨ s'.mode = .update) ∧ s'.skip = true ∧ s'.web = false := by
  obtain ⟨s1, h1, _, _, h2, h3⟩ := offline_mode_waits f hlim hoff hp now m l hl
  unfold passes
  rw [List.map_append, run_append]
  have h1 : run f (start f now m false) (List.map (fun x => (x.1, Op.pass x.2)) l) = .on s1 := h1
  rw [h1]
  have hc : clk t = t := Nat.mod_eq_of_lt ht2
  have hh : hour f (clk t) s1 = { s1 with off := 2, cfgTs := 0, web := false, mode := .normal, skip := true } := by
    unfold hour
    rw [if_pos ⟨h3, by unfold offTime; omega⟩]
    unfold leave
    rw [if_neg (by simp [h2.mode])]
    unfold setup
    rw [if_pos (by simp [goesOffline, hoff, h2.mode])]
  have hn : needed f (clk t) e { s1 with off := 2, cfgTs := 0, web := false, mode := .normal, skip := true } = none := by
    unfold needed
    dsimp only
    rw [if_neg (by rw [h2.ts]; simp), if_neg (by rw [h2.force]; simp), if_neg (by rw [hlim]; simp)]
  have hd : ∀ s : St, s.req = .none → doRequest (clk t) s = s := by
    intro s hs
    unfold doRequest
    rw [hs]
  have hpass : ∃ s', pass f (clk t) e s1 = .on s' ∧ (s'.mode = .normal ∨ s'.mode = .update) ∧ s'.skip = true ∧ s'.web = false := by
    unfold pass
    rw [hh, hn]
    dsimp only
    rw [hd { s1 with off := 2, cfgTs := 0, web := false, mode := .normal, skip := true } h2.req]
    rw [if_neg (by rw [h2.factory]; decide)]
    refine ⟨_, rfl, ?_⟩
    have hc : ∀ s : St, s.mode = .normal → s.skip = true → s.web = false → ((doCheck s).mode = .normal ∨ (doCheck s).mode = .update) ∧
        (doCheck s).skip = true ∧ (doCheck s).web = false := by
      intro s q1 q2 q3
      unfold doCheck
      split
      · refine ⟨.inr ?_, q2, q3⟩
        dsimp only
        rw [if_pos (by rw [q1]; decide)]
      · exact ⟨.inl q1, q2, q3⟩
    have hc := hc { s1 with off := 2, cfgTs := 0, web := false, mode := .normal, skip := true } rfl rfl rfl
    generalize doCheck { s1 with off := 2, cfgTs := 0, web := false, mode := .normal, skip := true } = s2 at hc
    unfold work
    split
    · exact hc
    · split
      · exact hc
      · rw [if_pos hc.2.1]
        exact hc
  obtain ⟨s', q1, q2⟩ := hpass
  refine ⟨s', ?_, q2⟩
  show (match pass f (clk t) e s1 with | .on s' => Out.on s' | .restart w => .restart w) = _
  rw [q1]

example : ∃ s', run { offline := 2 } (start { offline := 2 } 0 .normal false) (passes [(10, {}), (3600000, {}), (3600005, {})]) = .on s' ∧
    s'.skip = true := by
  obtain ⟨s', h1, _, h3, _⟩ := offline_mode_begins { offline := 2 } rfl rfl rfl 0 .normal [(10, {}), (3600000, {})] (by decide) 3600005 (by decide) (by decide) {}
  exact ⟨s', h1, h3⟩

/-! ## Findings -/

/-- A configuration mode that the server asked for ends, at any time it begins. -/
def RemoteConfigEnds : Prop :=
  ∀ (s : St), Ok s → s.mode ≠ .config → s.force = 0 → s.factory = false → ∀ (t1 t : Nat), t1 + 300000 < t → t < t1 + 2 ^ 32 →
    run {} s ((t1, .server) :: passes [(t1, {}), (t, {})]) = .restart .timeout

/-- Entered when the clock reads zero (every 49.7 days) it lasts for ever. -/
theorem config_at_zero_violation : ¬ RemoteConfigEnds := by
  intro h
  have := h (start {} 0 .normal true) (ok_start _ _ _ _) (by decide) rfl rfl (2 ^ 32) (2 ^ 32 + 400000) (by decide) (by decide)
  clear h
  revert this
  decide +kernel

/-- ... also when the request is repeated. -/
def RepeatedRequestEnds : Prop :=
  ∀ (s : St), Ok s → s.mode ≠ .config → s.force = 0 → s.factory = false → ∀ (t1 t2 t : Nat), clk t1 ≠ 0 → t1 ≤ t2 → t2 ≤ t1 + 300000 →
    t2 + 300000 < t → t < t1 + 2 ^ 32 →
    ∃ w, run {} s ((t1, .server) :: (t1, .pass {}) :: (t2, .server) :: passes [(t2, {}), (t, {})]) = .restart w

instance (o : Out) : Decidable (∃ w, o = .restart w) :=
  match o with
  | .restart w => .isTrue ⟨w, rfl⟩
  | .on _ => .isFalse (fun h => by obtain ⟨_, h⟩ := h; cases h)

/-- The second request in the configuration mode takes the timeout away. -/
theorem repeated_request_violation : ¬ RepeatedRequestEnds := by
  intro h
  have := h (start {} 0 .normal true) (ok_start _ _ _ _) (by decide) rfl rfl 1000 2000 400000 (by decide) (by decide) (by decide) (by decide) (by decide)
  clear h
  revert this
  decide +kernel

/-- The update mode ends when there is nothing to update with. -/
def UpdateEnds : Prop :=
  ∀ (f : Fixed) (m : Mode) (c : Bool) (t0 : Nat) (l : List Nat) (s' : St), 2 ≤ l.length →
    run f (start f 0 m c) ((t0, .action .checkUpdate) :: passes (l.map fun t => (t, { upd := .missing }))) = .on s' → s'.mode ≠ .update

/-- Update mode without network. -/
structure Stuck (s : St) : Prop where
  mode : s.mode = .update
  skip : s.skip = true
  force : s.force = 0
  off : s.off = 2
  req : s.req = .none
  factory : s.factory = false
  ts : s.ts = 0

/-- In the offline mode the update mode never ends, whatever the passes find. -/
theorem offline_update_never_ends (f : Fixed) (hlim : f.limit = 0) (l : List (Nat × Env)) : ∀ (s : St), Stuck s →
    ∃ s', run f s (passes l) = .on s' ∧ Stuck s' := by
  induction l with
  | nil => intro s h; exact ⟨s, rfl, h⟩
  | cons x l ih =>
    intro s h
    have hh : hour f (clk x.1) s = s := by
      unfold hour
      rw [if_neg (by rw [h.off]; simp)]
    have hn : needed f (clk x.1) x.2 s = none := by
      unfold needed
      rw [if_neg (by rw [h.ts]; simp), if_neg (by rw [h.force]; simp), if_neg (by rw [hlim]; simp)]
    have hd : doRequest (clk x.1) s = s := by
      unfold doRequest
      rw [h.req]
    have hp : ∃ s', pass f (clk x.1) x.2 s = .on s' ∧ Stuck s' := by
      unfold pass
      rw [hh, hn]
      dsimp only
      rw [hd, h.factory, if_neg (by decide)]
      refine ⟨_, rfl, ?_⟩
      have hc : Stuck (doCheck s) := by
        unfold doCheck
        split
        · refine ⟨?_, h.skip, h.force, h.off, h.req, h.factory, h.ts⟩
          dsimp only
          rw [if_pos (by rw [h.mode]; decide)]
        · exact h
      generalize doCheck s = s1 at hc
      unfold work
      rw [if_neg (by rw [hc.force]; simp)]
      split
      · exact hc
      · rw [if_pos hc.skip]
        exact ⟨hc.mode, hc.skip, hc.force, hc.off, hc.req, hc.factory, hc.ts⟩
    obtain ⟨s1, h1, h2⟩ := hp
    obtain ⟨s2, h3, h4⟩ := ih s1 h2
    refine ⟨s2, ?_, h4⟩
    show (match pass f (clk x.1) x.2 s with | .on s' => run f s' (passes l) | .restart w => .restart w) = _
    rw [h1]
    exact h3

/-- A device that works offline and is told to look for an update. -/
theorem offline_update_violation : ¬ UpdateEnds := by
  intro h
  exact h { offline := 1, empty := true } .normal false 5 [10, 20, 30] _ (by decide) rfl (by decide +kernel)

/-- With a network it does end. -/
example : (match run {} (start {} 0 .normal true) [(5, .action .checkUpdate), (10, .pass { upd := .missing })] with | .on s => s.mode | .restart _ => .update) = .normal := by
  decide +kernel

end Verif.Life
