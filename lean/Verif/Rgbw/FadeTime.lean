import Verif.Rgbw.Fade
/-!
# C29: values given to the device, and the end of a fade
-/

namespace Verif.Rgbw

/-! ## Values given to the device -/

/-- The full claim is false: with `setMaxHwValue(255)`, as its comment suggests, the brightness limits
stay at 1023 and the device is given 1023. -/
theorem device_range_violation : ¬ DeviceInRange := by
  intro h
  let F : Rounding := .exact
  let s0 := boot 1 .dimmer (-1) none false false
  let ops : List (Nat × Op) := [(2, .maxHw 255), (3, .set 0 0 0 0 100 false true), (4, .pass)]
  have h1 : ValidRun F linear s0 ops := by decide +kernel
  have h2 : (run F linear s0 ops).bind (fun x => (exec F linear x (5, .pass)).map fun y => (y.maxHw, y.out.head?.map (·.w))) = some (255, some 1023) := by decide +kernel
  cases hr : run F linear s0 ops with
  | none => rw [hr] at h2; cases h2
  | some s =>
    rw [hr] at h2
    cases hx : exec F linear s (5, .pass) with
    | none =>
      have h2 : (exec F linear s (5, .pass)).map _ = _ := h2
      rw [hx] at h2
      cases h2
    | some s' =>
      have h2 : (exec F linear s (5, .pass)).map _ = _ := h2
      rw [hx] at h2
      have h3 : (s'.maxHw, s'.out.head?.map (·.w)) = (255, some 1023) := by injection h2
      simp only [Prod.mk.injEq] at h3
      have := h F linear 1 .dimmer (-1) none false false ops s linear_bounded h1 hr 5 s' hx
      cases ho : s'.out.head? with
      | none => rw [ho] at h3; cases h3.2
      | some x =>
        rw [ho] at h3 this
        have h4 : x.w = 1023 := by injection h3.2
        have h5 := (this x rfl).2.2.2.2
        unfold Within at h5
        rw [h3.1, h4] at h5
        omega

theorem scaled_within {hw m lo hi : Nat} (h1 : hw ≤ m) (h2 : lo ≤ hi) (h3 : hi ≤ m) :
    Within m (if hw = 0 then 0 else adjustRange hw 1 m lo hi) := by
  split
  · unfold Within; omega
  · have h : ((hw : Int) - 1) * ((hi : Int) - lo) = (((hw - 1) * (hi - lo) : Nat) : Int) := by
      rw [Int.natCast_mul]
      congr 1 <;> omega
    have e : adjustRange hw 1 m lo hi = (((hw - 1) * (hi - lo) / (m - 1) + lo : Nat) : Int) := by
      unfold adjustRange
      rw [h, Int.tdiv_eq_ediv_of_nonneg (by omega), show ((m : Int) - 1) = ((m - 1 : Nat) : Int) by omega]
      rw [← Int.natCast_ediv]
      omega
    rw [e]
    have h4 : (hw - 1) * (hi - lo) / (m - 1) ≤ hi - lo := by
      by_cases hm : m - 1 = 0
      · rw [hm, Nat.div_zero]; omega
      · refine Nat.div_le_of_le_mul ?_
        exact Nat.mul_le_mul_right _ (by omega)
    clear e h
    generalize (hw - 1) * (hi - lo) / (m - 1) = x at h4 ⊢
    unfold Within
    omega

/-- C29, the values given to the device, when the brightness limits are in order and not above the
maximal hardware value: every value given to it in a pass is between 0 and the maximal hardware
value. The full claim is `DeviceInRange`. -/
theorem device_range_partial {F : Rounding} {A : Adjuster} (hA : A.Bounded) {t : Nat} {k : Kind} {si : Int} {mo : Option Bool}
    {fr fw : Bool} {h : List (Nat × Op)} {s : Light} (hv : ValidRun F A (boot t k si mo fr fw) h)
    (hr : run F A (boot t k si mo fr fw) h = some s) (hw : s.minW ≤ s.maxW ∧ s.maxW ≤ s.maxHw)
    (hcb : s.minCb ≤ s.maxCb ∧ s.maxCb ≤ s.maxHw) {u : Nat} {s' : Light} (hx : exec F A s (u, .pass) = some s') :
    (s'.out = s.out ∧ s'.hw = s.hw) ∨ ∃ x, s'.out = x :: s.out ∧ x.All (Within s'.maxHw) := by
  obtain ⟨hs, hok⟩ := run_inv hA h (boot_hw ..) (boot_ok ..) hv hr
  obtain ⟨q, h1, h2⟩ := pass_cases (F := F) hA u hs hok
  have hx' : pass F A u s = some s' := hx
  rw [h1] at hx'
  injection hx' with hx'
  subst hx'
  rcases h2 with ⟨_, h⟩ | ⟨_, _, h⟩ | ⟨_, _, h⟩
  · subst h; exact .inl ⟨rfl, rfl⟩
  · rcases h.out with ho | ho
    · exact .inl ho
    · right
      refine ⟨_, ho, ?_⟩
      have hs' := hs.moved h
      have w : ∀ {m : Nat} {c : Comp}, CompOk m c → Within m c.hw := fun h => ⟨by omega, by have := h.1; omega⟩
      have l := h.limits
      have m := h.max
      exact ⟨w hs'.r, w hs'.g, w hs'.b, scaled_within hs'.cb.1 (by omega) (by omega),
        scaled_within hs'.w.1 (by omega) (by omega)⟩
  · subst h; exact .inl ⟨congrArg Still.out (auto_still u s), auto_hw u s⟩

example : (run .exact linear (boot 1 .rgbw (-1) none false false) witness).map (fun s =>
    decide (s.minW ≤ s.maxW ∧ s.maxW ≤ s.maxHw ∧ s.minCb ≤ s.maxCb ∧ s.maxCb ≤ s.maxHw)) = some true := by decide +kernel

/-! ## The end of a fade -/

/-- A component in the fade begun `b`, at the time `v`. -/
def Fading (fade v b : Nat) (T : Int) (c : Comp) : Prop :=
  rem T c = 0 ∨ (c.last = clk v ∧ rem T c ≤ c.dist ∧ c.dist * (v - b) ≤ 4 * fade * (c.dist - rem T c))

theorem rem_toward {T : Int} {c d : Comp} (h : Toward c.hw d.hw T) : rem T d ≤ rem T c := by
  unfold Toward at h
  unfold rem
  omega

/-- The first pass of a fade. -/
theorem fading_first {F : Rounding} {t fade maxHw : Nat} {i : Bool} {T : Int} {c d : Comp}
    (h : Moved F t fade maxHw true i T c d) : Fading fade t t T d := by
  cases i
  · right
    have h1 := rem_toward h.to
    have h2 : d.dist = rem T c := h.dist
    refine ⟨?_, by omega, by rw [Nat.sub_self, Nat.mul_zero]; exact Nat.zero_le _⟩
    by_cases hz : since (clk t) c.last = 0
    · exact h.wait rfl hz
    · exact (h.step rfl hz).1
  · left
    have := h.now rfl
    unfold rem
    omega

/-- A later pass. -/
theorem fading_step {F : Rounding} {v t b fade maxHw : Nat} {T : Int} {c d : Comp} (hf : fade ≤ 65535)
    (hc : CompOk maxHw c) (hvt : v < t) (hvt' : t - v < 2 ^ 32) (hb : Fading fade v b T c)
    (h : Moved F t fade maxHw false false T c d) : Fading fade t b T d := by
  have hr := rem_toward h.to
  rcases hb with hb | ⟨h1, h2, h3⟩
  · left; omega
  · have hd : d.dist = c.dist := h.dist
    have hs : since (clk t) c.last = t - v := by
      rw [h1]
      exact since_clk_eq _ _ (by omega) hvt'
    obtain ⟨h4, h5⟩ := h.step rfl (by omega)
    have h6 := stepSize_share F (fade := fade) (maxHw := maxHw) (D := c.dist) (dt := t - v) hf hc.2.1 (by omega)
    rw [hs, hd] at h5
    by_cases hz : rem T d = 0
    · exact .inl hz
    · right
      refine ⟨h4, by omega, ?_⟩
      rw [hd]
      rcases h6 with h6 | h6
      · omega
      · have h7 : c.dist - rem T d = (c.dist - rem T c) + (stepSize F fade maxHw c.dist (t - v)).toNat := by omega
        rw [h7, Nat.mul_add]
        have h8 : c.dist * (t - b) ≤ c.dist * (v - b) + c.dist * (t - v) := by
          rw [← Nat.mul_add]
          exact Nat.mul_le_mul_left _ (by omega)
        omega

/-- A pass at the clock reading 0 loses time. -/
theorem fading_start {v t b fade : Nat} {T : Int} {c : Comp} (hvt : v ≤ t) (hb : Fading fade v b T c) :
    Fading fade t (b + (t - v)) T { c with last := clk t } := by
  rcases hb with hb | ⟨h1, h2, h3⟩
  · exact .inl hb
  · refine .inr ⟨rfl, h2, ?_⟩
    have : t - (b + (t - v)) ≤ v - b := by omega
    exact Nat.le_trans (Nat.mul_le_mul_left _ this) h3

theorem fading_end {v b fade : Nat} {T : Int} {c : Comp} (hb : Fading fade v b T c) (h : b + 4 * fade < v) :
    rem T c = 0 := by
  rcases hb with hb | ⟨h1, h2, h3⟩
  · exact hb
  · rcases Nat.eq_zero_or_pos (rem T c) with h0 | h0
    · exact h0
    · exfalso
      have h4 : c.dist * (4 * fade + 1) ≤ c.dist * (v - b) := Nat.mul_le_mul_left _ (by omega)
      have h5 : 4 * fade * (c.dist - rem T c) ≤ 4 * fade * c.dist := Nat.mul_le_mul_left _ (by omega)
      rw [Nat.mul_add, Nat.mul_comm c.dist (4 * fade)] at h4
      omega

/-- What does not change during passes with automatic iteration off. -/
def Same (A : Adjuster) (s q : Light) : Prop :=
  q.mode = .off ∧ q.fade = s.fade ∧ q.maxHw = s.maxHw ∧ targets A q = targets A s ∧ HwOk q ∧ Ok q

/-- Time lost when the clock is 0. -/
def Lost (u v g L : Nat) : Prop := L = 0 ∨ (L ≤ g ∧ ∃ z, u < z ∧ z < v ∧ z % 2 ^ 32 = 0)

theorem Lost.mono {u v v' g L : Nat} (h : Lost u v g L) (hv : v ≤ v') : Lost u v' g L := by
  rcases h with h | ⟨h, z, h1, h2, h3⟩
  · exact .inl h
  · exact .inr ⟨h, z, h1, by omega, h3⟩

/-- Before the first pass that does something. -/
def Before (A : Adjuster) (u g : Nat) (s : Light) (v : Nat) (q : Light) : Prop :=
  Same A s q ∧ q.reset = true ∧ q.lastTick = clk v ∧ u < v ∧ v < u + 2 ^ 32 ∧ ∃ L, Lost u v g L ∧ v ≤ u + g + L

/-- During the fade. -/
def During (A : Adjuster) (u g : Nat) (s : Light) (v : Nat) (q : Light) : Prop :=
  Same A s q ∧ q.reset = false ∧ q.instant = false ∧ q.lastTick = clk v ∧ u < v ∧ v < u + 2 ^ 32 ∧
  ∃ L b, Lost u v g L ∧ b ≤ u + 2 * g + L ∧
    Fading s.fade v b (targets A s).r q.hr ∧ Fading s.fade v b (targets A s).g q.hg ∧ Fading s.fade v b (targets A s).b q.hb ∧
    Fading s.fade v b (targets A s).cb q.hcb ∧ Fading s.fade v b (targets A s).w q.hwh

theorem auto_off {t : Nat} {s : Light} (h : s.mode = .off) : auto t s = s := by
  unfold auto
  rw [if_neg (fun hh => hh.1 h)]
  cases s
  cases h
  rfl

theorem targets_congr {A : Adjuster} {s q : Light} (h1 : q.maxHw = s.maxHw) (h2 : q.r = s.r) (h3 : q.g = s.g) (h4 : q.b = s.b)
    (h5 : q.cb = s.cb) (h6 : q.w = s.w) : targets A q = targets A s := by
  unfold targets
  rw [h1, h2, h3, h4, h5, h6]

theorem same_start {A : Adjuster} {t : Nat} {s q : Light} (h : Same A s q) : Same A s (start t q) :=
  ⟨h.1, h.2.1, h.2.2.1, h.2.2.2.1, h.2.2.2.2.1.start,
    ⟨h.2.2.2.2.2.r, h.2.2.2.2.2.g, h.2.2.2.2.2.b, h.2.2.2.2.2.cb, h.2.2.2.2.2.w, h.2.2.2.2.2.lastCb, h.2.2.2.2.2.lastW, h.2.2.2.2.2.dimmed, h.2.2.2.2.2.step, h.2.2.2.2.2.minIter⟩⟩

theorem same_effective {F : Rounding} {A : Adjuster} {t : Nat} {s q q' : Light} (h : Same A s q)
    (hp : pass F A t q = some q') (he : Effective F A t q q q') : Same A s q' :=
  ⟨he.mode.trans h.1, he.fade.trans h.2.1, he.max.trans h.2.2.1, he.targets.trans h.2.2.2.1, h.2.2.2.2.1.moved he,
    exec_ok (o := .pass) h.2.2.2.2.2 trivial hp⟩

/-- The clock reads 0 only once. -/
theorem Lost.zero {u v g L : Nat} (h : Lost u v g L) (hv : v < u + 2 ^ 32) (hz : v % 2 ^ 32 = 0) : L = 0 := by
  rcases h with h | ⟨_, z, h1, h2, h3⟩
  · exact h
  · omega

theorem before_pass {F : Rounding} {A : Adjuster} (hA : A.Bounded) {u g v t : Nat} {s q : Light} (h : Before A u g s v q)
    (h1 : v < t) (h2 : t ≤ v + g) (h3 : t < u + 2 ^ 32) :
    ∃ q', pass F A t q = some q' ∧ (Before A u g s t q' ∨ During A u g s t q') := by
  obtain ⟨hs, hr, hl, huv, hv, L, hL, hvL⟩ := h
  obtain ⟨q', hp, hc⟩ := pass_cases (F := F) hA t hs.2.2.2.2.1 hs.2.2.2.2.2
  refine ⟨q', hp, ?_⟩
  rw [auto_off hs.1] at hc
  have hlz : q.lastTick = v % 2 ^ 32 := hl
  rcases hc with ⟨hz, hc⟩ | ⟨hz, _, hc⟩ | ⟨_, hz, _⟩
  · left
    subst hc
    have hv0 : v % 2 ^ 32 = 0 := by omega
    have hL0 := hL.zero hv hv0
    refine ⟨same_start hs, hr, rfl, by omega, h3, t - v, .inr ⟨by omega, v, huv, h1, hv0⟩, by omega⟩
  · right
    refine ⟨same_effective hs hp hc, hc.reset, hc.instant, hc.tick, by omega, h3, L, t, hL.mono (by omega), by omega, ?_⟩
    have e : targets A q' = targets A s := hc.targets.trans hs.2.2.2.1
    have r := hc.r
    have g := hc.g
    have b := hc.b
    have cb := hc.cb
    have w := hc.w
    rw [hr, e, hs.2.1] at r g b cb w
    exact ⟨fading_first r, fading_first g, fading_first b, fading_first cb, fading_first w⟩
  · exfalso
    rw [hl, since_clk_eq _ _ (by omega) (by omega)] at hz
    omega

theorem during_pass {F : Rounding} {A : Adjuster} (hA : A.Bounded) {u g v t : Nat} {s q : Light} (h : During A u g s v q)
    (h1 : v < t) (h2 : t ≤ v + g) (h3 : t < u + 2 ^ 32) : ∃ q', pass F A t q = some q' ∧ During A u g s t q' := by
  obtain ⟨hs, hr, hi, hl, huv, hv, L, b, hL, hb, f1, f2, f3, f4, f5⟩ := h
  obtain ⟨q', hp, hc⟩ := pass_cases (F := F) hA t hs.2.2.2.2.1 hs.2.2.2.2.2
  refine ⟨q', hp, ?_⟩
  rw [auto_off hs.1] at hc
  have hlz : q.lastTick = v % 2 ^ 32 := hl
  rcases hc with ⟨hz, hc⟩ | ⟨hz, _, hc⟩ | ⟨_, hz, _⟩
  · subst hc
    have hv0 : v % 2 ^ 32 = 0 := by omega
    have hL0 := hL.zero hv hv0
    refine ⟨same_start hs, hr, hi, rfl, by omega, h3, t - v, b + (t - v), .inr ⟨by omega, v, huv, h1, hv0⟩, by omega, ?_⟩
    exact ⟨fading_start (by omega) f1, fading_start (by omega) f2, fading_start (by omega) f3, fading_start (by omega) f4,
      fading_start (by omega) f5⟩
  · refine ⟨same_effective hs hp hc, hc.reset, hc.instant, hc.tick, by omega, h3, L, b, hL.mono (by omega), hb, ?_⟩
    have e : targets A q' = targets A s := hc.targets.trans hs.2.2.2.1
    have m1 := hc.r
    have m2 := hc.g
    have m3 := hc.b
    have m4 := hc.cb
    have m5 := hc.w
    rw [hr, hi, e, hs.2.1] at m1 m2 m3 m4 m5
    have hok := hs.2.2.2.2.1
    have hf : s.fade ≤ 65535 := hs.2.1 ▸ hok.fade
    exact ⟨fading_step hf hok.r h1 (by omega) f1 m1, fading_step hf hok.g h1 (by omega) f2 m2,
      fading_step hf hok.b h1 (by omega) f3 m3, fading_step hf hok.cb h1 (by omega) f4 m4,
      fading_step hf hok.w h1 (by omega) f5 m5⟩
  · exfalso
    rw [hl, since_clk_eq _ _ (by omega) (by omega)] at hz
    omega

/-- The fade has ended. -/
def Done (A : Adjuster) (s : Light) (q : Light) : Prop :=
  Same A s q ∧ q.reset = false ∧ q.instant = false ∧ q.hw = targets A s

theorem during_done {A : Adjuster} {u g v : Nat} {s q : Light} (h : During A u g s v q) (ht : u + 3 * g + 4 * s.fade < v) :
    Done A s q := by
  obtain ⟨hs, hr, hi, _, _, _, L, b, hL, hb, f1, f2, f3, f4, f5⟩ := h
  have hLg : L ≤ g := by
    rcases hL with h | h
    · omega
    · exact h.1
  refine ⟨hs, hr, hi, ?_⟩
  have e1 := fading_end f1 (by omega)
  have e2 := fading_end f2 (by omega)
  have e3 := fading_end f3 (by omega)
  have e4 := fading_end f4 (by omega)
  have e5 := fading_end f5 (by omega)
  unfold rem at *
  generalize targets A s = T at *
  cases T
  unfold Light.hw
  simp only [Five.mk.injEq]
  simp only [] at e1 e2 e3 e4 e5
  omega

theorem done_pass {F : Rounding} {A : Adjuster} (hA : A.Bounded) {t : Nat} {s q : Light} (h : Done A s q) :
    ∃ q', pass F A t q = some q' ∧ Done A s q' := by
  obtain ⟨hs, hr, hi, hw⟩ := h
  obtain ⟨q', hp, hc⟩ := pass_cases (F := F) hA t hs.2.2.2.2.1 hs.2.2.2.2.2
  refine ⟨q', hp, ?_⟩
  rw [auto_off hs.1] at hc
  rcases hc with ⟨hz, hc⟩ | ⟨hz, _, hc⟩ | ⟨_, hz, hc⟩
  · subst hc
    exact ⟨same_start hs, hr, hi, hw⟩
  · refine ⟨same_effective hs hp hc, hc.reset, hc.instant, ?_⟩
    have e : targets A q' = targets A s := hc.targets.trans hs.2.2.2.1
    have m1 := hc.r.to
    have m2 := hc.g.to
    have m3 := hc.b.to
    have m4 := hc.cb.to
    have m5 := hc.w.to
    rw [e, ← hw] at m1 m2 m3 m4 m5
    rw [← hw]
    simp only [Light.hw, Toward] at m1 m2 m3 m4 m5 ⊢
    simp only [Five.mk.injEq]
    omega
  · subst hc
    exact ⟨hs, hr, hi, hw⟩

theorem done_passes {F : Rounding} {A : Adjuster} (hA : A.Bounded) {s : Light} (ts : List Nat) :
    ∀ {q : Light}, Done A s q → ∃ q', run F A q (ts.map fun t => (t, Op.pass)) = some q' ∧ Done A s q' := by
  induction ts with
  | nil => intro q h; exact ⟨q, rfl, h⟩
  | cons t ts ih =>
    intro q h
    obtain ⟨q', h1, h2⟩ := done_pass (F := F) hA (t := t) h
    obtain ⟨q'', h3, h4⟩ := ih h2
    refine ⟨q'', ?_, h4⟩
    show (exec F A q (t, .pass)).bind _ = _
    rw [show exec F A q (t, .pass) = some q' from h1]
    exact h3

theorem lastTime_cons (u v : Nat) (ts : List Nat) : lastTime u (v :: ts) = lastTime v ts := by
  unfold lastTime
  rw [List.getLast?_cons]
  rfl

theorem fade_passes {F : Rounding} {A : Adjuster} (hA : A.Bounded) {u g : Nat} {s : Light} (hg : g < 2 ^ 28)
    (hf : s.fade ≤ 65535) (ts : List Nat) : ∀ {v : Nat} {q : Light},
    (Before A u g s v q ∨ During A u g s v q) → v ≤ u + 3 * g + 4 * s.fade → Every g v ts →
    u + 3 * g + 4 * s.fade < lastTime v ts → ∃ q', run F A q (ts.map fun t => (t, Op.pass)) = some q' ∧ Done A s q' := by
  induction ts with
  | nil =>
    intro v q h h1 _ h2
    exfalso
    have h2 : u + 3 * g + 4 * s.fade < v := h2
    omega
  | cons t ts ih =>
    intro v q h h1 hev hlast
    obtain ⟨e1, e2, e3⟩ := hev
    have hp : ∃ q', pass F A t q = some q' ∧ (Before A u g s t q' ∨ During A u g s t q') := by
      rcases h with h | h
      · exact before_pass hA h e1 e2 (by omega)
      · obtain ⟨q', h1, h2⟩ := during_pass (F := F) hA h e1 e2 (by omega)
        exact ⟨q', h1, .inr h2⟩
    obtain ⟨q', hp, hq⟩ := hp
    have hx : exec F A q (t, .pass) = some q' := hp
    have hrun : run F A q ((t :: ts).map fun t => (t, Op.pass)) = run F A q' (ts.map fun t => (t, Op.pass)) := by
      show (exec F A q (t, .pass)).bind _ = _
      rw [hx]
      rfl
    rw [hrun]
    have hlast' : u + 3 * g + 4 * s.fade < lastTime t ts := by
      rw [lastTime_cons] at hlast
      exact hlast
    by_cases hle : t ≤ u + 3 * g + 4 * s.fade
    · exact ih hq hle e3 hlast'
    · have hd : Done A s q' := by
        rcases hq with hq | hq
        · exfalso
          obtain ⟨_, _, _, _, _, L, hL, hvL⟩ := hq
          have : L ≤ g := by
            rcases hL with h | h
            · omega
            · exact h.1
          omega
        · exact during_done hq (by omega)
      exact done_passes hA ts hd

/-- C29, in time: after every history, when a value has been set at the time `u` and no automatic
iteration is running, then with timer passes at least every `g` ms all hardware values are those of
the wanted colour and brightness at every pass later than `u` + 4·(fade time) + 3·`g`, and stay so. -/
theorem fade_in_time {F : Rounding} {A : Adjuster} (hA : A.Bounded) {t : Nat} {k : Kind} {si : Int} {mo : Option Bool}
    {fr fw : Bool} {h : List (Nat × Op)} {s : Light} (hv : ValidRun F A (boot t k si mo fr fw) h)
    (hr : run F A (boot t k si mo fr fw) h = some s) (hmode : s.mode = .off)
    {u : Nat} {r g b cb w : Int} {tg i : Bool} (hval : Valid s (.set r g b cb w tg i))
    {gap : Nat} (hg : gap < 2 ^ 28) {ts : List Nat} (hts : Every gap u ts)
    (hlast : u + 4 * s.fade + 3 * gap < lastTime u ts) :
    ∃ s', run F A s ((u, .set r g b cb w tg i) :: ts.map fun t => (t, Op.pass)) = some s' ∧
      s'.hw = targets A (set u r g b cb w tg i s) := by
  obtain ⟨hs, hok⟩ := run_inv hA h (boot_hw ..) (boot_ok ..) hv hr
  have hst := set_still u r g b cb w tg i s
  have hok' : Ok (set u r g b cb w tg i s) := set_ok hok hval.1 hval.2.1 hval.2.2.1 hval.2.2.2.1 hval.2.2.2.2
  have hs' := hs.congr hst
  have hf : (set u r g b cb w tg i s).fade = s.fade := congrArg Still.fade hst
  have hm : (set u r g b cb w tg i s).mode = .off ∧ (set u r g b cb w tg i s).reset = true := by
    unfold set
    cases s.kind <;> exact ⟨hmode, rfl⟩
  show ∃ s', run F A (set u r g b cb w tg i s) (ts.map fun t => (t, Op.pass)) = some s' ∧ _
  rw [← hf] at hlast
  generalize set u r g b cb w tg i s = s at *
  have hsame : Same A s s := ⟨hm.1, rfl, rfl, rfl, hs', hok'⟩
  cases ts with
  | nil =>
    exfalso
    have : u + 4 * s.fade + 3 * gap < u := hlast
    omega
  | cons v ts =>
    obtain ⟨e1, e2, e3⟩ := hts
    obtain ⟨q, hp, hc⟩ := pass_cases (F := F) hA v hs' hok'
    rw [auto_off hm.1] at hc
    have hq : Before A u gap s v q ∨ During A u gap s v q := by
      rcases hc with ⟨hz, hc⟩ | ⟨hz, _, hc⟩ | ⟨_, hz, hc⟩
      · left
        subst hc
        exact ⟨same_start hsame, hm.2, rfl, e1, by omega, 0, .inl rfl, by omega⟩
      · right
        refine ⟨same_effective hsame hp hc, hc.reset, hc.instant, hc.tick, e1, by omega, 0, v, .inl rfl, by omega, ?_⟩
        have e : targets A q = targets A s := hc.targets
        have m1 := hc.r
        have m2 := hc.g
        have m3 := hc.b
        have m4 := hc.cb
        have m5 := hc.w
        rw [hm.2, e] at m1 m2 m3 m4 m5
        exact ⟨fading_first m1, fading_first m2, fading_first m3, fading_first m4, fading_first m5⟩
      · left
        subst hc
        exact ⟨hsame, hm.2, since_zero hs'.tick hz, e1, by omega, 0, .inl rfl, by omega⟩
    have hlast' : u + 3 * gap + 4 * s.fade < lastTime v ts := by
      rw [lastTime_cons] at hlast
      omega
    have hx : exec F A s (v, .pass) = some q := hp
    have hrun : run F A s ((v :: ts).map fun t => (t, Op.pass)) = run F A q (ts.map fun t => (t, Op.pass)) := by
      show (exec F A s (v, .pass)).bind _ = _
      rw [hx]
      rfl
    rw [hrun]
    obtain ⟨q', h1, h2⟩ := fade_passes (F := F) hA hg hs'.fade ts hq (by omega) e3 hlast'
    exact ⟨q', h1, h2.2.2.2⟩

/-- Fading to full white in 2100 ms of passes every 10 ms. -/
example : (run .exact linear (boot 1 .dimmer (-1) none false false) [(1, .pass), (10, .pass)]).map (fun s =>
    decide (s.mode = .off ∧ Valid s (.set 0 0 0 0 100 false false) ∧
      Every 10 10 ((List.range 210).map fun i => 20 + 10 * i) ∧
      10 + 4 * s.fade + 3 * 10 < lastTime 10 ((List.range 210).map fun i => 20 + 10 * i))) = some true := by
  decide +kernel

end Verif.Rgbw
