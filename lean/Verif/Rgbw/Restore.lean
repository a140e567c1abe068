import Verif.Rgbw.Commands
/-!
# C30: off and on restores the brightness
-/

namespace Verif.Rgbw

/-! ## Violations -/

/-- C30 fails: brightness 0 set without turning on is remembered, and switching on leaves the light
off. -/
theorem restore_zero_violation : ¬ RestoresBrightness := by
  intro h
  let F : Rounding := .exact
  let A : Adjuster := linear
  let s0 := boot 1 .dimmer (-1) none false false
  let ops : List (Nat × Op) := [(10, .server { command := 10, w := 0 })]
  have h1 : ValidRun F A s0 ops := by decide +kernel
  have h2 : (runExpect F A s0 100 100 ops).map (fun x => (x.2.1, TurnsOnW x.1 (.action .turnOnW),
      (exec F A x.1 (20, .action .turnOnW)).map (·.w))) = some (100, true, some 0) := by decide +kernel
  cases hr : runExpect F A s0 100 100 ops with
  | none => rw [hr] at h2; cases h2
  | some x =>
    obtain ⟨s, m, n⟩ := x
    rw [hr] at h2
    injection h2 with h2
    simp only [Prod.mk.injEq] at h2
    obtain ⟨hm, hon, he⟩ := h2
    cases hx : exec F A s (20, .action .turnOnW) with
    | none => rw [hx] at he; cases he
    | some s' =>
      rw [hx] at he
      have hw : s'.w = 0 := by injection he
      have := h F A 1 .dimmer (-1) none false false ops s m n (by decide) h1 hr 20 (.action .turnOnW) s' hon hx
      rw [hw, hm] at this
      cases this

/-- C30 fails in another way: dimming white and colour together on an RGBW channel copies the colour
brightness to the white brightness without remembering it; the white light is then switched off and
on with another brightness. -/
theorem restore_sync_violation : ¬ RestoresBrightness := by
  intro h
  let F : Rounding := .exact
  let A : Adjuster := linear
  let s0 := boot 1 .rgbw (-1) none false false
  let ops : List (Nat × Op) := [(10, .set 0 0 0 100 30 false false), (20, .action .iterateAll), (30, .action .turnOff)]
  have h1 : ValidRun F A s0 ops := by decide +kernel
  have h2 : (runExpect F A s0 100 100 ops).map (fun x => (x.2.1, TurnsOnW x.1 (.action .turnOnW),
      (exec F A x.1 (40, .action .turnOnW)).map (·.w))) = some (100, true, some 30) := by decide +kernel
  cases hr : runExpect F A s0 100 100 ops with
  | none => rw [hr] at h2; cases h2
  | some x =>
    obtain ⟨s, m, n⟩ := x
    rw [hr] at h2
    injection h2 with h2
    simp only [Prod.mk.injEq] at h2
    obtain ⟨hm, hon, he⟩ := h2
    cases hx : exec F A s (40, .action .turnOnW) with
    | none => rw [hx] at he; cases he
    | some s' =>
      rw [hx] at he
      have hw : s'.w = 30 := by injection he
      have := h F A 1 .rgbw (-1) none false false ops s m n (by decide) h1 hr 40 (.action .turnOnW) s' hon hx
      rw [hw, hm] at this
      cases this

/-! ## The remembered brightness -/

/-- Brightness and remembered brightness agree. -/
def Mem (x last : Nat) : Prop := x ≤ 100 ∧ 0 < last ∧ last ≤ 100 ∧ (x > 0 → last = x)

/-- The remembered brightness is the current one or as before. -/
def Next (x' last' last : Nat) : Prop := last' = if x' > 0 then x' else last

theorem mem_remember {tg : Bool} {x : Int} {cur last : Nat} (h : Mem cur last) (hx : x ≤ 100) :
    Mem (take (remember tg x last).1 cur) (remember tg x last).2 ∧
    Next (take (remember tg x last).1 cur) (remember tg x last).2 last := by
  obtain ⟨h1, h2, h3, h4⟩ := h
  unfold remember
  split
  · have h5 : take (last : Int) cur = last := by
      unfold take
      rw [if_pos (by omega)]
      have := u8_eq (x := (last : Int)) (by omega) (by omega)
      omega
    refine ⟨⟨?_, h2, h3, ?_⟩, ?_⟩
    · show take (last : Int) cur ≤ 100; omega
    · show take (last : Int) cur > 0 → last = take (last : Int) cur; omega
    · show last = if take (last : Int) cur > 0 then take (last : Int) cur else last
      rw [h5]; split <;> rfl
  · split
    · rename_i hpos
      have h5 := u8_eq (x := x) (by omega) (by omega)
      have h6 : take x cur = u8 x := by unfold take; rw [if_pos (by omega)]
      refine ⟨⟨?_, ?_, ?_, ?_⟩, ?_⟩
      · show take x cur ≤ 100; omega
      · show 0 < u8 x; omega
      · show u8 x ≤ 100; omega
      · show take x cur > 0 → u8 x = take x cur; omega
      · show u8 x = if take x cur > 0 then take x cur else last
        rw [h6, if_pos (by omega)]
    · rename_i hpos
      by_cases hz : x = 0
      · have h6 : take x cur = 0 := by subst hz; rfl
        refine ⟨⟨?_, h2, h3, ?_⟩, ?_⟩
        · show take x cur ≤ 100; omega
        · show take x cur > 0 → last = take x cur; omega
        · show last = if take x cur > 0 then take x cur else last
          rw [if_neg (by omega)]
      · have h6 : take x cur = cur := by unfold take; rw [if_neg (by omega)]
        refine ⟨⟨?_, h2, h3, ?_⟩, ?_⟩
        · show take x cur ≤ 100; omega
        · show take x cur > 0 → last = take x cur; omega
        · show last = if take x cur > 0 then take x cur else last
          rw [h6]
          split
          · exact h4 (by omega)
          · rfl

/-- Both brightnesses agree with the remembered ones. -/
def Both (s : Light) : Prop := Mem s.w s.lastW ∧ Mem s.cb s.lastCb

/-- A step that keeps the memory. -/
def Keeps (s s' : Light) : Prop := Both s' ∧ Next s'.w s'.lastW s.lastW ∧ Next s'.cb s'.lastCb s.lastCb

theorem keeps_refl {s s' : Light} (h : Both s) (h1 : s'.w = s.w) (h2 : s'.cb = s.cb) (h3 : s'.lastW = s.lastW)
    (h4 : s'.lastCb = s.lastCb) : Keeps s s' := by
  have hn : ∀ x l, Mem x l → Next x l l := by
    intro x l hm
    unfold Next
    split
    · exact hm.2.2.2 (by assumption)
    · rfl
  unfold Keeps Both
  rw [h1, h2, h3, h4]
  exact ⟨h, hn _ _ h.1, hn _ _ h.2⟩

theorem keeps_set {t : Nat} {r g b cb w : Int} {tg i : Bool} {s : Light} (hs : Both s) (hcb : cb ≤ 100)
    (hw : w ≤ 100) : Keeps s (set t r g b cb w tg i s) := by
  obtain ⟨r', g', b', cb', w', h, h1, h2, h3, h4, h5, _, _⟩ := set_cases t r g b cb w tg i s
  rw [h]
  have hc := mem_remember (tg := tg) (x := cb') hs.2 (by omega)
  have hd := mem_remember (tg := tg) (x := w') hs.1 (by omega)
  exact ⟨⟨hd.1, hc.1⟩, hd.2, hc.2⟩

theorem keeps_setBright {t : Nat} {cb w : Int} {s : Light} (hs : Both s) (hcb : cb ≤ 100) (hw : w ≤ 100) :
    Keeps s (setBright t cb w s) := keeps_set hs hcb hw

theorem keeps_of {s q r : Light} (h1 : q.lastW = s.lastW) (h2 : q.lastCb = s.lastCb) (h : Keeps q r) :
    Keeps s r := by
  unfold Keeps at h ⊢
  rw [← h1, ← h2]
  exact h

theorem keeps_toggle {t : Nat} {s : Light} (hs : Both s) : Keeps s (toggle t s) := by
  have h1 := hs.1.2.2.1
  have h2 := hs.2.2.2.1
  unfold toggle
  split
  · exact keeps_setBright hs (by decide) (by decide)
  · exact keeps_setBright hs (by omega) (by omega)

theorem keeps_iterate {t : Nat} {rs ws : Int} {s : Light} (hs : Both s) (h : s.kind = .dimmer ∨ ¬ (rs > 0 ∧ ws > 0)) :
    Keeps s (iterate t rs ws s) := by
  unfold iterate
  simp only []
  have hno : ¬ ((if s.kind = .dimmer then 0 else rs) > 0 ∧ ws > 0) := by
    split
    · omega
    · rcases h with h | h
      · contradiction
      · exact h
  generalize (if s.kind = .dimmer then 0 else rs) = rs' at hno
  rw [if_neg hno]
  obtain ⟨d, e, f, hq⟩ := iterDir_eq t { s with w := s.w }
  rw [hq]
  generalize hp : (if rs' > 0 then iterDelay t s.cb _ else if ws > 0 then iterDelay t s.w _ else (false, _)) = p
  have hp2 : ∃ d e f, p.2 = { s with dimDir := d, delayAt := e, iterAt := f } := by
    rw [← hp]
    split
    · obtain ⟨d', e', h'⟩ := iterDelay_eq t s.cb { s with dimDir := d, delayAt := e, iterAt := f }
      exact ⟨_, _, _, h'⟩
    · split
      · obtain ⟨d', e', h'⟩ := iterDelay_eq t s.w { s with dimDir := d, delayAt := e, iterAt := f }
        exact ⟨_, _, _, h'⟩
      · exact ⟨_, _, _, rfl⟩
  obtain ⟨d', e', f', hp2⟩ := hp2
  rw [hp2]
  split
  · exact keeps_refl hs rfl rfl rfl rfl
  · obtain ⟨d2, e2, a, b, h2⟩ := iterSet_eq t rs' ws { s with dimDir := d', delayAt := e', iterAt := f' }
    rw [h2]
    have hs' : Both { s with dimDir := d2, delayAt := e2, iterAt := f' } := hs
    refine keeps_of (q := { s with dimDir := d2, delayAt := e2, iterAt := f' }) rfl rfl (keeps_set hs' ?_ ?_)
    · exact addLimit_le (by decide) (by decide) (by have := hs.2.1; show (s.cb : Int) ≤ 100; omega)
    · exact addLimit_le (by decide) (by decide) (by have := hs.1.1; show (s.w : Int) ≤ 100; omega)

theorem keeps_action {t : Nat} {a : Action} {s : Light} (hs : Both s) (hd : s.dimmed ≤ 100)
    (hst : a = .iterateAll → s.kind = .dimmer) : Keeps s (handleAction t a s) := by
  have h1 := hs.2.1
  have h2 := hs.1.1
  have h3 := hs.2.2.2.1
  have h4 := hs.1.2.2.1
  have hl : ∀ (v : Nat) (a : Int), v ≤ 100 → (addLimit v a 100 : Int) ≤ 100 := fun v a h => addLimit_le (by decide) (by decide) (by omega)
  cases a <;> simp only [handleAction]
  case toggle => exact keeps_toggle hs
  case iterateRgb => exact keeps_iterate hs (.inr (by omega))
  case iterateW => exact keeps_iterate hs (.inr (by omega))
  case iterateAll => exact keeps_iterate hs (.inl (hst rfl))
  case turnOn => exact keeps_setBright hs (by omega) (by omega)
  case turnOff => exact keeps_setBright hs (by decide) (by decide)
  case brightenAll => exact keeps_setBright hs (hl _ _ h1) (hl _ _ h2)
  case dimAll => exact keeps_setBright hs (hl _ _ h1) (hl _ _ h2)
  case brightenW => exact keeps_setBright hs (by decide) (hl _ _ h2)
  case dimW => exact keeps_setBright hs (by decide) (hl _ _ h2)
  case brightenRgb => exact keeps_setBright hs (hl _ _ h1) (by decide)
  case dimRgb => exact keeps_setBright hs (hl _ _ h1) (by decide)
  case turnOnRgb => exact keeps_setBright hs (by omega) (by decide)
  case turnOffRgb => exact keeps_setBright hs (by decide) (by decide)
  case toggleRgb => exact keeps_setBright hs (by split <;> omega) (by decide)
  case turnOnW => exact keeps_setBright hs (by decide) (by omega)
  case turnOffW => exact keeps_setBright hs (by decide) (by decide)
  case toggleW => exact keeps_setBright hs (by decide) (by split <;> omega)
  case turnOnRgbDimmed =>
    split
    · exact keeps_setBright hs (by omega) (by decide)
    · exact keeps_refl hs rfl rfl rfl rfl
  case turnOnWDimmed =>
    split
    · exact keeps_setBright hs (by decide) (by omega)
    · exact keeps_refl hs rfl rfl rfl rfl
  case turnOnAllDimmed =>
    split
    · exact keeps_setBright hs (by omega) (by omega)
    · exact keeps_refl hs rfl rfl rfl rfl
  all_goals exact keeps_set hs (by decide) (by decide)

theorem keeps_auto {t : Nat} {s : Light} (hs : Both s) (hd : s.dimmed ≤ 100)
    (hst : s.kind = .dimmer ∨ s.mode ≠ .all) : Keeps s (auto t s) := by
  unfold auto
  split
  · split
    · split
      · exact keeps_action hs hd (by intro h; cases h)
      · exact keeps_action hs hd (by intro h; cases h)
      · rename_i h
        exact keeps_action hs hd (fun _ => by rcases hst with h' | h'; exact h'; exact absurd h h')
      · exact keeps_refl hs rfl rfl rfl rfl
    · exact keeps_refl hs rfl rfl rfl rfl
  · exact keeps_refl hs rfl rfl rfl rfl

theorem measure_eq (T : Five) (s : Light) : ∃ a r g b c w,
    measure T s = { s with reset := a, hr := r, hg := g, hb := b, hcb := c, hwh := w } := by
  unfold measure
  split
  · exact ⟨_, _, _, _, _, _, rfl⟩
  · exact ⟨s.reset, s.hr, s.hg, s.hb, s.hcb, s.hwh, rfl⟩

theorem move_eq (F : Rounding) (t : Nat) (T : Five) (s : Light) : ∃ r g b c w d i,
    move F t T s = { s with hr := r, hg := g, hb := b, hcb := c, hwh := w, changed := d, instant := i } := by
  unfold move
  split
  · exact ⟨_, _, _, _, _, _, _, rfl⟩
  · exact ⟨_, _, _, _, _, _, s.instant, rfl⟩

theorem emit_eq {s s' : Light} (h : emit s = some s') : ∃ c l, s' = { s with changed := c, out := l } := by
  unfold emit at h
  split at h
  · cases h1 : scale s.hcb.hw s.maxHw s.minCb s.maxCb with
    | none => rw [h1] at h; cases h
    | some a =>
      cases h2 : scale s.hwh.hw s.maxHw s.minW s.maxW with
      | none => rw [h1, h2] at h; cases h
      | some b =>
        rw [h1, h2] at h
        injection h with h
        exact ⟨_, _, h.symm⟩
  · injection h with h
    exact ⟨s.changed, s.out, h.symm⟩

/-- A pass changes nothing but the hardware state after the automatic iteration. -/
theorem pass_cmd {F : Rounding} {A : Adjuster} {t : Nat} {s s' : Light} (h : pass F A t s = some s') :
    (s' = start t s) ∨ (s'.w = (auto t s).w ∧ s'.cb = (auto t s).cb ∧ s'.lastW = (auto t s).lastW ∧
      s'.lastCb = (auto t s).lastCb ∧ s'.kind = (auto t s).kind ∧ s'.dimmed = (auto t s).dimmed ∧
      s'.r = (auto t s).r ∧ s'.g = (auto t s).g ∧ s'.b = (auto t s).b ∧ s'.step = (auto t s).step ∧
      s'.minIter = (auto t s).minIter ∧ s'.maxHw = (auto t s).maxHw) := by
  unfold pass at h
  split at h
  · injection h with h
    exact .inl h.symm
  · simp only [] at h
    right
    split at h
    · generalize targets A _ = T at h
      obtain ⟨a1, r1, g1, b1, c1, w1, h1⟩ := measure_eq T { auto t s with lastTick := clk t }
      rw [h1] at h
      obtain ⟨r2, g2, b2, c2, w2, d2, i2, h2⟩ := move_eq F t T { auto t s with lastTick := clk t, reset := a1, hr := r1, hg := g1, hb := b1, hcb := c1, hwh := w1 }
      rw [h2] at h
      obtain ⟨c3, l3, h3⟩ := emit_eq h
      rw [h3]
      exact ⟨rfl, rfl, rfl, rfl, rfl, rfl, rfl, rfl, rfl, rfl, rfl, rfl⟩
    · injection h with h
      subst h
      exact ⟨rfl, rfl, rfl, rfl, rfl, rfl, rfl, rfl, rfl, rfl, rfl, rfl⟩

theorem keeps_server {t : Nat} {q : Request} {s : Light} (hs : Both s) (hq : Steady s (.server q)) :
    Both (server t q s) ∧
    Next (server t q s).w (server t q s).lastW
      (if q.command % 256 = 10 ∧ s.w = 0 ∧ q.w % 256 > 0 then min 100 (q.w % 256) else s.lastW) ∧
    Next (server t q s).cb (server t q s).lastCb
      (if q.command % 256 = 11 ∧ s.cb = 0 ∧ q.cb % 256 > 0 then min 100 (q.cb % 256) else s.lastCb) := by
  have h1 := hs.2.1
  have h2 := hs.1.1
  have h3 := hs.2.2.2.1
  have h4 := hs.1.2.2.1
  have c1 := cap_le q.cb
  have c2 := cap_le q.w
  by_cases h10 : q.command % 256 = 10
  · rw [if_neg (show ¬ (q.command % 256 = 11 ∧ s.cb = 0 ∧ q.cb % 256 > 0) by omega)]
    have hpos := hq.1 h10
    have hcap : cap q.w = min 100 (q.w % 256) := by unfold cap; split <;> omega
    have e : server t q s = if s.w > 0 then setBright t (-1) (cap q.w) s else { s with lastW := cap q.w } := by
      unfold server; rw [h10]; rfl
    rw [e]
    by_cases hw : s.w > 0
    · rw [if_pos hw, if_neg (by omega)]
      exact keeps_setBright hs (by decide) (by omega)
    · rw [if_neg hw, if_pos ⟨h10, by omega, hpos⟩]
      have hk := keeps_refl (s' := s) hs rfl rfl rfl rfl
      refine ⟨⟨⟨h2, ?_, c2, fun h => absurd h hw⟩, hs.2⟩, ?_, hk.2.2⟩
      · show 0 < cap q.w; omega
      · show cap q.w = if s.w > 0 then s.w else min 100 (q.w % 256)
        rw [if_neg hw, hcap]
  · by_cases h11 : q.command % 256 = 11
    · rw [if_neg (show ¬ (q.command % 256 = 10 ∧ s.w = 0 ∧ q.w % 256 > 0) by omega)]
      have hpos := hq.2 h11
      have hcap : cap q.cb = min 100 (q.cb % 256) := by unfold cap; split <;> omega
      have e : server t q s = if s.cb > 0 then setBright t (cap q.cb) (-1) s else { s with lastCb := cap q.cb } := by
        unfold server; rw [h11]; rfl
      rw [e]
      by_cases hw : s.cb > 0
      · rw [if_pos hw, if_neg (by omega)]
        exact keeps_setBright hs (by omega) (by decide)
      · rw [if_neg hw, if_pos ⟨h11, by omega, hpos⟩]
        have hk := keeps_refl (s' := s) hs rfl rfl rfl rfl
        refine ⟨⟨hs.1, h1, ?_, c1, fun h => absurd h hw⟩, hk.2.1, ?_⟩
        · show 0 < cap q.cb; omega
        · show cap q.cb = if s.cb > 0 then s.cb else min 100 (q.cb % 256)
          rw [if_neg hw, hcap]
    · rw [if_neg (show ¬ (q.command % 256 = 10 ∧ s.w = 0 ∧ q.w % 256 > 0) by omega),
        if_neg (show ¬ (q.command % 256 = 11 ∧ s.cb = 0 ∧ q.cb % 256 > 0) by omega)]
      show Keeps s (server t q s)
      unfold server
      split
      · exact keeps_set hs (by omega) (by omega)
      · exact keeps_setBright hs (by decide) (by omega)
      · exact keeps_setBright hs (by decide) (by decide)
      · exact keeps_setBright hs (by decide) (by split <;> omega)
      · exact keeps_setBright hs (by omega) (by decide)
      · exact keeps_setBright hs (by decide) (by decide)
      · exact keeps_setBright hs (by split <;> omega) (by decide)
      · exact keeps_setBright hs (by omega) (by omega)
      · exact keeps_setBright hs (by decide) (by decide)
      · exact keeps_toggle hs
      · contradiction
      · contradiction
      · exact keeps_set hs (by decide) (by decide)
      all_goals exact keeps_refl hs rfl rfl rfl rfl

theorem keeps_init {t : Nat} {si : Int} {mo : Option Bool} {fr fw : Bool} {s : Light} (hs : Both s) :
    Keeps s (init t si mo fr fw s) := by
  obtain ⟨a, b, h, h3, h4⟩ := init_eq t si mo fr fw s
  rw [h]
  have h1 := hs.2.1
  have h2 := hs.1.1
  have h5 := hs.2.2.2.1
  have h6 := hs.1.2.2.1
  obtain ⟨r', g', b', cb', w', h, _, _, _, hc, hw, _, _⟩ := set_cases t s.r s.g s.b a b (decide (si = 1)) false { s with cb := a, w := b }
  rw [h]
  -- the argument of each component, whatever its class does to it, is one the memory is kept under
  have key : ∀ (x : Int) (c cur last : Nat), Mem cur last → ((si = 1 ∧ c = 100) ∨ (si ≠ 1 ∧ (c = 0 ∨ c = last ∨ c = cur))) →
      (x = c ∨ x = 0) →
      Mem (take (remember (decide (si = 1)) x last).1 c) (remember (decide (si = 1)) x last).2 ∧
      Next (take (remember (decide (si = 1)) x last).1 c) (remember (decide (si = 1)) x last).2 last := by
    intro x c cur last hm hcc hx
    have hc100 : c ≤ 100 := by
      have := hm.1
      have := hm.2.2.1
      omega
    -- `c` is overwritten, so it may be replaced by 0
    have hx0 : 0 ≤ x := by omega
    have e : ∀ d, take (remember (decide (si = 1)) x last).1 d = take (remember (decide (si = 1)) x last).1 0 := by
      intro d
      have : 0 ≤ (remember (decide (si = 1)) x last).1 := by
        unfold remember
        split
        · show 0 ≤ (last : Int); omega
        · split <;> exact hx0
      unfold take
      rw [if_pos this, if_pos this]
    rw [e c]
    exact mem_remember (cur := 0) ⟨by omega, hm.2.1, hm.2.2.1, fun h => by omega⟩ (by omega)
  have k1 := key w' b s.w s.lastW hs.1 h4 hw
  have k2 := key cb' a s.cb s.lastCb hs.2 h3 hc
  exact ⟨⟨k1.1, k2.1⟩, k1.2, k2.2⟩

/-- What a step keeps, for the components the class has. -/
def Kept (o : Op) (s s' : Light) : Prop :=
  Both s' ∧ (s.kind ≠ .rgb → s'.lastW = expectW o s s' s.lastW) ∧
  (s.kind ≠ .dimmer → s'.lastCb = expectCb o s s' s.lastCb)

theorem Keeps.kept {o : Op} {s s' : Light} (hk : Keeps s s') (ho : ∀ q, o ≠ .server q) : Kept o s s' := by
  refine ⟨hk.1, fun _ => ?_, fun _ => ?_⟩
  · rw [hk.2.1]
    unfold expectW
    cases o <;> first | rfl | exact absurd rfl (ho _)
  · rw [hk.2.2]
    unfold expectCb
    cases o <;> first | rfl | exact absurd rfl (ho _)

theorem mem0 : Mem 0 100 := ⟨by decide, by decide, by decide, by decide⟩

theorem kept_restart {t : Nat} {si : Int} {mo : Option Bool} {fr fw : Bool} {s : Light} (hs : Both s) :
    Kept (.restart si mo fr fw) s (restart t si mo fr fw s) := by
  unfold restart
  cases hk : s.kind with
  | rgbw =>
    have hq := keeps_init (t := t) (si := si) (mo := mo) (fr := fr) (fw := fw) (s := { kind := .rgbw, step := s.step, dimmed := s.dimmed, minIter := s.minIter, maxHw := s.maxHw, minW := s.minW, maxW := s.maxW, minCb := s.minCb, maxCb := s.maxCb, iterMax := s.iterMax, fade := s.fade, out := s.out, sent := s.sent, r := s.r, g := s.g, b := s.b, cb := s.cb, w := s.w, lastCb := s.lastCb, lastW := s.lastW }) hs
    exact ⟨hq.1, fun _ => hq.2.1, fun _ => hq.2.2⟩
  | rgb =>
    have hq := keeps_init (t := t) (si := si) (mo := mo) (fr := fr) (fw := fw) (s := { kind := .rgb, step := s.step, dimmed := s.dimmed, minIter := s.minIter, maxHw := s.maxHw, minW := s.minW, maxW := s.maxW, minCb := s.minCb, maxCb := s.maxCb, iterMax := s.iterMax, fade := s.fade, out := s.out, sent := s.sent, r := s.r, g := s.g, b := s.b, cb := s.cb, lastCb := s.lastCb }) ⟨mem0, hs.2⟩
    exact ⟨hq.1, fun h => absurd hk h, fun _ => hq.2.2⟩
  | dimmer =>
    have hq := keeps_init (t := t) (si := si) (mo := mo) (fr := fr) (fw := fw) (s := { kind := .dimmer, step := s.step, dimmed := s.dimmed, minIter := s.minIter, maxHw := s.maxHw, minW := s.minW, maxW := s.maxW, minCb := s.minCb, maxCb := s.maxCb, iterMax := s.iterMax, fade := s.fade, out := s.out, sent := s.sent, w := s.w, lastW := s.lastW }) ⟨hs.1, mem0⟩
    exact ⟨hq.1, fun _ => hq.2.1, fun h => absurd hk h⟩

theorem kept_exec {F : Rounding} {A : Adjuster} {t : Nat} {o : Op} {s s' : Light} (hs : Both s) (hok : Ok s)
    (hv : Valid s o) (hst : Steady s o) (h : exec F A s (t, o) = some s') : Kept o s s' := by
  cases o with
  | pass =>
    refine Keeps.kept ?_ (by intro q h; cases h)
    rcases pass_cmd h with h | h
    · subst h
      exact keeps_refl hs rfl rfl rfl rfl
    · have ha := keeps_auto (t := t) hs hok.dimmed hst
      unfold Keeps Both
      rw [h.1, h.2.1, h.2.2.1, h.2.2.2.1]
      exact ha
  | report =>
    refine Keeps.kept ?_ (by intro q h; cases h)
    injection h with h
    subst h
    show Keeps s (report t s)
    unfold report
    split <;> exact keeps_refl hs rfl rfl rfl rfl
  | server q =>
    injection h with h
    subst h
    have hq := keeps_server (t := t) hs hst
    exact ⟨hq.1, fun _ => hq.2.1, fun _ => hq.2.2⟩
  | action a =>
    refine Keeps.kept ?_ (by intro q h; cases h)
    injection h with h
    subst h
    refine keeps_action hs hok.dimmed ?_
    intro ha
    subst ha
    exact hst
  | set r g b cb w tg i =>
    refine Keeps.kept ?_ (by intro q h; cases h)
    injection h with h
    subst h
    exact keeps_set hs hv.2.2.2.1 hv.2.2.2.2
  | restart si mo fr fw =>
    injection h with h
    subst h
    exact kept_restart hs
  | limits lo hi =>
    refine Keeps.kept ?_ (by intro q h; cases h)
    injection h with h
    subst h
    show Keeps s (setLimits lo hi s)
    unfold setLimits
    simp only []
    split <;> exact keeps_refl hs rfl rfl rfl rfl
  | colorLimits lo hi =>
    refine Keeps.kept ?_ (by intro q h; cases h)
    injection h with h
    subst h
    show Keeps s (setColorLimits lo hi s)
    unfold setColorLimits
    simp only []
    split <;> exact keeps_refl hs rfl rfl rfl rfl
  | _ =>
    refine Keeps.kept ?_ (by intro q h; cases h)
    injection h with h
    subst h
    exact keeps_refl hs rfl rfl rfl rfl

theorem still_kind {s q : Light} (h : q.still = s.still) : q.kind = s.kind := congrArg Still.kind h

theorem init_kind (t : Nat) (si : Int) (mo : Option Bool) (fr fw : Bool) (s : Light) :
    (init t si mo fr fw s).kind = s.kind := by
  obtain ⟨a, b, h, _, _⟩ := init_eq t si mo fr fw s
  rw [h]
  exact still_kind (set_still ..)

theorem exec_kind {F : Rounding} {A : Adjuster} {t : Nat} {o : Op} {s s' : Light}
    (h : exec F A s (t, o) = some s') : s'.kind = s.kind := by
  cases o with
  | pass =>
    rcases pass_cmd h with h | h
    · subst h; rfl
    · rw [h.2.2.2.2.1]; exact still_kind (auto_still ..)
  | report =>
    injection h with h
    subst h
    show (report t s).kind = s.kind
    unfold report
    split <;> rfl
  | server q => injection h with h; subst h; exact still_kind (server_still ..)
  | action a => injection h with h; subst h; exact still_kind (handleAction_still ..)
  | set r g b cb w tg i => injection h with h; subst h; exact still_kind (set_still ..)
  | restart si mo fr fw =>
    injection h with h
    subst h
    show (restart t si mo fr fw s).kind = s.kind
    unfold restart
    rw [init_kind]
    cases s.kind <;> rfl
  | limits lo hi =>
    injection h with h
    subst h
    show (setLimits lo hi s).kind = s.kind
    unfold setLimits
    simp only []
    split <;> rfl
  | colorLimits lo hi =>
    injection h with h
    subst h
    show (setColorLimits lo hi s).kind = s.kind
    unfold setColorLimits
    simp only []
    split <;> rfl
  | _ => injection h with h; subst h; rfl

theorem exec_ok {F : Rounding} {A : Adjuster} {t : Nat} {o : Op} {s s' : Light} (hs : Ok s) (hv : Valid s o)
    (h : exec F A s (t, o) = some s') : Ok s' := by
  cases o with
  | pass =>
    rcases pass_cmd h with h | ⟨h1, h2, h3, h4, _, h5, h6, h7, h8, h9, h10, _⟩
    · subst h; exact ⟨hs.r, hs.g, hs.b, hs.cb, hs.w, hs.lastCb, hs.lastW, hs.dimmed, hs.step, hs.minIter⟩
    · have ha := auto_ok (t := t) hs
      exact ⟨h6 ▸ ha.r, h7 ▸ ha.g, h8 ▸ ha.b, h2 ▸ ha.cb, h1 ▸ ha.w, h4 ▸ ha.lastCb, h3 ▸ ha.lastW, h5 ▸ ha.dimmed, h9 ▸ ha.step, h10 ▸ ha.minIter⟩
  | report =>
    injection h with h
    subst h
    show Ok (report t s)
    unfold report
    split <;> exact ⟨hs.r, hs.g, hs.b, hs.cb, hs.w, hs.lastCb, hs.lastW, hs.dimmed, hs.step, hs.minIter⟩
  | server q => injection h with h; subst h; exact server_ok hs
  | action a => injection h with h; subst h; exact handleAction_ok hs
  | set r g b cb w tg i =>
    injection h with h
    subst h
    exact set_ok hs hv.1 hv.2.1 hv.2.2.1 hv.2.2.2.1 hv.2.2.2.2
  | restart si mo fr fw => injection h with h; subst h; exact restart_ok hs
  | limits lo hi =>
    injection h with h
    subst h
    show Ok (setLimits lo hi s)
    unfold setLimits
    simp only []
    split <;> exact ⟨hs.r, hs.g, hs.b, hs.cb, hs.w, hs.lastCb, hs.lastW, hs.dimmed, hs.step, hs.minIter⟩
  | colorLimits lo hi =>
    injection h with h
    subst h
    show Ok (setColorLimits lo hi s)
    unfold setColorLimits
    simp only []
    split <;> exact ⟨hs.r, hs.g, hs.b, hs.cb, hs.w, hs.lastCb, hs.lastW, hs.dimmed, hs.step, hs.minIter⟩
  | dimmed n =>
    injection h with h
    subst h
    refine ⟨hs.r, hs.g, hs.b, hs.cb, hs.w, hs.lastCb, hs.lastW, ?_, hs.step, hs.minIter⟩
    have h1 : 0 ≤ n ∧ n ≤ 100 := hv
    have := u8_eq (x := n) (by omega) (by omega)
    show u8 n ≤ 100
    omega
  | step n =>
    injection h with h
    subst h
    exact ⟨hs.r, hs.g, hs.b, hs.cb, hs.w, hs.lastCb, hs.lastW, hs.dimmed, u8_lt n, hs.minIter⟩
  | minIter n =>
    injection h with h
    subst h
    exact ⟨hs.r, hs.g, hs.b, hs.cb, hs.w, hs.lastCb, hs.lastW, hs.dimmed, hs.step, u8_lt n⟩
  | _ =>
    injection h with h
    subst h
    exact ⟨hs.r, hs.g, hs.b, hs.cb, hs.w, hs.lastCb, hs.lastW, hs.dimmed, hs.step, hs.minIter⟩

/-- After every history of valid and steady operations, the brightnesses and the expectations agree. -/
theorem run_expect {F : Rounding} {A : Adjuster} {k : Kind} (h : List (Nat × Op)) : ∀ {s q : Light} {m n m' n' : Nat},
    Both s → Ok s → s.kind = k → (k ≠ .rgb → s.lastW = m) → (k ≠ .dimmer → s.lastCb = n) → SteadyRun F A s h →
    runExpect F A s m n h = some (q, m', n') →
    Both q ∧ Ok q ∧ q.kind = k ∧ (k ≠ .rgb → q.lastW = m') ∧ (k ≠ .dimmer → q.lastCb = n') := by
  induction h with
  | nil =>
    intro s q m n m' n' h1 h2 h3 h4 h5 _ hr
    unfold runExpect at hr
    injection hr with hr
    simp only [Prod.mk.injEq] at hr
    obtain ⟨rfl, rfl, rfl⟩ := hr
    exact ⟨h1, h2, h3, h4, h5⟩
  | cons e h ih =>
    intro s q m n m' n' h1 h2 h3 h4 h5 hv hr
    obtain ⟨t, o⟩ := e
    unfold runExpect at hr
    unfold SteadyRun at hv
    cases hx : exec F A s (t, o) with
    | none => rw [hx] at hr; cases hr
    | some s' =>
      rw [hx] at hr
      have hk := kept_exec h1 h2 hv.1.1 hv.1.2 hx
      refine ih hk.1 (exec_ok h2 hv.1.1 hx) ((exec_kind hx).trans h3) ?_ ?_ (hv.2 _ hx) hr
      · intro h
        rw [hk.2.1 (h3 ▸ h), h4 h]
      · intro h
        rw [hk.2.2 (h3 ▸ h), h5 h]

theorem boot_both (t : Nat) (k : Kind) (si : Int) (mo : Option Bool) (fr fw : Bool) :
    Both (boot t k si mo fr fw) ∧ (boot t k si mo fr fw).lastW = 100 ∧ (boot t k si mo fr fw).lastCb = 100 := by
  have e : boot t k si mo fr fw = init t si mo fr fw { kind := k } := rfl
  have hb : Both { kind := k } := ⟨mem0, mem0⟩
  have h := keeps_init (t := t) (si := si) (mo := mo) (fr := fr) (fw := fw) hb
  refine ⟨h.1, ?_, ?_⟩
  · obtain ⟨a, b, he, h3, h4⟩ := init_eq t si mo fr fw { kind := k }
    obtain ⟨r', g', b', cb', w', hs, _, _, _, hc, hw, _, _⟩ := set_cases t (0 : Nat) (255 : Nat) (0 : Nat) a b (decide (si = 1)) false { kind := k, cb := a, w := b }
    rw [e, he, hs]
    show (remember (decide (si = 1)) w' 100).2 = 100
    unfold remember
    split
    · rfl
    · rename_i hno
      split
      · show u8 w' = 100
        have h4' : (si = 1 ∧ b = 100) ∨ (si ≠ 1 ∧ (b = 0 ∨ b = 100 ∨ b = 0)) := h4
        have hb : w' = 100 := by
          have h0 : w' ≠ 0 := by omega
          omega
        rw [hb]; rfl
      · rfl
  · obtain ⟨a, b, he, h3, h4⟩ := init_eq t si mo fr fw { kind := k }
    obtain ⟨r', g', b', cb', w', hs, _, _, _, hc, hw, _, _⟩ := set_cases t (0 : Nat) (255 : Nat) (0 : Nat) a b (decide (si = 1)) false { kind := k, cb := a, w := b }
    rw [e, he, hs]
    show (remember (decide (si = 1)) cb' 100).2 = 100
    unfold remember
    split
    · rfl
    · rename_i hno
      split
      · show u8 cb' = 100
        have h3' : (si = 1 ∧ a = 100) ∨ (si ≠ 1 ∧ (a = 0 ∨ a = 100 ∨ a = 0)) := h3
        have hb : cb' = 100 := by
          have h0 : cb' ≠ 0 := by omega
          omega
        rw [hb]; rfl
      · rfl

theorem setBright_w {t : Nat} {cb : Int} {s : Light} (hk : s.kind ≠ .rgb) (hl : s.lastW ≤ 100) :
    (setBright t cb s.lastW s).w = s.lastW := by
  obtain ⟨r', g', b', cb', w', h, _, _, _, _, _, _, hw⟩ := set_cases t (-1) (-1) (-1) cb s.lastW false false s
  have hw := hw hk
  subst hw
  unfold setBright
  rw [h]
  show take (remember false (s.lastW : Int) s.lastW).1 s.w = s.lastW
  have h1 : (remember false (s.lastW : Int) s.lastW).1 = s.lastW := by
    unfold remember
    rw [if_neg (by intro h; cases h.1)]
    split <;> rfl
  rw [h1]
  unfold take
  rw [if_pos (by omega)]
  have := u8_eq (x := (s.lastW : Int)) (by omega) (by omega)
  omega

theorem setBright_cb {t : Nat} {w : Int} {s : Light} (hk : s.kind ≠ .dimmer) (hl : s.lastCb ≤ 100) :
    (setBright t s.lastCb w s).cb = s.lastCb := by
  obtain ⟨r', g', b', cb', w', h, _, _, _, _, _, hcb, _⟩ := set_cases t (-1) (-1) (-1) s.lastCb w false false s
  have hcb := hcb hk
  subst hcb
  unfold setBright
  rw [h]
  show take (remember false (s.lastCb : Int) s.lastCb).1 s.cb = s.lastCb
  have h1 : (remember false (s.lastCb : Int) s.lastCb).1 = s.lastCb := by
    unfold remember
    rw [if_neg (by intro h; cases h.1)]
    split <;> rfl
  rw [h1]
  unfold take
  rw [if_pos (by omega)]
  have := u8_eq (x := (s.lastCb : Int)) (by omega) (by omega)
  omega

theorem exec_turnsOnW {F : Rounding} {A : Adjuster} {t : Nat} {o : Op} {s s' : Light} (hk : s.kind ≠ .rgb)
    (hs : Ok s) (ho : TurnsOnW s o = true) (h : exec F A s (t, o) = some s') : s'.w = s.lastW := by
  have hw : ∀ cb, (setBright t cb s.lastW s).w = s.lastW := fun cb => setBright_w hk hs.lastW
  unfold TurnsOnW at ho
  split at ho
  · injection h with h; subst h; exact hw _
  · injection h with h; subst h; exact hw _
  · injection h with h; subst h
    show (toggle t s).w = _
    unfold toggle
    have : s.isOn = false := by cases hon : s.isOn with | false => rfl | true => rw [hon] at ho; cases ho
    rw [this]
    exact hw _
  · injection h with h; subst h
    have : s.w = 0 := by simpa using ho
    show (setBright t (-1) (if s.w > 0 then 0 else s.lastW) s).w = _
    rw [if_neg (by omega)]
    exact hw _
  · rename_i q
    injection h with h; subst h
    show (server t q s).w = _
    unfold server
    split at ho
    · rename_i hc; rw [hc]; exact hw _
    · rename_i hc; rw [hc]; exact hw _
    · rename_i hc; rw [hc]
      show (toggle t s).w = _
      unfold toggle
      have : s.isOn = false := by cases hon : s.isOn with | false => rfl | true => rw [hon] at ho; cases ho
      rw [this]
      exact hw _
    · rename_i hc; rw [hc]
      have : s.w = 0 := by simpa using ho
      show (setBright t (-1) (if s.w > 0 then 0 else s.lastW) s).w = _
      rw [if_neg (by omega)]
      exact hw _
    · cases ho
  · cases ho

theorem exec_turnsOnCb {F : Rounding} {A : Adjuster} {t : Nat} {o : Op} {s s' : Light} (hk : s.kind ≠ .dimmer)
    (hs : Ok s) (ho : TurnsOnCb s o = true) (h : exec F A s (t, o) = some s') : s'.cb = s.lastCb := by
  have hw : ∀ w, (setBright t s.lastCb w s).cb = s.lastCb := fun cb => setBright_cb hk hs.lastCb
  unfold TurnsOnCb at ho
  split at ho
  · injection h with h; subst h; exact hw _
  · injection h with h; subst h; exact hw _
  · injection h with h; subst h
    show (toggle t s).cb = _
    unfold toggle
    have : s.isOn = false := by cases hon : s.isOn with | false => rfl | true => rw [hon] at ho; cases ho
    rw [this]
    exact hw _
  · injection h with h; subst h
    have : s.cb = 0 := by simpa using ho
    show (setBright t (if s.cb > 0 then 0 else s.lastCb) (-1) s).cb = _
    rw [if_neg (by omega)]
    exact hw _
  · rename_i q
    injection h with h; subst h
    show (server t q s).cb = _
    unfold server
    split at ho
    · rename_i hc; rw [hc]; exact hw _
    · rename_i hc; rw [hc]; exact hw _
    · rename_i hc; rw [hc]
      show (toggle t s).cb = _
      unfold toggle
      have : s.isOn = false := by cases hon : s.isOn with | false => rfl | true => rw [hon] at ho; cases ho
      rw [this]
      exact hw _
    · rename_i hc; rw [hc]
      have : s.cb = 0 := by simpa using ho
      show (setBright t (if s.cb > 0 then 0 else s.lastCb) (-1) s).cb = _
      rw [if_neg (by omega)]
      exact hw _
    · cases ho
  · cases ho

/-- C30, for histories without the two operations of the violations: whatever happened before
(including restarts), switching the white light on gives it the brightness it had before it was
switched off, or the one set for later. The full claim is `RestoresBrightness`. -/
theorem restore_white_partial {F : Rounding} {A : Adjuster} {t : Nat} {k : Kind} {si : Int} {mo : Option Bool} {fr fw : Bool}
    {h : List (Nat × Op)} {s : Light} {m n : Nat} (hk : k ≠ .rgb) (hv : SteadyRun F A (boot t k si mo fr fw) h)
    (hr : runExpect F A (boot t k si mo fr fw) 100 100 h = some (s, m, n))
    {t' : Nat} {o : Op} {s' : Light} (ho : TurnsOnW s o = true) (hx : exec F A s (t', o) = some s') :
    s'.w = m ∧ 0 < m := by
  have hb := boot_both t k si mo fr fw
  have hbk : (boot t k si mo fr fw).kind = k := init_kind ..
  obtain ⟨h1, h2, h3, h4, _⟩ := run_expect h hb.1 (boot_ok ..) hbk (fun _ => hb.2.1) (fun _ => hb.2.2) hv hr
  rw [exec_turnsOnW (h3 ▸ hk) h2 ho hx]
  exact ⟨h4 hk, by rw [← h4 hk]; exact h1.1.2.1⟩

/-- C30 for the colour brightness. -/
theorem restore_colour_partial {F : Rounding} {A : Adjuster} {t : Nat} {k : Kind} {si : Int} {mo : Option Bool} {fr fw : Bool}
    {h : List (Nat × Op)} {s : Light} {m n : Nat} (hk : k ≠ .dimmer) (hv : SteadyRun F A (boot t k si mo fr fw) h)
    (hr : runExpect F A (boot t k si mo fr fw) 100 100 h = some (s, m, n))
    {t' : Nat} {o : Op} {s' : Light} (ho : TurnsOnCb s o = true) (hx : exec F A s (t', o) = some s') :
    s'.cb = n ∧ 0 < n := by
  have hb := boot_both t k si mo fr fw
  have hbk : (boot t k si mo fr fw).kind = k := init_kind ..
  obtain ⟨h1, h2, h3, _, h4⟩ := run_expect h hb.1 (boot_ok ..) hbk (fun _ => hb.2.1) (fun _ => hb.2.2) hv hr
  rw [exec_turnsOnCb (h3 ▸ hk) h2 ho hx]
  exact ⟨h4 hk, by rw [← h4 hk]; exact h1.2.2.1⟩

/-- A history on an RGBW light: dimmed by hand to 60, switched off, brightness 40 set for later,
restarted. -/
def witness : List (Nat × Op) :=
  [(1, .pass), (5, .set 10 20 30 70 80 false false), (10, .pass), (20, .action .dimAll), (30, .action .dimAll),
    (40, .action .turnOff), (50, .server { command := 11, cb := 40 }), (60, .restart (-1) none false false), (70, .pass)]

example : SteadyRun .exact linear (boot 1 .rgbw (-1) none false false) witness := by decide +kernel
example : (runExpect .exact linear (boot 1 .rgbw (-1) none false false) 100 100 witness).map
    (fun x => (x.2, x.1.w, TurnsOnW x.1 (.action .toggle), TurnsOnCb x.1 (.server { command := 4 }))) =
    some ((60, 40), 0, true, true) := by decide +kernel

/-- Operations that switch something on or off. -/
def Switches : Op → Bool
  | .action a => a ∈ [.turnOn, .turnOff, .toggle, .turnOnRgb, .turnOffRgb, .toggleRgb, .turnOnW, .turnOffW, .toggleW]
  | .server q => decide (1 ≤ q.command % 256 ∧ q.command % 256 ≤ 9)
  | _ => false

theorem setBright_colour {t : Nat} {cb w : Int} {s : Light} (hk : s.kind ≠ .dimmer) :
    (setBright t cb w s).r = s.r ∧ (setBright t cb w s).g = s.g ∧ (setBright t cb w s).b = s.b := by
  unfold setBright set
  cases h : s.kind with
  | rgbw => exact ⟨rfl, rfl, rfl⟩
  | rgb => exact ⟨rfl, rfl, rfl⟩
  | dimmer => exact absurd h hk

/-- C30, the colour: switching on and off does not change it. -/
theorem switch_keeps_colour {F : Rounding} {A : Adjuster} {t : Nat} {o : Op} {s s' : Light} (hk : s.kind ≠ .dimmer)
    (ho : Switches o = true) (h : exec F A s (t, o) = some s') : s'.r = s.r ∧ s'.g = s.g ∧ s'.b = s.b := by
  have ht : (toggle t s).r = s.r ∧ (toggle t s).g = s.g ∧ (toggle t s).b = s.b := by
    unfold toggle
    split <;> exact setBright_colour hk
  cases o with
  | action a =>
    injection h with h
    subst h
    cases a <;> first | exact setBright_colour hk | exact ht | cases ho
  | server q =>
    injection h with h
    subst h
    show (server t q s).r = s.r ∧ (server t q s).g = s.g ∧ (server t q s).b = s.b
    have ho : 1 ≤ q.command % 256 ∧ q.command % 256 ≤ 9 := of_decide_eq_true ho
    unfold server
    generalize q.command % 256 = n at ho
    have hn : n = 1 ∨ n = 2 ∨ n = 3 ∨ n = 4 ∨ n = 5 ∨ n = 6 ∨ n = 7 ∨ n = 8 ∨ n = 9 := by omega
    rcases hn with h | h | h | h | h | h | h | h | h <;> subst h <;> first | exact setBright_colour hk | exact ht
  | _ => cases ho

example : Switches (.server { command := 9 }) = true ∧ Switches (.action .toggleRgb) = true := by decide

/-- Brightness is a percentage, colours are bytes, after every valid history. -/
theorem brightness_in_range {F : Rounding} {A : Adjuster} {t : Nat} {k : Kind} {si : Int} {mo : Option Bool} {fr fw : Bool}
    {h : List (Nat × Op)} : ∀ {s : Light}, ValidRun F A (boot t k si mo fr fw) h →
    run F A (boot t k si mo fr fw) h = some s → s.w ≤ 100 ∧ s.cb ≤ 100 ∧ s.r ≤ 255 ∧ s.g ≤ 255 ∧ s.b ≤ 255 := by
  suffices H : ∀ (h : List (Nat × Op)) (q s : Light), Ok q → ValidRun F A q h → run F A q h = some s → Ok s by
    intro s hv hr
    have := H h _ s (boot_ok ..) hv hr
    exact ⟨this.w, this.cb, this.r, this.g, this.b⟩
  intro h
  induction h with
  | nil => intro q s hq _ hr; injection hr with hr; exact hr ▸ hq
  | cons e h ih =>
    intro q s hq hv hr
    unfold run at hr
    unfold ValidRun at hv
    cases hx : exec F A q e with
    | none => rw [hx] at hr; cases hr
    | some q' =>
      rw [hx] at hr
      exact ih q' s (exec_ok (t := e.1) (o := e.2) hq hv.1 hx) (hv.2 _ hx) hr

example : ValidRun .exact linear (boot 1 .rgbw 1 none false false) witness := by decide +kernel

end Verif.Rgbw
