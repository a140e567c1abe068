import Verif.Shutter.PhysProps
/-!
# C114: a full movement puts things right

A command to move up or down without a position runs for the whole travel time and more. Whatever the error was before, when
the motor has stopped the shutter is at its end, and the device shows it.
-/

namespace Verif.Shutter

/-- Timer passes only. -/
def passes (ts : List Nat) : List (Nat × Op) := ts.map fun t => (t, .pass)

/-- Stages of a full movement down. -/
inductive Closes (R : Rig) (μ : Int) (w : World) : Prop
  | asked (hd : w.s.dir = .stop) (ht : w.s.target = moveDownPos) (hn : w.s.newTarget = true) (hm : w.s.margin = μ)
  | going (τ : Nat) (hd : w.s.dir = .down) (ht : w.s.target = moveDownPos) (hn : w.s.newTarget = false)
      (hs : w.s.started = clk τ) (h1 : τ ≤ w.now) (h2 : w.now ≤ τ + w.s.timeout) (h3 : R.closing ≤ w.s.timeout)
      (h4 : w.s.timeout + R.gap < 2 ^ 32) (hf : w.fresh = w.now) (hp : 0 ≤ w.s.startPos ∧ w.s.startPos ≤ 100)
      (hx : min 100 (100 * ((w.now - τ : Nat) : Rat) / R.closing) ≤ w.x)
  | ending (hd : w.s.dir = .down) (ht : w.s.target = stopPos) (hn : w.s.newTarget = true) (hp : w.s.pos = 100) (hx : w.x = 100)
      (h0 : w.s.timeout = 0)
  | done (hd : w.s.dir = .stop) (ht : w.s.target = stopPos) (hn : w.s.newTarget = false) (hp : w.s.pos = 100) (hx : w.x = 100)
      (h0 : w.s.timeout = 0)

/-- Stages of a full movement up. -/
inductive Opens (R : Rig) (μ : Int) (w : World) : Prop
  | asked (hd : w.s.dir = .stop) (ht : w.s.target = moveUpPos) (hn : w.s.newTarget = true) (hm : w.s.margin = μ)
  | going (τ : Nat) (hd : w.s.dir = .up) (ht : w.s.target = moveUpPos) (hn : w.s.newTarget = false)
      (hs : w.s.started = clk τ) (h1 : τ ≤ w.now) (h2 : w.now ≤ τ + w.s.timeout) (h3 : R.opening ≤ w.s.timeout)
      (h4 : w.s.timeout + R.gap < 2 ^ 32) (hf : w.fresh = w.now) (hp : 0 ≤ w.s.startPos ∧ w.s.startPos ≤ 100)
      (hx : w.x ≤ max 0 (100 - 100 * ((w.now - τ : Nat) : Rat) / R.opening))
  | ending (hd : w.s.dir = .up) (ht : w.s.target = stopPos) (hn : w.s.newTarget = true) (hp : w.s.pos = 0) (hx : w.x = 0)
      (h0 : w.s.timeout = 0)
  | done (hd : w.s.dir = .stop) (ht : w.s.target = stopPos) (hn : w.s.newTarget = false) (hp : w.s.pos = 0) (hx : w.x = 0)
      (h0 : w.s.timeout = 0)

theorem shift_still {R : Rig} {s : RS} (h : s.off = true) (x : Rat) (dt : Nat) : R.shift s x dt = x := by
  unfold Rig.shift
  rw [(off_still h).1, (off_still h).2]
  rfl

theorem shift_down {R : Rig} {s : RS} (h : R.closes s = true) (x : Rat) (dt : Nat) :
    R.shift s x dt = min 100 (x + 100 * dt / R.closing) := by
  unfold Rig.shift
  rw [opens_not h, h]
  rfl

theorem shift_up {R : Rig} {s : RS} (h : R.opens s = true) (x : Rat) (dt : Nat) :
    R.shift s x dt = max 0 (x - 100 * dt / R.opening) := by
  unfold Rig.shift
  rw [h]
  rfl

/-- A pass after the pause, without a stop command. -/
theorem pass_plain {F : Fp} {R : Rig} (hR : R.Real) {t : Nat} {s s' : RS} (hset : Set R s) (ht : s.target ≠ stopPos)
    (hp : ¬ (s.pause ≠ 0 ∧ since (clk t) s.pause < 500)) (h : pass F t s = some s') :
    ∃ s2, knownStage F t { s with pause := 0 } = some s2 ∧ s' = timeoutStage t s2 := by
  unfold pass at h
  rw [if_neg hp] at h
  have e : stopStage t { s with pause := 0 } = { s with pause := 0 } := by
    unfold stopStage
    rw [if_neg ht]
  rw [e] at h
  have hset' : Set R { s with pause := 0 } := ⟨hset.opening, hset.closing, hset.calibrate, hset.motor, hset.low, hset.high⟩
  unfold body at h
  rw [if_neg (by rw [(hset'.calibrated hR).1]; simp), if_pos (hset'.calibrated hR).2] at h
  cases hk : knownStage F t { s with pause := 0 } with
  | none => rw [hk] at h; cases h
  | some s2 =>
    rw [hk] at h
    exact ⟨s2, rfl, (Option.some.inj h).symm⟩

/-- A pass while a stop command waits. -/
theorem pass_stop {F : Fp} {R : Rig} (hR : R.Real) {t : Nat} {s s' : RS} (hset : Set R s) (ht : s.target = stopPos) (h0 : s.timeout = 0)
    (hp : ¬ (s.pause ≠ 0 ∧ since (clk t) s.pause < 500)) (h : pass F t s = some s') :
    s'.dir = .stop ∧ s'.target = stopPos ∧ s'.newTarget = false ∧ s'.pos = s.pos ∧ s'.timeout = 0 := by
  unfold pass at h
  rw [if_neg hp] at h
  have key : (stopStage t { s with pause := 0 }).dir = .stop ∧ (stopStage t { s with pause := 0 }).target = stopPos ∧
      (stopStage t { s with pause := 0 }).newTarget = false ∧ (stopStage t { s with pause := 0 }).pos = s.pos ∧
      (stopStage t { s with pause := 0 }).timeout = 0 ∧ Set R (stopStage t { s with pause := 0 }) := by
    unfold stopStage
    rw [if_pos ht]
    split
    · obtain ⟨l, e⟩ := stopMovement_eq t { s with pause := 0 }
      rw [e]
      exact ⟨rfl, ht, rfl, rfl, h0, ⟨hset.opening, hset.closing, hset.calibrate, hset.motor, hset.low, hset.high⟩⟩
    · rename_i hm
      refine ⟨?_, ht, rfl, rfl, h0, ⟨hset.opening, hset.closing, hset.calibrate, hset.motor, hset.low, hset.high⟩⟩
      show s.dir = .stop
      cases hd : s.dir with
      | stop => rfl
      | up => exact absurd (show ({ s with pause := 0 } : RS).inMove = true by unfold RS.inMove; simp [hd]) hm
      | down => exact absurd (show ({ s with pause := 0 } : RS).inMove = true by unfold RS.inMove; simp [hd]) hm
  generalize stopStage t { s with pause := 0 } = s1 at *
  obtain ⟨k1, k2, k3, k4, k5, k6⟩ := key
  unfold body at h
  rw [if_neg (by rw [(k6.calibrated hR).1]; simp), if_pos (k6.calibrated hR).2] at h
  have hk : knownStage F t s1 = some s1 := by
    unfold knownStage
    rw [if_neg (by rw [k1]; simp), if_neg (by rw [k3]; simp)]
  rw [hk] at h
  have h := Option.some.inj h
  have e : timeoutStage t s1 = s1 := by
    unfold timeoutStage
    rw [if_neg (by rw [k5]; simp)]
  rw [e] at h
  subst h
  exact ⟨k1, k2, k3, k4, k5⟩

/-- The clock, within a movement. -/
theorem since_started {R : Rig} {τ now t T : Nat} (h1 : τ ≤ now) (h2 : now ≤ τ + T) (h4 : T + R.gap < 2 ^ 32) (f1 : now ≤ t)
    (f2 : t ≤ now + R.gap) : since (clk t) (clk τ) = t - τ :=
  since_clk_eq t τ (by omega) (by omega)

theorem Closes.next {F : Fp} {R : Rig} (hR : R.Real) {μ : Int}
    (hμ : ∀ m, marginValue F μ R.closing = some m → R.closing + m + R.gap < 2 ^ 32) {w : World} (hg : w.Ok R) (h : Closes R μ w) {t : Nat} {s' : RS}
    (hs : step F w.s (t, .pass) = some s') (hf : R.Fair w (t, .pass) s') : Closes R μ (R.next w (t, .pass) s') := by
  obtain ⟨f1, f2, _⟩ := hf
  change w.now ≤ t at f1
  change t ≤ w.fresh + R.gap at f2
  change pass F t w.s = some s' at hs
  have hset : Set R w.s := Good.set hg
  have hC : (0 : Rat) < R.closing := by exact_mod_cast hR.2.1
  cases h with
  | asked hd ht hn hm =>
    have hoff := (Good.stop hg hd).1
    by_cases hp : w.s.pause ≠ 0 ∧ since (clk t) w.s.pause < 500
    · unfold pass at hs
      rw [if_pos hp] at hs
      have hs := Option.some.inj hs
      subst hs
      exact .asked hd ht hn hm
    · obtain ⟨s2, hk, rfl⟩ := pass_plain hR hset (by rw [ht]; decide) hp hs
      unfold knownStage at hk
      rw [if_neg (by simp [hn]), if_pos ⟨hn, by show w.s.target ≠ stopPos; rw [ht]; decide⟩] at hk
      unfold choose at hk
      rw [if_neg (show ¬ w.s.target = moveUpPos by rw [ht]; decide), if_pos (show w.s.target = moveDownPos from ht)] at hk
      change Option.map _ (Option.map _ (marginValue F w.s.margin w.s.closing)) = some s2 at hk
      cases hmv : marginValue F w.s.margin w.s.closing with
      | none => rw [hmv] at hk; cases hk
      | some m =>
        rw [hmv] at hk
        have hb := hμ m (by rw [← hm, ← hset.closing]; exact hmv)
        have hk := Option.some.inj hk
        dsimp only at hk
        have hmod : (w.s.closing + m) % 2 ^ 32 = R.closing + m := by rw [hset.closing]; exact Nat.mod_eq_of_lt (by omega)
        have hk' : s2 = startClosing t { w.s with pause := 0, timeout := R.closing + m, newTarget := false, startPos := w.s.pos } := by
          rw [← hk]
          unfold redirect
          rw [if_neg (show ¬ Dir.down = w.s.dir by rw [hd]; decide), if_pos (show w.s.dir = .stop from hd), if_pos rfl]
          show startClosing t { w.s with pause := 0, timeout := (w.s.closing + m) % 2 ^ 32, newTarget := false, startPos := w.s.pos } = _
          rw [hmod]
        obtain ⟨a, b, l, e⟩ := startClosing_eq t { w.s with pause := 0, timeout := R.closing + m, newTarget := false, startPos := w.s.pos }
        rw [e] at hk'
        subst hk'
        have hto : timeoutStage t { w.s with pause := 0, timeout := R.closing + m, newTarget := false, startPos := w.s.pos, dir := .down, started := clk t, upOn := a, downOn := b, log := l } =
            { w.s with pause := 0, timeout := R.closing + m, newTarget := false, startPos := w.s.pos, dir := .down, started := clk t, upOn := a, downOn := b, log := l } := by
          unfold timeoutStage
          rw [if_neg]
          rintro ⟨_, h2⟩
          change since (clk t) (clk t) > _ at h2
          rw [since_clk_eq t t (Nat.le_refl _) (by omega)] at h2
          omega
        rw [hto]
        refine .going t rfl ht rfl rfl (Nat.le_refl _) (Nat.le_add_right _ _) (show R.closing ≤ R.closing + m by omega) hb ?_ ⟨hset.low, hset.high⟩ ?_
        · show freshAt w.fresh w.s (t, .pass) = t
          unfold freshAt
          rw [if_pos ⟨rfl, .inr hoff⟩]
        · show min 100 (100 * ((t - t : Nat) : Rat) / R.closing) ≤ R.shift w.s w.x (t - w.now)
          rw [shift_still hoff, Nat.sub_self]
          have := Good.x0 hg
          refine le_trans (min_le_right _ _) ?_
          simpa using this
  | going τ hd ht hn hst h1 h2 h3 h4 hfr hsp hx =>
    rw [hfr] at f2
    have o := Good.down hg hd
    obtain ⟨s2, hk, rfl⟩ := pass_plain hR hset (by rw [ht]; decide) (by rw [o.pause]; simp) hs
    have hsince := since_started h1 h2 h4 f1 f2
    have hxn : min 100 (100 * ((t - τ : Nat) : Rat) / R.closing) ≤ R.shift w.s w.x (t - w.now) := by
      rw [shift_down o.outs]
      refine le_min (min_le_left _ _) ?_
      have hdt : (0 : Rat) ≤ 100 * ((t - w.now : Nat) : Rat) / R.closing := by positivity
      have e : (100 * ((t - τ : Nat) : Rat) / R.closing) = 100 * ((w.now - τ : Nat) : Rat) / R.closing + 100 * ((t - w.now : Nat) : Rat) / R.closing := by
        rw [← add_div, ← mul_add]
        congr 2
        have : t - τ = (w.now - τ) + (t - w.now) := by omega
        rw [this]
        push_cast
        rfl
      rw [e]
      rcases le_total (100 * ((w.now - τ : Nat) : Rat) / R.closing) 100 with q | q
      · rw [min_eq_right q] at hx
        exact le_trans (min_le_right _ _) (by linarith)
      · rw [min_eq_left q] at hx
        exact le_trans (min_le_left _ _) (by linarith)
    -- the stage changes the position only
    have hcase : (s2.dir = .down ∧ s2.target = moveDownPos ∧ s2.newTarget = false ∧ s2.started = w.s.started ∧
        s2.timeout = w.s.timeout ∧ s2.startPos = w.s.startPos) ∧ (R.closing ≤ t - τ → s2.pos = 100) := by
      unfold knownStage at hk
      rw [if_pos ⟨hn, by show w.s.dir ≠ .stop; rw [hd]; decide⟩, if_neg (by rw [show ({ w.s with pause := 0 } : RS).dir = w.s.dir from rfl, hd]; simp)] at hk
      by_cases hp : w.s.pos < 100
      · rw [if_pos ⟨hd, hp⟩] at hk
        obtain ⟨p, hpos, hc⟩ := moveDownStage_cases hk
        have hneg : ¬ (setPosition p { w.s with pause := 0 }).target ≥ 0 := by
          show ¬ w.s.target ≥ 0
          rw [ht]; decide
        rcases hc with ⟨_, rfl⟩ | ⟨c1, _⟩ | ⟨c1, _⟩
        · refine ⟨⟨hd, ht, hn, rfl, rfl, rfl⟩, fun hl => ?_⟩
          change posDown F w.s.closing w.s.startPos (since (clk t) w.s.started) = some p at hpos
          rw [hst, hsince, hset.closing] at hpos
          have := posDown_done hsp.1 hsp.2 (by
            have : (100 - w.s.startPos).toNat ≤ 100 := by omega
            have := Nat.mul_le_mul_left R.closing this
            omega) hpos
          subst this
          rfl
        · exact absurd (by rw [c1]; decide) hneg
        · exact absurd c1 hneg
      · rw [if_neg (fun h => hp h.2)] at hk
        have hk := Option.some.inj hk
        subst hk
        refine ⟨⟨hd, ht, hn, rfl, rfl, rfl⟩, fun _ => ?_⟩
        have := hset.high
        show w.s.pos = 100
        omega
    obtain ⟨⟨c1, c2, c3, c4, c5, c6⟩, c7⟩ := hcase
    have hfresh : freshAt w.fresh w.s (t, .pass) = t := by
      unfold freshAt
      rw [if_pos ⟨rfl, .inl hn⟩]
    unfold timeoutStage
    by_cases hlate : s2.timeout ≠ 0 ∧ since (clk t) s2.started > s2.timeout
    · rw [if_pos hlate]
      have hl : R.closing ≤ t - τ := by
        have := hlate.2
        rw [c4, hst, hsince, c5] at this
        omega
      refine .ending c1 rfl rfl (c7 hl) ?_ rfl
      show R.shift w.s w.x (t - w.now) = 100
      have h100 : (100 : Rat) ≤ 100 * ((t - τ : Nat) : Rat) / R.closing := by
        rw [le_div_iff₀ hC]
        have : (R.closing : Rat) ≤ ((t - τ : Nat) : Rat) := by exact_mod_cast hl
        linarith
      rw [min_eq_left h100] at hxn
      refine le_antisymm ?_ hxn
      rw [shift_down o.outs]
      exact min_le_left _ _
    · rw [if_neg hlate]
      refine .going τ c1 c2 c3 (by show s2.started = _; rw [c4]; exact hst) (show τ ≤ t by omega) ?_ (by show _ ≤ s2.timeout; rw [c5]; exact h3)
        (by show s2.timeout + _ < _; rw [c5]; exact h4) hfresh (by show 0 ≤ s2.startPos ∧ s2.startPos ≤ 100; rw [c6]; exact hsp) hxn
      show t ≤ τ + s2.timeout
      rw [c4, hst, hsince, c5] at hlate
      rw [c5]
      have := hR.2.1
      by_contra hc
      exact hlate ⟨by omega, by omega⟩
  | ending hd ht hn hp hx h0 =>
    have o := Good.down hg hd
    obtain ⟨k1, k2, k3, k4, k5⟩ := pass_stop hR hset ht h0 (by rw [o.pause]; simp) hs
    refine .done k1 k2 k3 (by show s'.pos = 100; rw [k4]; exact hp) ?_ k5
    show R.shift w.s w.x (t - w.now) = 100
    rw [shift_down o.outs, hx, min_eq_left]
    have : (0 : Rat) ≤ 100 * ((t - w.now : Nat) : Rat) / R.closing := by positivity
    linarith
  | done hd ht hn hp hx h0 =>
    have hoff := (Good.stop hg hd).1
    have hxs : R.shift w.s w.x (t - w.now) = 100 := by rw [shift_still hoff]; exact hx
    by_cases hpz : w.s.pause ≠ 0 ∧ since (clk t) w.s.pause < 500
    · unfold pass at hs
      rw [if_pos hpz] at hs
      have hs := Option.some.inj hs
      subst hs
      exact .done hd ht hn hp hxs h0
    · obtain ⟨k1, k2, k3, k4, k5⟩ := pass_stop hR hset ht h0 hpz hs
      exact .done k1 k2 k3 (by show s'.pos = 100; rw [k4]; exact hp) hxs k5

theorem Opens.next {F : Fp} {R : Rig} (hR : R.Real) {μ : Int}
    (hμ : ∀ m, marginValue F μ R.opening = some m → R.opening + m + R.gap < 2 ^ 32) {w : World} (hg : w.Ok R) (h : Opens R μ w) {t : Nat} {s' : RS}
    (hs : step F w.s (t, .pass) = some s') (hf : R.Fair w (t, .pass) s') : Opens R μ (R.next w (t, .pass) s') := by
  obtain ⟨f1, f2, _⟩ := hf
  change w.now ≤ t at f1
  change t ≤ w.fresh + R.gap at f2
  change pass F t w.s = some s' at hs
  have hset : Set R w.s := Good.set hg
  have hC : (0 : Rat) < R.opening := by exact_mod_cast hR.1
  cases h with
  | asked hd ht hn hm =>
    have hoff := (Good.stop hg hd).1
    by_cases hp : w.s.pause ≠ 0 ∧ since (clk t) w.s.pause < 500
    · unfold pass at hs
      rw [if_pos hp] at hs
      have hs := Option.some.inj hs
      subst hs
      exact .asked hd ht hn hm
    · obtain ⟨s2, hk, rfl⟩ := pass_plain hR hset (by rw [ht]; decide) hp hs
      unfold knownStage at hk
      rw [if_neg (by simp [hn]), if_pos ⟨hn, by show w.s.target ≠ stopPos; rw [ht]; decide⟩] at hk
      unfold choose at hk
      rw [if_pos (show w.s.target = moveUpPos from ht)] at hk
      change Option.map _ (Option.map _ (marginValue F w.s.margin w.s.opening)) = some s2 at hk
      cases hmv : marginValue F w.s.margin w.s.opening with
      | none => rw [hmv] at hk; cases hk
      | some m =>
        rw [hmv] at hk
        have hb := hμ m (by rw [← hm, ← hset.opening]; exact hmv)
        have hk := Option.some.inj hk
        dsimp only at hk
        have hmod : (w.s.opening + m) % 2 ^ 32 = R.opening + m := by rw [hset.opening]; exact Nat.mod_eq_of_lt (by omega)
        have hk' : s2 = startOpening t { w.s with pause := 0, timeout := R.opening + m, newTarget := false, startPos := w.s.pos } := by
          rw [← hk]
          unfold redirect
          rw [if_neg (show ¬ Dir.up = w.s.dir by rw [hd]; decide), if_pos (show w.s.dir = .stop from hd), if_neg (show ¬ Dir.up = Dir.down by decide)]
          show startOpening t { w.s with pause := 0, timeout := (w.s.opening + m) % 2 ^ 32, newTarget := false, startPos := w.s.pos } = _
          rw [hmod]
        obtain ⟨a, b, l, e⟩ := startOpening_eq t { w.s with pause := 0, timeout := R.opening + m, newTarget := false, startPos := w.s.pos }
        rw [e] at hk'
        subst hk'
        have hto : timeoutStage t { w.s with pause := 0, timeout := R.opening + m, newTarget := false, startPos := w.s.pos, dir := .up, started := clk t, upOn := a, downOn := b, log := l } =
            { w.s with pause := 0, timeout := R.opening + m, newTarget := false, startPos := w.s.pos, dir := .up, started := clk t, upOn := a, downOn := b, log := l } := by
          unfold timeoutStage
          rw [if_neg]
          rintro ⟨_, h2⟩
          change since (clk t) (clk t) > _ at h2
          rw [since_clk_eq t t (Nat.le_refl _) (by omega)] at h2
          omega
        rw [hto]
        refine .going t rfl ht rfl rfl (Nat.le_refl _) (Nat.le_add_right _ _) (show R.opening ≤ R.opening + m by omega) hb ?_ ⟨hset.low, hset.high⟩ ?_
        · show freshAt w.fresh w.s (t, .pass) = t
          unfold freshAt
          rw [if_pos ⟨rfl, .inr hoff⟩]
        · show R.shift w.s w.x (t - w.now) ≤ max 0 (100 - 100 * ((t - t : Nat) : Rat) / R.opening)
          rw [shift_still hoff, Nat.sub_self]
          have := Good.x1 hg
          refine le_trans ?_ (le_max_right _ _)
          simpa using this
  | going τ hd ht hn hst h1 h2 h3 h4 hfr hsp hx =>
    rw [hfr] at f2
    have o := Good.up hg hd
    obtain ⟨s2, hk, rfl⟩ := pass_plain hR hset (by rw [ht]; decide) (by rw [o.pause]; simp) hs
    have hsince := since_started h1 h2 h4 f1 f2
    have hxn : R.shift w.s w.x (t - w.now) ≤ max 0 (100 - 100 * ((t - τ : Nat) : Rat) / R.opening) := by
      rw [shift_up o.outs]
      refine max_le (le_max_left _ _) ?_
      have hdt : (0 : Rat) ≤ 100 * ((t - w.now : Nat) : Rat) / R.opening := by positivity
      have e : (100 * ((t - τ : Nat) : Rat) / R.opening) = 100 * ((w.now - τ : Nat) : Rat) / R.opening + 100 * ((t - w.now : Nat) : Rat) / R.opening := by
        rw [← add_div, ← mul_add]
        congr 2
        have : t - τ = (w.now - τ) + (t - w.now) := by omega
        rw [this]
        push_cast
        rfl
      rw [e]
      rcases le_total 0 (100 - 100 * ((w.now - τ : Nat) : Rat) / R.opening) with q | q
      · rw [max_eq_right q] at hx
        exact le_trans (by linarith) (le_max_right _ _)
      · rw [max_eq_left q] at hx
        exact le_trans (by linarith) (le_max_left _ _)
    -- the stage changes the position only
    have hcase : (s2.dir = .up ∧ s2.target = moveUpPos ∧ s2.newTarget = false ∧ s2.started = w.s.started ∧
        s2.timeout = w.s.timeout ∧ s2.startPos = w.s.startPos) ∧ (R.opening ≤ t - τ → s2.pos = 0) := by
      unfold knownStage at hk
      rw [if_pos ⟨hn, by show w.s.dir ≠ .stop; rw [hd]; decide⟩] at hk
      by_cases hp : w.s.pos > 0
      · rw [if_pos ⟨hd, hp⟩] at hk
        obtain ⟨p, hpos, hc⟩ := moveUpStage_cases hk
        have hneg : ¬ (setPosition p { w.s with pause := 0 }).target ≥ 0 := by
          show ¬ w.s.target ≥ 0
          rw [ht]; decide
        rcases hc with ⟨_, rfl⟩ | ⟨c1, _⟩ | ⟨c1, _⟩
        · refine ⟨⟨hd, ht, hn, rfl, rfl, rfl⟩, fun hl => ?_⟩
          change posUp F w.s.opening w.s.startPos (since (clk t) w.s.started) = some p at hpos
          rw [hst, hsince, hset.opening] at hpos
          have := posUp_done hsp.1 hsp.2 (by
            have : w.s.startPos.toNat ≤ 100 := by omega
            have := Nat.mul_le_mul_left R.opening this
            omega) hpos
          subst this
          rfl
        · exact absurd (by rw [c1]) hneg
        · exact absurd c1 hneg
      · rw [if_neg (fun h => hp h.2), if_neg (by rw [show ({ w.s with pause := 0 } : RS).dir = w.s.dir from rfl, hd]; simp)] at hk
        have hk := Option.some.inj hk
        subst hk
        refine ⟨⟨hd, ht, hn, rfl, rfl, rfl⟩, fun _ => ?_⟩
        have := hset.low
        show w.s.pos = 0
        omega
    obtain ⟨⟨c1, c2, c3, c4, c5, c6⟩, c7⟩ := hcase
    have hfresh : freshAt w.fresh w.s (t, .pass) = t := by
      unfold freshAt
      rw [if_pos ⟨rfl, .inl hn⟩]
    unfold timeoutStage
    by_cases hlate : s2.timeout ≠ 0 ∧ since (clk t) s2.started > s2.timeout
    · rw [if_pos hlate]
      have hl : R.opening ≤ t - τ := by
        have := hlate.2
        rw [c4, hst, hsince, c5] at this
        omega
      refine .ending c1 rfl rfl (c7 hl) ?_ rfl
      show R.shift w.s w.x (t - w.now) = 0
      have h100 : (100 : Rat) ≤ 100 * ((t - τ : Nat) : Rat) / R.opening := by
        rw [le_div_iff₀ hC]
        have : (R.opening : Rat) ≤ ((t - τ : Nat) : Rat) := by exact_mod_cast hl
        linarith
      rw [max_eq_left (by linarith)] at hxn
      refine le_antisymm hxn ?_
      rw [shift_up o.outs]
      exact le_max_left _ _
    · rw [if_neg hlate]
      refine .going τ c1 c2 c3 (by show s2.started = _; rw [c4]; exact hst) (show τ ≤ t by omega) ?_ (by show _ ≤ s2.timeout; rw [c5]; exact h3)
        (by show s2.timeout + _ < _; rw [c5]; exact h4) hfresh (by show 0 ≤ s2.startPos ∧ s2.startPos ≤ 100; rw [c6]; exact hsp) hxn
      show t ≤ τ + s2.timeout
      rw [c4, hst, hsince, c5] at hlate
      rw [c5]
      have := hR.1
      by_contra hc
      exact hlate ⟨by omega, by omega⟩
  | ending hd ht hn hp hx h0 =>
    have o := Good.up hg hd
    obtain ⟨k1, k2, k3, k4, k5⟩ := pass_stop hR hset ht h0 (by rw [o.pause]; simp) hs
    refine .done k1 k2 k3 (by show s'.pos = 0; rw [k4]; exact hp) ?_ k5
    show R.shift w.s w.x (t - w.now) = 0
    rw [shift_up o.outs, hx, max_eq_left]
    have : (0 : Rat) ≤ 100 * ((t - w.now : Nat) : Rat) / R.opening := by positivity
    linarith
  | done hd ht hn hp hx h0 =>
    have hoff := (Good.stop hg hd).1
    have hxs : R.shift w.s w.x (t - w.now) = 0 := by rw [shift_still hoff]; exact hx
    by_cases hpz : w.s.pause ≠ 0 ∧ since (clk t) w.s.pause < 500
    · unfold pass at hs
      rw [if_pos hpz] at hs
      have hs := Option.some.inj hs
      subst hs
      exact .done hd ht hn hp hxs h0
    · obtain ⟨k1, k2, k3, k4, k5⟩ := pass_stop hR hset ht h0 hpz hs
      exact .done k1 k2 k3 (by show s'.pos = 0; rw [k4]; exact hp) hxs k5

theorem Rig.run_append (F : Fp) (R : Rig) (h k : List (Nat × Op)) : ∀ w, R.run F w (h ++ k) = (R.run F w h).bind fun w' => R.run F w' k := by
  induction h with
  | nil => intro w; rfl
  | cons e h ih =>
    intro w
    show (R.step F w e).bind (fun w' => R.run F w' (h ++ k)) = ((R.step F w e).bind fun w' => R.run F w' h).bind fun w' => R.run F w' k
    cases R.step F w e with
    | none => rfl
    | some w' => exact ih w'

theorem Rig.fair_append (F : Fp) (R : Rig) (h k : List (Nat × Op)) : ∀ w w', R.FairRun F w (h ++ k) → R.run F w h = some w' →
    R.FairRun F w h ∧ R.FairRun F w' k := by
  induction h with
  | nil => intro w w' hf hr; have := Option.some.inj hr; subst this; exact ⟨trivial, hf⟩
  | cons e h ih =>
    intro w w' hf hr
    rw [List.cons_append] at hf
    unfold Rig.FairRun at hf
    unfold Rig.run Rig.step at hr
    cases hs : Shutter.step F w.s e with
    | none => rw [hs] at hr; cases hr
    | some s' =>
      rw [hs] at hr
      obtain ⟨a, b⟩ := hf s' hs
      obtain ⟨c, d⟩ := ih _ _ b hr
      refine ⟨?_, d⟩
      unfold Rig.FairRun
      intro s'' hs''
      rw [hs] at hs''
      have := Option.some.inj hs''
      subst this
      exact ⟨a, c⟩

theorem Closes.run {F : Fp} (hF : F.Close) {R : Rig} (hR : R.Real) {μ : Int}
    (hμ : ∀ m, marginValue F μ R.closing = some m → R.closing + m + R.gap < 2 ^ 32) (ts : List Nat) : ∀ {w w' : World}, w.Ok R →
    Closes R μ w → R.FairRun F w (passes ts) → R.run F w (passes ts) = some w' → Closes R μ w' := by
  induction ts with
  | nil => intro w w' _ hc _ hr; have := Option.some.inj hr; subst this; exact hc
  | cons t ts ih =>
    intro w w' hw hc hf hr
    change R.FairRun F w ((t, .pass) :: passes ts) at hf
    change R.run F w ((t, .pass) :: passes ts) = some w' at hr
    unfold Rig.FairRun at hf
    unfold Rig.run Rig.step at hr
    cases hs : Shutter.step F w.s (t, .pass) with
    | none => rw [hs] at hr; cases hr
    | some s' =>
      rw [hs] at hr
      obtain ⟨a, b⟩ := hf s' hs
      exact ih (Good.next hF hR hw hs a) (hc.next hR hμ hw hs a) b hr

theorem Opens.run {F : Fp} (hF : F.Close) {R : Rig} (hR : R.Real) {μ : Int}
    (hμ : ∀ m, marginValue F μ R.opening = some m → R.opening + m + R.gap < 2 ^ 32) (ts : List Nat) : ∀ {w w' : World}, w.Ok R →
    Opens R μ w → R.FairRun F w (passes ts) → R.run F w (passes ts) = some w' → Opens R μ w' := by
  induction ts with
  | nil => intro w w' _ hc _ hr; have := Option.some.inj hr; subst this; exact hc
  | cons t ts ih =>
    intro w w' hw hc hf hr
    change R.FairRun F w ((t, .pass) :: passes ts) at hf
    change R.run F w ((t, .pass) :: passes ts) = some w' at hr
    unfold Rig.FairRun at hf
    unfold Rig.run Rig.step at hr
    cases hs : Shutter.step F w.s (t, .pass) with
    | none => rw [hs] at hr; cases hr
    | some s' =>
      rw [hs] at hr
      obtain ⟨a, b⟩ := hf s' hs
      exact ih (Good.next hF hR hw hs a) (hc.next hR hμ hw hs a) b hr

/-- The history up to a command, the command, and timer passes after it. -/
theorem split_command {F : Fp} (hF : F.Close) {R : Rig} (hR : R.Real) {b : Boot} (hb : R.Fits b) {h : List (Nat × Op)} {t : Nat} {a : Action}
    {ts : List Nat} {w w' : World} (hr : R.run F (Rig.begin b) h = some w)
    (hf : R.FairRun F (Rig.begin b) (h ++ (t, .action a) :: passes ts))
    (hr' : R.run F (Rig.begin b) (h ++ (t, .action a) :: passes ts) = some w') :
    w.Ok R ∧ (R.next w (t, .action a) (handleAction a w.s)).Ok R ∧
      R.FairRun F (R.next w (t, .action a) (handleAction a w.s)) (passes ts) ∧
      R.run F (R.next w (t, .action a) (handleAction a w.s)) (passes ts) = some w' := by
  obtain ⟨f1, f2⟩ := R.fair_append F _ _ _ _ hf hr
  have hw := Good.run hF hR h (begin_ok hb) f1 hr
  rw [R.run_append, hr] at hr'
  change R.run F w ((t, .action a) :: passes ts) = some w' at hr'
  unfold Rig.run Rig.step at hr'
  unfold Rig.FairRun at f2
  have hs : Shutter.step F w.s (t, .action a) = some (handleAction a w.s) := rfl
  rw [hs] at hr'
  obtain ⟨g1, g2⟩ := f2 _ hs
  exact ⟨hw, Good.next hF hR hw hs g1, g2, hr'⟩

/-- **C114.** After the command to move down, with nothing but timer passes, when the motor has stopped the shutter is closed and
shown as closed, however wrong the position shown was before. -/
theorem down_puts_right (F : Fp) (hF : F.Close) (R : Rig) (hR : R.Real) (b : Boot) (hb : R.Fits b) (h : List (Nat × Op)) (t : Nat) (ts : List Nat)
    (w w' : World) (hr : R.run F (Rig.begin b) h = some w) (ho : w.s.off = true)
    (hμ : ∀ m, marginValue F w.s.margin R.closing = some m → R.closing + m + R.gap < 2 ^ 32)
    (hf : R.FairRun F (Rig.begin b) (h ++ (t, .action .moveDown) :: passes ts))
    (hr' : R.run F (Rig.begin b) (h ++ (t, .action .moveDown) :: passes ts) = some w') (ho' : w'.s.off = true) (hn : w'.s.newTarget = false) :
    w'.s.pos = 100 ∧ w'.x = 100 := by
  obtain ⟨k1, k2, k3, k4⟩ := split_command hF hR hb hr hf hr'
  have hc : Closes R w.s.margin (R.next w (t, .action .moveDown) (handleAction .moveDown w.s)) :=
    .asked ((Good.offdir k1).mp ho) rfl rfl rfl
  have hw' := Good.run hF hR _ k2 k3 k4
  have hd := (Good.offdir hw').mp ho'
  cases Closes.run hF hR hμ ts k2 hc k3 k4 with
  | asked _ _ h3 => rw [hn] at h3; cases h3
  | going _ h1 => rw [hd] at h1; cases h1
  | ending h1 => rw [hd] at h1; cases h1
  | done _ _ _ hp hx => exact ⟨hp, hx⟩

/-- **C114.** The same for the command to move up. -/
theorem up_puts_right (F : Fp) (hF : F.Close) (R : Rig) (hR : R.Real) (b : Boot) (hb : R.Fits b) (h : List (Nat × Op)) (t : Nat) (ts : List Nat)
    (w w' : World) (hr : R.run F (Rig.begin b) h = some w) (ho : w.s.off = true)
    (hμ : ∀ m, marginValue F w.s.margin R.opening = some m → R.opening + m + R.gap < 2 ^ 32)
    (hf : R.FairRun F (Rig.begin b) (h ++ (t, .action .moveUp) :: passes ts))
    (hr' : R.run F (Rig.begin b) (h ++ (t, .action .moveUp) :: passes ts) = some w') (ho' : w'.s.off = true) (hn : w'.s.newTarget = false) :
    w'.s.pos = 0 ∧ w'.x = 0 := by
  obtain ⟨k1, k2, k3, k4⟩ := split_command hF hR hb hr hf hr'
  have hc : Opens R w.s.margin (R.next w (t, .action .moveUp) (handleAction .moveUp w.s)) :=
    .asked ((Good.offdir k1).mp ho) rfl rfl rfl
  have hw' := Good.run hF hR _ k2 k3 k4
  have hd := (Good.offdir hw').mp ho'
  cases Opens.run hF hR hμ ts k2 hc k3 k4 with
  | asked _ _ h3 => rw [hn] at h3; cases h3
  | going _ h1 => rw [hd] at h1; cases h1
  | ending h1 => rw [hd] at h1; cases h1
  | done _ _ _ hp hx => exact ⟨hp, hx⟩

/-! ## Without a bound on the number of movements -/

/-- The full claim: the position shown is right to within `B`, whatever happened before. -/
def ShownTrue (B : Rat) : Prop := ∀ F : Fp, F.Close → ∀ R : Rig, R.Real → ∀ b, R.Fits b → ∀ h w, R.FairRun F (Rig.begin b) h →
  R.run F (Rig.begin b) h = some w → |(w.s.pos : Rat) - w.x| ≤ B

/-- The full claim: a shutter sent to a position is there to within `B`, whatever happened before. -/
def SentThere (B : Rat) : Prop := ∀ F : Fp, F.Close → ∀ R : Rig, R.Real → ∀ b, R.Fits b → ∀ h w, R.FairRun F (Rig.begin b) h →
  R.run F (Rig.begin b) h = some w → w.s.off = true → w.s.newTarget = false → 0 ≤ w.s.target → |w.x - w.s.target| ≤ B

/-- A history, refused if an event is not fair. -/
def Rig.check (F : Fp) (R : Rig) : World → List (Nat × Op) → Option World
  | w, [] => some w
  | w, e :: h =>
    match Shutter.step F w.s e with
    | none => none
    | some s' =>
      if w.now ≤ e.1 ∧ e.1 ≤ w.fresh + R.gap ∧ (e.2 ≠ .pass → s'.pos = w.s.pos ∧ s'.opening = w.s.opening ∧
          s'.closing = w.s.closing ∧ s'.calibrate = w.s.calibrate ∧ s'.motor = w.s.motor) then
        R.check F (R.next w e s') h
      else none

theorem Rig.check_fair (F : Fp) (R : Rig) (h : List (Nat × Op)) : ∀ w w', R.check F w h = some w' →
    R.FairRun F w h ∧ R.run F w h = some w' := by
  induction h with
  | nil => intro w w' hc; exact ⟨trivial, hc⟩
  | cons e h ih =>
    intro w w' hc
    unfold Rig.check at hc
    unfold Rig.FairRun Rig.run Rig.step
    cases hs : Shutter.step F w.s e with
    | none => rw [hs] at hc; cases hc
    | some s' =>
      rw [hs] at hc
      dsimp only at hc
      split at hc
      · rename_i hfair
        obtain ⟨a, b⟩ := ih _ _ hc
        exact ⟨fun s'' e => by have := Option.some.inj e; subst this; exact ⟨hfair, a⟩, b⟩
      · cases hc

/-- The button for down is touched for a tenth of a second. -/
def tap (t : Nat) : List (Nat × Op) :=
  [(t, .action .moveDown), (t, .pass), (t + 99, .pass), (t + 99, .action .stop), (t + 99, .pass), (t + 300, .pass), (t + 500, .pass)]

/-- A shutter that takes ten seconds. -/
def rig : Rig := ⟨10000, 10000, false, 250⟩

/-- It stands open. -/
def atTop : Boot := { t := 1, closing := 10000, opening := 10000, pos := 0 }

/-- One touch after the other; then the command to open. -/
def touches : List (Nat × Op) :=
  ((List.range 101).flatMap fun i => tap (750 * i + 1)) ++ [(75751, .action .open), (75751, .pass), (75900, .pass)]

/-- What the history leads to. -/
def shows (w : World) : Bool :=
  decide (99 < w.x) && decide (w.s.pos = 0) && decide (w.s.target = 0) && w.s.off && !w.s.newTarget

set_option maxRecDepth 100000 in
theorem touched : ((rig.check ⟨.exact, .exact⟩ (Rig.begin atTop) touches).map shows) = some true := by
  decide +kernel

theorem touched_world : ∃ w, rig.FairRun ⟨.exact, .exact⟩ (Rig.begin atTop) touches ∧
    rig.run ⟨.exact, .exact⟩ (Rig.begin atTop) touches = some w ∧ 99 < w.x ∧ w.s.pos = 0 ∧ w.s.target = 0 ∧ w.s.off = true ∧ w.s.newTarget = false := by
  have h := touched
  cases hc : rig.check ⟨.exact, .exact⟩ (Rig.begin atTop) touches with
  | none => rw [hc] at h; cases h
  | some w =>
    rw [hc] at h
    have h : shows w = true := Option.some.inj h
    unfold shows at h
    rw [Bool.and_eq_true, Bool.and_eq_true, Bool.and_eq_true, Bool.and_eq_true, decide_eq_true_eq, decide_eq_true_eq, decide_eq_true_eq] at h
    obtain ⟨a, b⟩ := Rig.check_fair _ _ _ _ _ hc
    exact ⟨w, a, b, h.1.1.1.1, h.1.1.1.2, h.1.1.2, h.1.2, by simpa using h.2⟩

theorem rig_real : rig.Real := by unfold Rig.Real rig; decide
theorem rig_fits : rig.Fits atTop := by unfold Rig.Fits rig atTop; decide

/-- **Finding.** Touching the button for down a hundred times closes a shutter that is still shown as open: each touch moves it by
less than one percent, which is forgotten when the motor stops. -/
theorem shown_drifts_violation : ¬ ShownTrue 99 := by
  intro h
  obtain ⟨w, h1, h2, h3, h4, _⟩ := touched_world
  have := h _ close_exact rig rig_real atTop rig_fits _ w h1 h2
  rw [h4] at this
  have := (abs_le.mp this).1
  push_cast at this
  linarith

/-- **Finding.** The command to open then does nothing: the shutter stays closed. -/
theorem open_ignored_violation : ¬ SentThere 99 := by
  intro h
  obtain ⟨w, h1, h2, h3, h4, h5, h6, h7⟩ := touched_world
  have := h _ close_exact rig rig_real atTop rig_fits _ w h1 h2 h6 h7 (by rw [h5])
  rw [h5] at this
  have := (abs_le.mp this).2
  push_cast at this
  linarith

/-! ## Concrete cases -/

/-- Half way down: the command, and a pass every 200 ms. -/
def half : List (Nat × Op) := (1, .target 50) :: passes ((List.range 40).map fun i => 200 * i + 1)

example : ((rig.check ⟨.exact, .exact⟩ (Rig.begin atTop) half).map fun w =>
    decide (w.x = 50) && decide (w.s.pos = 50) && w.s.off && !w.s.newTarget && decide (w.moves = 1)) = some true := by decide +kernel

/-- A hundred touches, and then all the way up. -/
def recover : List (Nat × Op) := touches ++ (75900, .action .moveUp) :: passes ((List.range 140).map fun i => 100 * i + 75900)

set_option maxRecDepth 100000 in
example : ((rig.check ⟨.exact, .exact⟩ (Rig.begin atTop) recover).map fun w =>
    decide (w.x = 0) && decide (w.s.pos = 0) && w.s.off && !w.s.newTarget && decide (w.moves = 0)) = some true := by decide +kernel

example : rig.unsure < 4 ∧ rig.late < 3 := by decide +kernel

end Verif.Shutter
