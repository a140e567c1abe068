import Verif.Rgbw.Spec
/-!
# RGBW: what commands change
-/

namespace Verif.Rgbw

/-- What commands do not change. -/
structure Still where
  kind : Kind
  changed : Bool
  step : Nat
  dimmed : Nat
  minIter : Nat
  maxHw : Nat
  hr : Comp
  hg : Comp
  hb : Comp
  hcb : Comp
  hwh : Comp
  minW : Nat
  maxW : Nat
  minCb : Nat
  maxCb : Nat
  iterMax : Nat
  fade : Nat
  lastTick : Nat
  out : List Five
  sent : Option Five

/-- The part of a state commands do not change. -/
def Light.still (s : Light) : Still :=
  ⟨s.kind, s.changed, s.step, s.dimmed, s.minIter, s.maxHw, s.hr, s.hg, s.hb, s.hcb, s.hwh, s.minW, s.maxW,
    s.minCb, s.maxCb, s.iterMax, s.fade, s.lastTick, s.out, s.sent⟩

theorem set_still (t : Nat) (r g b cb w : Int) (tg i : Bool) (s : Light) :
    (set t r g b cb w tg i s).still = s.still := by
  unfold set
  cases s.kind <;> rfl

theorem iterDir_eq (t : Nat) (s : Light) :
    ∃ d e f, iterDir t s = { s with dimDir := d, delayAt := e, iterAt := f } := ⟨_, _, _, rfl⟩

theorem iterDelay_eq (t x : Nat) (s : Light) :
    ∃ d e, (iterDelay t x s).2 = { s with dimDir := d, delayAt := e } := ⟨_, _, rfl⟩

theorem iterSet_eq (t : Nat) (rs ws : Int) (s : Light) :
    ∃ d e a b, iterSet t rs ws s = set t (-1) (-1) (-1) (addLimit s.cb a 100) (addLimit s.w b 100) false true { s with dimDir := d, delayAt := e } :=
  ⟨_, _, _, _, rfl⟩

theorem iterDir_still (t : Nat) (s : Light) : (iterDir t s).still = s.still := by
  obtain ⟨d, e, f, h⟩ := iterDir_eq t s
  rw [h]
  rfl

theorem iterDelay_still (t x : Nat) (s : Light) : (iterDelay t x s).2.still = s.still := by
  obtain ⟨d, e, h⟩ := iterDelay_eq t x s
  rw [h]
  rfl

theorem iterSet_still (t : Nat) (rs ws : Int) (s : Light) : (iterSet t rs ws s).still = s.still := by
  obtain ⟨d, e, a, b, h⟩ := iterSet_eq t rs ws s
  rw [h, set_still]
  rfl

theorem iterate_still (t : Nat) (rs ws : Int) (s : Light) : (iterate t rs ws s).still = s.still := by
  unfold iterate
  simp only []
  generalize (if s.kind = .dimmer then 0 else rs) = rs'
  have h1 : ({ s with w := if rs' > 0 ∧ ws > 0 then s.cb else s.w } : Light).still = s.still := by
    simp only [Light.still]
  rw [← h1]
  generalize ({ s with w := if rs' > 0 ∧ ws > 0 then s.cb else s.w } : Light) = q
  rw [← iterDir_still t q]
  generalize iterDir t q = q
  have h2 : (if rs' > 0 then iterDelay t q.cb q else if ws > 0 then iterDelay t q.w q else (false, q)).2.still = q.still := by
    split
    · exact iterDelay_still _ _ _
    · split
      · exact iterDelay_still _ _ _
      · rfl
  rw [← h2]
  generalize (if rs' > 0 then iterDelay t q.cb q else if ws > 0 then iterDelay t q.w q else (false, q)) = p
  split
  · rfl
  · exact iterSet_still _ _ _ _

theorem toggle_still (t : Nat) (s : Light) : (toggle t s).still = s.still := by
  unfold toggle
  split <;> exact set_still ..

theorem handleAction_still (t : Nat) (a : Action) (s : Light) : (handleAction t a s).still = s.still := by
  cases a <;> simp only [handleAction] <;> first
    | exact set_still ..
    | exact iterate_still ..
    | exact toggle_still ..
    | (split <;> first | exact set_still .. | rfl)

theorem server_still (t : Nat) (q : Request) (s : Light) : (server t q s).still = s.still := by
  unfold server
  split <;> first
    | exact set_still ..
    | exact toggle_still ..
    | rfl
    | (split <;> first | exact set_still .. | rfl)

theorem auto_still (t : Nat) (s : Light) : (auto t s).still = s.still := by
  unfold auto
  split
  · split
    · split <;> first | exact handleAction_still .. | rfl
    · rfl
  · rfl

/-- `setRGBW` of a subclass is that of the base class with some arguments 0. -/
theorem set_cases (t : Nat) (r g b cb w : Int) (tg i : Bool) (s : Light) :
    ∃ r' g' b' cb' w', set t r g b cb w tg i s = setBase t r' g' b' cb' w' tg i s ∧
      (r' = r ∨ r' = 0) ∧ (g' = g ∨ g' = 0) ∧ (b' = b ∨ b' = 0) ∧ (cb' = cb ∨ cb' = 0) ∧ (w' = w ∨ w' = 0) ∧
      (s.kind ≠ .dimmer → cb' = cb) ∧ (s.kind ≠ .rgb → w' = w) := by
  unfold set
  cases hk : s.kind with
  | rgbw => exact ⟨r, g, b, cb, w, rfl, .inl rfl, .inl rfl, .inl rfl, .inl rfl, .inl rfl, fun _ => rfl, fun _ => rfl⟩
  | rgb => exact ⟨r, g, b, cb, 0, rfl, .inl rfl, .inl rfl, .inl rfl, .inl rfl, .inr rfl, fun _ => rfl, fun h => absurd rfl h⟩
  | dimmer => exact ⟨0, 0, 0, 0, w, rfl, .inr rfl, .inr rfl, .inr rfl, .inr rfl, .inl rfl, fun h => absurd rfl h, fun _ => rfl⟩

theorem u8_eq {x : Int} (h0 : 0 ≤ x) (h1 : x ≤ 255) : (u8 x : Int) = x := by
  unfold u8; omega

theorem u8_lt (x : Int) : u8 x ≤ 255 := by
  unfold u8; omega

theorem take_le {x : Int} {cur n : Nat} (h : x ≤ n) (hn : n ≤ 255) (hc : cur ≤ n) : take x cur ≤ n := by
  unfold take
  split
  · have := u8_eq (x := x) (by omega) (by omega); omega
  · exact hc

/-- Values in range. -/
structure Ok (s : Light) : Prop where
  r : s.r ≤ 255
  g : s.g ≤ 255
  b : s.b ≤ 255
  cb : s.cb ≤ 100
  w : s.w ≤ 100
  lastCb : s.lastCb ≤ 100
  lastW : s.lastW ≤ 100
  dimmed : s.dimmed ≤ 100
  step : s.step ≤ 255
  minIter : s.minIter ≤ 255

theorem remember_le {tg : Bool} {x : Int} {last : Nat} (hx : x ≤ 100) (hl : last ≤ 100) :
    (remember tg x last).1 ≤ 100 ∧ (remember tg x last).2 ≤ 100 := by
  unfold remember
  split
  · exact ⟨by show (last : Int) ≤ 100; omega, hl⟩
  · split
    · have := u8_eq (x := x) (by omega) (by omega)
      exact ⟨hx, by show u8 x ≤ 100; omega⟩
    · exact ⟨hx, hl⟩

theorem set_ok {t : Nat} {r g b cb w : Int} {tg i : Bool} {s : Light} (hs : Ok s) (hr : r ≤ 255) (hg : g ≤ 255)
    (hb : b ≤ 255) (hcb : cb ≤ 100) (hw : w ≤ 100) : Ok (set t r g b cb w tg i s) := by
  obtain ⟨r', g', b', cb', w', h, h1, h2, h3, h4, h5, _, _⟩ := set_cases t r g b cb w tg i s
  rw [h]
  have hc := remember_le (tg := tg) (x := cb') (by omega) hs.lastCb
  have hd := remember_le (tg := tg) (x := w') (by omega) hs.lastW
  exact ⟨take_le (by omega) (by omega) hs.r, take_le (by omega) (by omega) hs.g, take_le (by omega) (by omega) hs.b,
    take_le (by omega) (by omega) hs.cb, take_le (by omega) (by omega) hs.w, hc.2, hd.2, hs.dimmed, hs.step, hs.minIter⟩

theorem addLimit_le {v : Nat} {a limit : Int} (h0 : 0 ≤ limit) (h1 : limit ≤ 255) (hv : v ≤ limit) :
    (addLimit v a limit : Int) ≤ limit := by
  unfold addLimit
  split
  · rw [u8_eq h0 h1]; omega
  · split
    · omega
    · rw [u8_eq] <;> omega

theorem setBright_ok {t : Nat} {cb w : Int} {s : Light} (hs : Ok s) (hcb : cb ≤ 100) (hw : w ≤ 100) :
    Ok (setBright t cb w s) := set_ok hs (by decide) (by decide) (by decide) hcb hw

theorem toggle_ok {t : Nat} {s : Light} (hs : Ok s) : Ok (toggle t s) := by
  have h1 := hs.lastCb
  have h2 := hs.lastW
  unfold toggle
  split
  · exact setBright_ok hs (by decide) (by decide)
  · exact setBright_ok hs (by omega) (by omega)

theorem iterDir_ok {t : Nat} {s : Light} (hs : Ok s) : Ok (iterDir t s) := by
  obtain ⟨d, e, f, h⟩ := iterDir_eq t s
  rw [h]
  exact ⟨hs.r, hs.g, hs.b, hs.cb, hs.w, hs.lastCb, hs.lastW, hs.dimmed, hs.step, hs.minIter⟩

theorem iterDelay_ok {t x : Nat} {s : Light} (hs : Ok s) : Ok (iterDelay t x s).2 := by
  obtain ⟨d, e, h⟩ := iterDelay_eq t x s
  rw [h]
  exact ⟨hs.r, hs.g, hs.b, hs.cb, hs.w, hs.lastCb, hs.lastW, hs.dimmed, hs.step, hs.minIter⟩

theorem iterSet_ok {t : Nat} {rs ws : Int} {s : Light} (hs : Ok s) : Ok (iterSet t rs ws s) := by
  have h1 := hs.cb
  have h2 := hs.w
  obtain ⟨d, e, a, b, h⟩ := iterSet_eq t rs ws s
  rw [h]
  apply set_ok
  · exact ⟨hs.r, hs.g, hs.b, hs.cb, hs.w, hs.lastCb, hs.lastW, hs.dimmed, hs.step, hs.minIter⟩
  · decide
  · decide
  · decide
  · apply addLimit_le
    · decide
    · decide
    · show (s.cb : Int) ≤ 100; omega
  · apply addLimit_le
    · decide
    · decide
    · show (s.w : Int) ≤ 100; omega

theorem iterate_ok {t : Nat} {rs ws : Int} {s : Light} (hs : Ok s) : Ok (iterate t rs ws s) := by
  unfold iterate
  simp only []
  generalize (if s.kind = .dimmer then 0 else rs) = rs'
  have h1 : Ok ({ s with w := if rs' > 0 ∧ ws > 0 then s.cb else s.w } : Light) := by
    refine ⟨hs.r, hs.g, hs.b, hs.cb, ?_, hs.lastCb, hs.lastW, hs.dimmed, hs.step, hs.minIter⟩
    show (if rs' > 0 ∧ ws > 0 then s.cb else s.w) ≤ 100
    split
    · exact hs.cb
    · exact hs.w
  generalize ({ s with w := if rs' > 0 ∧ ws > 0 then s.cb else s.w } : Light) = q at h1
  have h1 := iterDir_ok (t := t) h1
  generalize iterDir t q = q at h1
  have h2 : Ok (if rs' > 0 then iterDelay t q.cb q else if ws > 0 then iterDelay t q.w q else (false, q)).2 := by
    split
    · exact iterDelay_ok h1
    · split
      · exact iterDelay_ok h1
      · exact h1
  generalize (if rs' > 0 then iterDelay t q.cb q else if ws > 0 then iterDelay t q.w q else (false, q)) = p at h2
  split
  · exact h2
  · exact iterSet_ok h2

theorem handleAction_ok {t : Nat} {a : Action} {s : Light} (hs : Ok s) : Ok (handleAction t a s) := by
  have h1 := hs.cb
  have h2 := hs.w
  have h3 := hs.lastCb
  have h4 := hs.lastW
  have h5 := hs.dimmed
  have h6 := hs.r
  have h7 := hs.g
  have h8 := hs.b
  have hl : ∀ (v : Nat) (a : Int), v ≤ 100 → (addLimit v a 100 : Int) ≤ 100 := fun v a h => addLimit_le (by decide) (by decide) (by omega)
  have hm : ∀ (v : Nat) (a : Int), v ≤ 255 → (addLimit v a 255 : Int) ≤ 255 := fun v a h => addLimit_le (by decide) (by decide) (by omega)
  cases a <;> simp only [handleAction]
  case toggle => exact toggle_ok hs
  case iterateRgb => exact iterate_ok hs
  case iterateW => exact iterate_ok hs
  case iterateAll => exact iterate_ok hs
  case turnOn => exact setBright_ok hs (by omega) (by omega)
  case turnOff => exact setBright_ok hs (by decide) (by decide)
  case brightenAll => exact setBright_ok hs (hl _ _ h1) (hl _ _ h2)
  case dimAll => exact setBright_ok hs (hl _ _ h1) (hl _ _ h2)
  case brightenR => exact set_ok hs (hm _ _ h6) (by decide) (by decide) (by decide) (by decide)
  case dimR => exact set_ok hs (hm _ _ h6) (by decide) (by decide) (by decide) (by decide)
  case brightenG => exact set_ok hs (by decide) (hm _ _ h7) (by decide) (by decide) (by decide)
  case dimG => exact set_ok hs (by decide) (hm _ _ h7) (by decide) (by decide) (by decide)
  case brightenB => exact set_ok hs (by decide) (by decide) (hm _ _ h8) (by decide) (by decide)
  case dimB => exact set_ok hs (by decide) (by decide) (hm _ _ h8) (by decide) (by decide)
  case brightenW => exact setBright_ok hs (by decide) (hl _ _ h2)
  case dimW => exact setBright_ok hs (by decide) (hl _ _ h2)
  case brightenRgb => exact setBright_ok hs (hl _ _ h1) (by decide)
  case dimRgb => exact setBright_ok hs (hl _ _ h1) (by decide)
  case turnOnRgb => exact setBright_ok hs (by omega) (by decide)
  case turnOffRgb => exact setBright_ok hs (by decide) (by decide)
  case toggleRgb => exact setBright_ok hs (by split <;> omega) (by decide)
  case turnOnW => exact setBright_ok hs (by decide) (by omega)
  case turnOffW => exact setBright_ok hs (by decide) (by decide)
  case toggleW => exact setBright_ok hs (by decide) (by split <;> omega)
  case turnOnRgbDimmed =>
    split
    · exact setBright_ok hs (by omega) (by decide)
    · exact hs
  case turnOnWDimmed =>
    split
    · exact setBright_ok hs (by decide) (by omega)
    · exact hs
  case turnOnAllDimmed =>
    split
    · exact setBright_ok hs (by omega) (by omega)
    · exact hs

theorem cap_le (n : Nat) : cap n ≤ 100 := by unfold cap; split <;> omega

theorem server_ok {t : Nat} {q : Request} {s : Light} (hs : Ok s) : Ok (server t q s) := by
  have h1 := hs.cb
  have h2 := hs.w
  have h3 := hs.lastCb
  have h4 := hs.lastW
  have c1 := cap_le q.cb
  have c2 := cap_le q.w
  unfold server
  split
  · exact set_ok hs (by omega) (by omega) (by omega) (by omega) (by omega)
  · exact setBright_ok hs (by decide) (by omega)
  · exact setBright_ok hs (by decide) (by decide)
  · exact setBright_ok hs (by decide) (by split <;> omega)
  · exact setBright_ok hs (by omega) (by decide)
  · exact setBright_ok hs (by decide) (by decide)
  · exact setBright_ok hs (by split <;> omega) (by decide)
  · exact setBright_ok hs (by omega) (by omega)
  · exact setBright_ok hs (by decide) (by decide)
  · exact toggle_ok hs
  · split
    · exact setBright_ok hs (by decide) (by omega)
    · exact ⟨hs.r, hs.g, hs.b, hs.cb, hs.w, hs.lastCb, c2, hs.dimmed, hs.step, hs.minIter⟩
  · split
    · exact setBright_ok hs (by omega) (by decide)
    · exact ⟨hs.r, hs.g, hs.b, hs.cb, hs.w, c1, hs.lastW, hs.dimmed, hs.step, hs.minIter⟩
  · exact set_ok hs (by omega) (by omega) (by omega) (by decide) (by decide)
  all_goals exact ⟨hs.r, hs.g, hs.b, hs.cb, hs.w, hs.lastCb, hs.lastW, hs.dimmed, hs.step, hs.minIter⟩

theorem auto_ok {t : Nat} {s : Light} (hs : Ok s) : Ok (auto t s) := by
  unfold auto
  split
  · split
    · split <;> first | exact handleAction_ok hs | exact hs
    · exact hs
  · exact ⟨hs.r, hs.g, hs.b, hs.cb, hs.w, hs.lastCb, hs.lastW, hs.dimmed, hs.step, hs.minIter⟩

/-- `onInit` sets the two brightnesses to 100 (with the toggle flag), 0, the remembered or the current
values. -/
theorem init_eq (t : Nat) (si : Int) (mo : Option Bool) (fr fw : Bool) (s : Light) :
    ∃ a b : Nat, init t si mo fr fw s = set t s.r s.g s.b a b (decide (si = 1)) false { s with cb := a, w := b } ∧
      ((si = 1 ∧ a = 100) ∨ (si ≠ 1 ∧ (a = 0 ∨ a = s.lastCb ∨ a = s.cb))) ∧
      ((si = 1 ∧ b = 100) ∨ (si ≠ 1 ∧ (b = 0 ∨ b = s.lastW ∨ b = s.w))) := by
  unfold init
  cases mo with
  | none =>
    refine ⟨_, _, rfl, ?_, ?_⟩
    · by_cases h1 : si = 1
      · simp [h1]
      · by_cases h2 : si = 0 <;> simp [h1, h2]
    · by_cases h1 : si = 1
      · simp [h1]
      · by_cases h2 : si = 0 <;> simp [h1, h2]
  | some p =>
    refine ⟨_, _, rfl, ?_, ?_⟩
    · by_cases h1 : si = 1
      · simp [h1]
      · by_cases h2 : si = 0
        · simp [h2]
        · cases p <;> cases fr <;> simp [h1, h2, motion]
    · by_cases h1 : si = 1
      · simp [h1]
      · by_cases h2 : si = 0
        · simp [h2]
        · cases p <;> cases fw <;> simp [h1, h2, motion]

theorem init_ok {t : Nat} {si : Int} {mo : Option Bool} {fr fw : Bool} {s : Light} (hs : Ok s) :
    Ok (init t si mo fr fw s) := by
  obtain ⟨a, b, h, h3, h4⟩ := init_eq t si mo fr fw s
  rw [h]
  have h1 := hs.cb
  have h2 := hs.w
  have h5 := hs.r
  have h6 := hs.g
  have h7 := hs.b
  have h8 := hs.lastCb
  have h9 := hs.lastW
  have ha : a ≤ 100 := by omega
  have hb : b ≤ 100 := by omega
  exact set_ok ⟨hs.r, hs.g, hs.b, ha, hb, hs.lastCb, hs.lastW, hs.dimmed, hs.step, hs.minIter⟩
    (by omega) (by omega) (by omega) (by omega) (by omega)

theorem boot_ok (t : Nat) (k : Kind) (si : Int) (mo : Option Bool) (fr fw : Bool) : Ok (boot t k si mo fr fw) :=
  by
  cases k <;> exact init_ok ⟨by decide, by decide, by decide, by decide, by decide, by decide, by decide, by decide, by decide, by decide⟩

theorem restart_ok {t : Nat} {si : Int} {mo : Option Bool} {fr fw : Bool} {s : Light} (hs : Ok s) :
    Ok (restart t si mo fr fw s) := by
  unfold restart
  apply init_ok
  cases s.kind
  · exact ⟨hs.r, hs.g, hs.b, hs.cb, hs.w, hs.lastCb, hs.lastW, hs.dimmed, hs.step, hs.minIter⟩
  · exact ⟨hs.r, hs.g, hs.b, hs.cb, Nat.zero_le _, hs.lastCb, Nat.le_refl _, hs.dimmed, hs.step, hs.minIter⟩
  · exact ⟨Nat.zero_le _, Nat.le_refl _, Nat.zero_le _, Nat.zero_le _, hs.w, Nat.le_refl _, hs.lastW, hs.dimmed, hs.step, hs.minIter⟩

end Verif.Rgbw
