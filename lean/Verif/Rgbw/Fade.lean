import Verif.Rgbw.Restore
/-!
# C29: fading
-/

namespace Verif.Rgbw

/-! ## One component -/

theorem u16_eq {x : Int} (h0 : 0 ≤ x) (h1 : x ≤ 65535) : (u16 x : Int) = x := by
  unfold u16; omega

theorem stepSize_pos (F : Rounding) (fade maxHw dist dt : Nat) : 1 ≤ stepSize F fade maxHw dist dt := by
  unfold stepSize
  simp only []
  split <;> omega

/-- What is missing to the target. -/
def rem (T : Int) (c : Comp) : Nat := (T - c.hw).natAbs

/-- A change of a component: towards the target by the step, or to the target. -/
theorem update_change {F : Rounding} {t fade maxHw : Nat} {T : Int} {c : Comp} (h0 : 0 ≤ T) (h1 : T ≤ 65535)
    (h2 : c.hw ≤ 65535) :
    Toward c.hw (update F t fade maxHw T c).1.hw T ∧ (update F t fade maxHw T c).1.dist = c.dist ∧
    ((update F t fade maxHw T c).2 = false → (update F t fade maxHw T c).1.hw = c.hw) ∧
    (since (clk t) c.last ≠ 0 → (update F t fade maxHw T c).1.last = clk t ∧
      rem T (update F t fade maxHw T c).1 = rem T c - (stepSize F fade maxHw c.dist (since (clk t) c.last)).toNat) ∧
    (T = c.hw → (update F t fade maxHw T c).1.last = clk t) ∧
    (since (clk t) c.last = 0 → T ≠ c.hw → (update F t fade maxHw T c).1.last = c.last) := by
  unfold update
  generalize hd : since (clk t) c.last = dt
  have hp := stepSize_pos F fade maxHw c.dist dt
  generalize stepSize F fade maxHw c.dist dt = st at hp
  by_cases hT : T = c.hw
  · rw [if_neg (by simpa using hT)]
    refine ⟨?_, rfl, fun _ => rfl, fun _ => ⟨rfl, ?_⟩, fun _ => rfl, fun _ h => absurd hT h⟩
    · show Toward c.hw c.hw T
      unfold Toward; omega
    · unfold rem
      show (T - c.hw).natAbs = (T - c.hw).natAbs - st.toNat
      omega
  · rw [if_pos hT]
    by_cases hz : dt = 0
    · rw [if_pos hz]
      refine ⟨?_, rfl, fun _ => rfl, fun h => absurd hz h, fun h => absurd h hT, fun _ _ => rfl⟩
      show Toward c.hw c.hw T
      unfold Toward; omega
    · rw [if_neg hz]
      simp only []
      have hg : ∃ v, getStep st T c.hw = v ∧ v ≠ 0 ∧ Toward c.hw (c.hw + v) T ∧
          (T - (c.hw + v)).natAbs = (T - c.hw).natAbs - st.toNat := by
        unfold getStep Toward
        rw [if_pos ⟨by omega, hT⟩]
        split
        · split
          · exact ⟨_, rfl, by omega, by omega, by omega⟩
          · exact ⟨_, rfl, by omega, by omega, by omega⟩
        · split
          · exact ⟨_, rfl, by omega, by omega, by omega⟩
          · exact ⟨_, rfl, by omega, by omega, by omega⟩
      obtain ⟨v, hv, hv0, hto, hrem⟩ := hg
      rw [hv, if_pos hv0]
      have hu : (u16 (c.hw + v) : Int) = c.hw + v := by
        unfold Toward at hto
        exact u16_eq (by omega) (by omega)
      refine ⟨?_, rfl, (fun h => by cases h), fun _ => ⟨rfl, ?_⟩, fun h => absurd h hT, fun h _ => absurd h hz⟩
      · show Toward c.hw (u16 (c.hw + v)) T
        rw [hu]; exact hto
      · show (T - (u16 (c.hw + v) : Nat)).natAbs = _
        rw [hu, hrem]; rfl

/-- A step covers at least a quarter of its share of the distance, or all of it. -/
theorem stepSize_share (F : Rounding) {fade maxHw D dt : Nat} (hf : fade ≤ 65535) (hD : D ≤ 65535) (hdt : 0 < dt) :
    D ≤ (stepSize F fade maxHw D dt).toNat ∨ D * dt ≤ 4 * fade * (stepSize F fade maxHw D dt).toNat := by
  unfold stepSize
  simp only []
  have hf' : (if D < maxHw / 10 then fade / 3 else fade) ≤ fade := by split <;> omega
  generalize (if D < maxHw / 10 then fade / 3 else fade) = f at hf'
  have hdt' : (0 : Rat) < (dt : Rat) := by exact_mod_cast hdt
  by_cases hle : f ≤ dt
  · left
    have h1 : (f : Rat) / dt ≤ ((1 : Int) : Rat) := by
      rw [Rounding.div_le_iff hdt']
      have : (f : Rat) ≤ (dt : Rat) := by exact_mod_cast hle
      grind
    have h2 := F.mono _ _ h1
    rw [F.int 1 (by decide)] at h2
    have h3 : (if F.rnd ((f : Rat) / dt) ≤ 1 then (1 : Rat) else F.rnd ((f : Rat) / dt)) = 1 := if_pos h2
    rw [h3]
    have h4 : (D : Rat) / 1 = ((D : Int) : Rat) := by
      have : (D : Rat) = ((D : Int) : Rat) := rfl
      grind
    rw [h4, F.int D (by omega), Rat.floor_intCast]
    split <;> omega
  · right
    -- the number of steps is at most `k`
    have hk : f ≤ (f / dt + 1) * dt := by
      have := Nat.div_add_mod f dt
      have := Nat.mod_lt f hdt
      rw [Nat.add_mul, Nat.mul_comm (f / dt)]
      omega
    have hk2 : (f / dt + 1) * dt ≤ 2 * f := by
      have := Nat.div_mul_le_self f dt
      rw [Nat.add_mul]
      omega
    have hk3 : f / dt ≤ 65535 := Nat.le_trans (Nat.div_le_self _ _) (by omega)
    generalize f / dt + 1 = k at hk hk2 hk3
    have hkpos : 0 < k := by
      rcases Nat.eq_zero_or_pos k with h | h
      · subst h; omega
      · exact h
    have hk4 : k ≤ 2 * f := by
      have : k * 1 ≤ k * dt := Nat.mul_le_mul_left _ hdt
      omega
    have h1 : (f : Rat) / dt ≤ ((k : Int) : Rat) := by
      rw [Rounding.div_le_iff hdt']
      exact_mod_cast hk
    have h2 := F.mono _ _ h1
    rw [F.int k (by omega)] at h2
    have hd : ∃ d : Rat, (if F.rnd ((f : Rat) / dt) ≤ 1 then (1 : Rat) else F.rnd ((f : Rat) / dt)) = d ∧ 0 < d ∧ d ≤ k := by
      split
      · refine ⟨1, rfl, by decide, ?_⟩
        exact_mod_cast hkpos
      · exact ⟨_, rfl, by grind, h2⟩
    obtain ⟨d, hd, hd0, hdk⟩ := hd
    rw [hd]
    have h3 : ((D / k : Nat) : Rat) ≤ (D : Rat) / d := by
      rw [Rounding.le_div_iff hd0]
      have h4 : ((D / k : Nat) : Rat) * d ≤ ((D / k : Nat) : Rat) * (k : Rat) :=
        Rat.mul_le_mul_of_nonneg_left hdk (by exact_mod_cast Nat.zero_le _)
      have h5 : ((D / k : Nat) : Rat) * (k : Rat) ≤ (D : Rat) := by
        exact_mod_cast Nat.div_mul_le_self D k
      grind
    have h4 := F.mono _ _ h3
    have h5 : F.rnd ((D / k : Nat) : Rat) = (((D / k : Nat) : Int) : Rat) :=
      F.int (D / k : Nat) (by have := Nat.div_le_self D k; show ((D / k : Nat) : Int).natAbs ≤ _; rw [Int.natAbs_natCast]; omega)
    rw [h5] at h4
    have h6 := Rat.floor_monotone h4
    rw [Rat.floor_intCast] at h6
    generalize (F.rnd ((D : Rat) / d)).floor = st at h6
    have h7 : ∃ n : Nat, (if st < 1 then (1 : Int) else st).toNat = n ∧ D / k ≤ n ∧ 1 ≤ n := by
      refine ⟨_, rfl, ?_, ?_⟩ <;> split <;> omega
    obtain ⟨n, hn, hn1, hn2⟩ := h7
    rw [hn]
    have h8 : D ≤ 2 * n * k := by
      have h9 := Nat.div_add_mod D k
      have h10 := Nat.mod_lt D hkpos
      have h11 : k * (D / k) ≤ k * n := Nat.mul_le_mul_left _ hn1
      have h12 : k * 1 ≤ k * n := Nat.mul_le_mul_left _ hn2
      have : 2 * n * k = k * n + k * n := by rw [Nat.mul_comm, ← Nat.mul_assoc, Nat.mul_comm k 2]; rw [Nat.mul_assoc]; omega
      omega
    calc D * dt ≤ 2 * n * k * dt := Nat.mul_le_mul_right _ h8
      _ = 2 * n * (k * dt) := by rw [Nat.mul_assoc]
      _ ≤ 2 * n * (2 * f) := Nat.mul_le_mul_left _ hk2
      _ ≤ 2 * n * (2 * fade) := Nat.mul_le_mul_left _ (by omega)
      _ = 4 * fade * n := by grind

/-! ## The invariant of the hardware values -/

/-- A component in range. -/
def CompOk (m : Nat) (c : Comp) : Prop := c.hw ≤ m ∧ c.dist ≤ 65535 ∧ c.last < 2 ^ 32

/-- All hardware values in range. -/
structure HwOk (s : Light) : Prop where
  max : 2 ≤ s.maxHw ∧ s.maxHw ≤ 65535
  fade : s.fade ≤ 65535
  tick : s.lastTick < 2 ^ 32
  r : CompOk s.maxHw s.hr
  g : CompOk s.maxHw s.hg
  b : CompOk s.maxHw s.hb
  cb : CompOk s.maxHw s.hcb
  w : CompOk s.maxHw s.hwh

theorem HwOk.congr {s q : Light} (h : q.still = s.still) (hs : HwOk s) : HwOk q := by
  have e1 : q.maxHw = s.maxHw := congrArg Still.maxHw h
  have e2 : q.fade = s.fade := congrArg Still.fade h
  have e3 : q.lastTick = s.lastTick := congrArg Still.lastTick h
  have e4 : q.hr = s.hr := congrArg Still.hr h
  have e5 : q.hg = s.hg := congrArg Still.hg h
  have e6 : q.hb = s.hb := congrArg Still.hb h
  have e7 : q.hcb = s.hcb := congrArg Still.hcb h
  have e8 : q.hwh = s.hwh := congrArg Still.hwh h
  constructor
  · rw [e1]; exact hs.max
  · rw [e2]; exact hs.fade
  · rw [e3]; exact hs.tick
  · rw [e1, e4]; exact hs.r
  · rw [e1, e5]; exact hs.g
  · rw [e1, e6]; exact hs.b
  · rw [e1, e7]; exact hs.cb
  · rw [e1, e8]; exact hs.w

theorem colour_within {c m : Nat} (hc : c ≤ 255) : Within m (adjustRange c 0 255 0 m) := by
  have h : adjustRange c 0 255 0 m = ((c * m / 255 : Nat) : Int) := by
    unfold adjustRange
    rw [show ((c : Int) - 0) * ((m : Int) - 0) = ((c * m : Nat) : Int) by simp,
      Int.tdiv_eq_ediv_of_nonneg (by omega)]
    simp
  rw [h]
  unfold Within
  have h1 : c * m / 255 ≤ m := by
    have h2 : c * m ≤ 255 * m := Nat.mul_le_mul_right _ hc
    omega
  omega

theorem targets_within {A : Adjuster} (hA : A.Bounded) {s : Light} (hs : Ok s) :
    (targets A s).All (Within s.maxHw) :=
  ⟨colour_within hs.r, colour_within hs.g, colour_within hs.b, hA _ _ hs.cb, hA _ _ hs.w⟩

/-- What a pass that does something makes of one component. -/
structure Moved (F : Rounding) (t fade maxHw : Nat) (reset instant : Bool) (T : Int) (c d : Comp) : Prop where
  to : Toward c.hw d.hw T
  ok : CompOk maxHw d
  dist : d.dist = if reset then rem T c else c.dist
  now : instant = true → d.hw = T
  step : instant = false → since (clk t) c.last ≠ 0 → d.last = clk t ∧
    rem T d = rem T c - (stepSize F fade maxHw d.dist (since (clk t) c.last)).toNat
  wait : instant = false → since (clk t) c.last = 0 → d.last = clk t

theorem since_zero {t x : Nat} (hx : x < 2 ^ 32) (h : since (clk t) x = 0) : x = clk t := by
  unfold since clk at *
  omega

theorem since_zero' {t x : Nat} (hx : x < 2 ^ 32) (h : x = clk t) : since (clk t) x = 0 := by
  subst h
  exact since_clk_self _

theorem moved {F : Rounding} {t fade maxHw : Nat} {reset instant : Bool} {T : Int} {c : Comp}
    (hm : maxHw ≤ 65535) (hT : Within maxHw T) (hc : CompOk maxHw c) :
    Moved F t fade maxHw reset instant T c
      (if instant then { (if reset then distance T c else c) with hw := u16 T }
       else (update F t fade maxHw T (if reset then distance T c else c)).1) := by
  obtain ⟨hT0, hT1⟩ := hT
  obtain ⟨hc1, hc2, hc3⟩ := hc
  have hd : ∃ d, (if reset then distance T c else c) = { c with dist := d } ∧ d ≤ 65535 ∧ d = if reset then rem T c else c.dist := by
    cases reset
    · exact ⟨c.dist, rfl, hc2, rfl⟩
    · have hr : rem T c ≤ 65535 := by unfold rem; omega
      refine ⟨rem T c, ?_, hr, rfl⟩
      show distance T c = _
      have h1 := u16_eq (x := ((rem T c : Nat) : Int)) (by omega) (by omega)
      unfold distance
      have h2 : u16 ((T - c.hw).natAbs : Nat) = rem T c := by
        have : u16 ((rem T c : Nat) : Int) = rem T c := by omega
        exact this
      rw [h2]
  obtain ⟨d, hd, hd1, hd2⟩ := hd
  rw [hd]
  cases instant
  · show Moved F t fade maxHw reset false T c (update F t fade maxHw T { c with dist := d }).1
    obtain ⟨h1, h2, _, h3, h4, h5⟩ := update_change (F := F) (t := t) (fade := fade) (maxHw := maxHw) (T := T) (c := { c with dist := d }) hT0 (by omega) (by show c.hw ≤ 65535; omega)
    have hlt : (update F t fade maxHw T { c with dist := d }).1.last < 2 ^ 32 := by
      by_cases hz : since (clk t) c.last = 0
      · by_cases he : T = c.hw
        · rw [h4 he]; exact clk_lt t
        · rw [h5 hz he]; exact hc3
      · rw [(h3 hz).1]; exact clk_lt t
    refine ⟨h1, ⟨?_, by rw [h2]; exact hd1, hlt⟩, by rw [h2]; exact hd2, (fun h => by cases h), ?_, ?_⟩
    · have h1' : Toward c.hw (update F t fade maxHw T { c with dist := d }).1.hw T := h1
      unfold Toward at h1'
      omega
    · intro _ hz
      have := h3 hz
      rw [h2]
      exact this
    · intro _ hz
      by_cases he : T = c.hw
      · exact h4 he
      · rw [h5 hz he]
        exact since_zero hc3 hz
  · show Moved F t fade maxHw reset true T c { c with dist := d, hw := u16 T }
    have hu := u16_eq (x := T) hT0 (by omega)
    refine ⟨?_, ⟨?_, hd1, hc3⟩, hd2, fun _ => hu, (fun h => by cases h), (fun h => by cases h)⟩
    · show Toward c.hw (u16 T) T
      unfold Toward
      omega
    · show u16 T ≤ maxHw
      omega

/-- What a pass that does something makes of the five components. -/
theorem move_measure {F : Rounding} {t : Nat} {T : Five} {s : Light} (hs : HwOk s) (hT : T.All (Within s.maxHw)) :
    let s' := move F t T (measure T s)
    s'.reset = false ∧ s'.instant = false ∧
    Moved F t s.fade s.maxHw s.reset s.instant T.r s.hr s'.hr ∧ Moved F t s.fade s.maxHw s.reset s.instant T.g s.hg s'.hg ∧
    Moved F t s.fade s.maxHw s.reset s.instant T.b s.hb s'.hb ∧ Moved F t s.fade s.maxHw s.reset s.instant T.cb s.hcb s'.hcb ∧
    Moved F t s.fade s.maxHw s.reset s.instant T.w s.hwh s'.hwh ∧ (s'.changed = false → s'.hw = s.hw) := by
  have k : ∀ {T c}, Within s.maxHw T → CompOk s.maxHw c → _ := fun {T c} h1 h2 =>
    moved (F := F) (t := t) (fade := s.fade) (maxHw := s.maxHw) (reset := s.reset) (instant := s.instant) (T := T) (c := c) hs.max.2 h1 h2
  have kr := k hT.1 hs.r
  have kg := k hT.2.1 hs.g
  have kb := k hT.2.2.1 hs.b
  have kc := k hT.2.2.2.1 hs.cb
  have kw := k hT.2.2.2.2 hs.w
  have u := @update_change F t s.fade s.maxHw
  have hm := hs.max.2
  unfold Five.All Within at hT
  obtain ⟨⟨t1, t2⟩, ⟨t3, t4⟩, ⟨t5, t6⟩, ⟨t7, t8⟩, t9, t10⟩ := hT
  have b1 := hs.r.1
  have b2 := hs.g.1
  have b3 := hs.b.1
  have b4 := hs.cb.1
  have b5 := hs.w.1
  unfold measure move
  cases hr : s.reset <;> cases hi : s.instant <;> rw [hr, hi] at kr kg kb kc kw <;> simp only [hi, hr, Bool.false_eq_true, ↓reduceIte] at kr kg kb kc kw ⊢
  · refine ⟨trivial, trivial, kr, kg, kb, kc, kw, ?_⟩
    intro h
    simp only [Bool.or_eq_false_iff] at h
    obtain ⟨⟨⟨⟨⟨_, h1⟩, h2⟩, h3⟩, h4⟩, h5⟩ := h
    have e1 := (u t1 (by omega) (by omega)).2.2.1 h1
    have e2 := (u t3 (by omega) (by omega)).2.2.1 h2
    have e3 := (u t5 (by omega) (by omega)).2.2.1 h3
    have e4 := (u t7 (by omega) (by omega)).2.2.1 h4
    have e5 := (u t9 (by omega) (by omega)).2.2.1 h5
    unfold Light.hw
    simp only [e1, e2, e3, e4, e5]
  · exact ⟨trivial, trivial, kr, kg, kb, kc, kw, fun h => by cases h⟩
  · refine ⟨trivial, trivial, kr, kg, kb, kc, kw, ?_⟩
    intro h
    simp only [Bool.or_eq_false_iff] at h
    obtain ⟨⟨⟨⟨⟨_, h1⟩, h2⟩, h3⟩, h4⟩, h5⟩ := h
    have e1 := (u t1 (by omega) (show (distance T.r s.hr).hw ≤ 65535 by show s.hr.hw ≤ _; omega)).2.2.1 h1
    have e2 := (u t3 (by omega) (show (distance T.g s.hg).hw ≤ 65535 by show s.hg.hw ≤ _; omega)).2.2.1 h2
    have e3 := (u t5 (by omega) (show (distance T.b s.hb).hw ≤ 65535 by show s.hb.hw ≤ _; omega)).2.2.1 h3
    have e4 := (u t7 (by omega) (show (distance T.cb s.hcb).hw ≤ 65535 by show s.hcb.hw ≤ _; omega)).2.2.1 h4
    have e5 := (u t9 (by omega) (show (distance T.w s.hwh).hw ≤ 65535 by show s.hwh.hw ≤ _; omega)).2.2.1 h5
    unfold Light.hw
    simp only [e1, e2, e3, e4, e5]
    rfl
  · exact ⟨trivial, trivial, kr, kg, kb, kc, kw, fun h => by cases h⟩

/-- What is given to the device: colours as they are, a brightness 0 as 0, others scaled from
1..maxHw to the limits. -/
def Light.device (s : Light) : Five :=
  ⟨s.hr.hw, s.hg.hw, s.hb.hw, if s.hcb.hw = 0 then 0 else adjustRange s.hcb.hw 1 s.maxHw s.minCb s.maxCb,
    if s.hwh.hw = 0 then 0 else adjustRange s.hwh.hw 1 s.maxHw s.minW s.maxW⟩

theorem emit_device {s : Light} (hm : 2 ≤ s.maxHw) :
    emit s = some { s with changed := false, out := if s.changed then s.device :: s.out else s.out } := by
  unfold emit
  cases hc : s.changed
  · show some s = some { s with changed := false, out := s.out }
    rw [← hc]
  · have h : ∀ hw lo hi, scale hw s.maxHw lo hi = some (if hw = 0 then 0 else adjustRange hw 1 s.maxHw lo hi) := by
      intro hw lo hi
      unfold scale
      by_cases h0 : hw = 0
      · rw [if_neg (by omega), if_pos h0]
      · rw [if_pos (by omega), if_neg (by omega), if_neg h0]
    simp only [if_true, h]
    rfl

/-- A pass that does something, `a` being the state after the automatic iteration. -/
structure Effective (F : Rounding) (A : Adjuster) (t : Nat) (a s s' : Light) : Prop where
  tick : s'.lastTick = clk t
  reset : s'.reset = false
  instant : s'.instant = false
  mode : s'.mode = a.mode
  colour : s'.r = a.r ∧ s'.g = a.g ∧ s'.b = a.b ∧ s'.cb = a.cb ∧ s'.w = a.w
  max : s'.maxHw = s.maxHw
  fade : s'.fade = s.fade
  limits : s'.minW = s.minW ∧ s'.maxW = s.maxW ∧ s'.minCb = s.minCb ∧ s'.maxCb = s.maxCb
  targets : targets A s' = targets A a
  r : Moved F t s.fade s.maxHw a.reset a.instant (Rgbw.targets A s').r s.hr s'.hr
  g : Moved F t s.fade s.maxHw a.reset a.instant (Rgbw.targets A s').g s.hg s'.hg
  b : Moved F t s.fade s.maxHw a.reset a.instant (Rgbw.targets A s').b s.hb s'.hb
  cb : Moved F t s.fade s.maxHw a.reset a.instant (Rgbw.targets A s').cb s.hcb s'.hcb
  w : Moved F t s.fade s.maxHw a.reset a.instant (Rgbw.targets A s').w s.hwh s'.hwh
  out : (s'.out = s.out ∧ s'.hw = s.hw) ∨ s'.out = s'.device :: s.out

theorem pass_effective {F : Rounding} {A : Adjuster} (hA : A.Bounded) {t : Nat} {s : Light} (hs : HwOk s) (hok : Ok s)
    (h0 : s.lastTick ≠ 0) (hd : since (clk t) s.lastTick ≠ 0) :
    ∃ s', pass F A t s = some s' ∧ Effective F A t (auto t s) s s' := by
  unfold pass
  rw [if_neg h0]
  simp only []
  rw [if_pos (by omega)]
  have hst := auto_still t s
  have e1 : (auto t s).maxHw = s.maxHw := congrArg Still.maxHw hst
  have e2 : (auto t s).fade = s.fade := congrArg Still.fade hst
  have e4 : (auto t s).hr = s.hr := congrArg Still.hr hst
  have e5 : (auto t s).hg = s.hg := congrArg Still.hg hst
  have e6 : (auto t s).hb = s.hb := congrArg Still.hb hst
  have e7 : (auto t s).hcb = s.hcb := congrArg Still.hcb hst
  have e8 : (auto t s).hwh = s.hwh := congrArg Still.hwh hst
  have e9 : (auto t s).out = s.out := congrArg Still.out hst
  have ea : (auto t s).minW = s.minW := congrArg Still.minW hst
  have eb : (auto t s).maxW = s.maxW := congrArg Still.maxW hst
  have ec : (auto t s).minCb = s.minCb := congrArg Still.minCb hst
  have ed : (auto t s).maxCb = s.maxCb := congrArg Still.maxCb hst
  have hsa := hs.congr hst
  have hoa := auto_ok (t := t) hok
  generalize auto t s = a at *
  have hsb : HwOk { a with lastTick := clk t } := ⟨hsa.max, hsa.fade, clk_lt t, hsa.r, hsa.g, hsa.b, hsa.cb, hsa.w⟩
  have hT : (targets A a).All (Within a.maxHw) := targets_within hA hoa
  have hmm := move_measure (F := F) (t := t) (T := targets A a) hsb hT
  have hTe : targets A { a with lastTick := clk t } = targets A a := rfl
  rw [hTe]
  obtain ⟨a1, r1, g1, b1, c1, w1, h1⟩ := measure_eq (targets A a) { a with lastTick := clk t }
  obtain ⟨r2, g2, b2, c2, w2, d2, i2, h2⟩ := move_eq F t (targets A a) { a with lastTick := clk t, reset := a1, hr := r1, hg := g1, hb := b1, hcb := c1, hwh := w1 }
  simp only [h1, h2] at hmm ⊢
  obtain ⟨m1, m2, m3, m4, m5, m6, m7, m8⟩ := hmm
  rw [emit_device (by exact hsa.max.1)]
  refine ⟨_, rfl, ?_⟩
  rw [e1, e2] at m3 m4 m5 m6 m7
  rw [e4] at m3
  rw [e5] at m4
  rw [e6] at m5
  rw [e7] at m6
  rw [e8] at m7
  refine ⟨rfl, m1, m2, rfl, ⟨rfl, rfl, rfl, rfl, rfl⟩, e1, e2, ⟨ea, eb, ec, ed⟩, rfl, m3, m4, m5, m6, m7, ?_⟩
  cases d2
  · left
    refine ⟨e9, ?_⟩
    have := m8 rfl
    have e : ({ a with lastTick := clk t } : Light).hw = s.hw := by
      unfold Light.hw
      rw [e4, e5, e6, e7, e8]
    exact this.trans e
  · right
    show _ :: a.out = _ :: s.out
    rw [e9]
    rfl

/-! ## Every history -/

theorem HwOk.moved {F : Rounding} {A : Adjuster} {t : Nat} {a s s' : Light} (hs : HwOk s) (h : Effective F A t a s s') :
    HwOk s' := by
  constructor
  · rw [h.max]; exact hs.max
  · rw [h.fade]; exact hs.fade
  · rw [h.tick]; exact clk_lt t
  · rw [h.max]; exact h.r.ok
  · rw [h.max]; exact h.g.ok
  · rw [h.max]; exact h.b.ok
  · rw [h.max]; exact h.cb.ok
  · rw [h.max]; exact h.w.ok

theorem CompOk.start {m t : Nat} {c : Comp} (h : CompOk m c) : CompOk m { c with last := clk t } :=
  ⟨h.1, h.2.1, clk_lt t⟩

theorem HwOk.start {t : Nat} {s : Light} (hs : HwOk s) : HwOk (start t s) :=
  ⟨hs.max, hs.fade, clk_lt t, hs.r.start, hs.g.start, hs.b.start, hs.cb.start, hs.w.start⟩

/-- A pass: the first one, one that does something, or one in the same millisecond. -/
theorem pass_cases {F : Rounding} {A : Adjuster} (hA : A.Bounded) (t : Nat) {s : Light} (hs : HwOk s) (hok : Ok s) :
    ∃ s', pass F A t s = some s' ∧
      ((s.lastTick = 0 ∧ s' = start t s) ∨
       (s.lastTick ≠ 0 ∧ since (clk t) s.lastTick ≠ 0 ∧ Effective F A t (auto t s) s s') ∨
       (s.lastTick ≠ 0 ∧ since (clk t) s.lastTick = 0 ∧ s' = auto t s)) := by
  by_cases h0 : s.lastTick = 0
  · refine ⟨start t s, ?_, .inl ⟨h0, rfl⟩⟩
    unfold pass
    rw [if_pos h0]
  · by_cases hd : since (clk t) s.lastTick = 0
    · refine ⟨auto t s, ?_, .inr (.inr ⟨h0, hd, rfl⟩)⟩
      unfold pass
      rw [if_neg h0]
      simp only []
      rw [if_neg (by omega)]
    · obtain ⟨s', h1, h2⟩ := pass_effective (F := F) hA hs hok h0 hd
      exact ⟨s', h1, .inr (.inl ⟨h0, hd, h2⟩)⟩

theorem init_still (t : Nat) (si : Int) (mo : Option Bool) (fr fw : Bool) (s : Light) :
    (init t si mo fr fw s).still = s.still := by
  obtain ⟨a, b, h, _, _⟩ := init_eq t si mo fr fw s
  rw [h, set_still]
  rfl

theorem comp0 (m : Nat) : CompOk m {} := ⟨Nat.zero_le _, Nat.zero_le _, by show 0 < 2 ^ 32; decide⟩

theorem boot_hw (t : Nat) (k : Kind) (si : Int) (mo : Option Bool) (fr fw : Bool) : HwOk (boot t k si mo fr fw) := by
  have h : HwOk { kind := k } := by
    refine ⟨?_, ?_, ?_, comp0 _, comp0 _, comp0 _, comp0 _, comp0 _⟩
    · show 2 ≤ 1023 ∧ 1023 ≤ 65535; decide
    · show 500 ≤ 65535; decide
    · show 0 < 2 ^ 32; decide
  exact h.congr (init_still ..)

theorem restart_hw {t : Nat} {si : Int} {mo : Option Bool} {fr fw : Bool} {s : Light} (hs : HwOk s) :
    HwOk (restart t si mo fr fw s) := by
  unfold restart
  refine HwOk.congr (init_still ..) ?_
  cases s.kind <;> exact ⟨hs.max, hs.fade, (by show 0 < 2 ^ 32; decide), comp0 _, comp0 _, comp0 _, comp0 _, comp0 _⟩

theorem exec_hw {F : Rounding} {A : Adjuster} (hA : A.Bounded) {t : Nat} {o : Op} {s s' : Light} (hs : HwOk s) (hok : Ok s)
    (hv : Valid s o) (h : exec F A s (t, o) = some s') : HwOk s' := by
  cases o with
  | pass =>
    obtain ⟨q, h1, h2⟩ := pass_cases (F := F) hA t hs hok
    have h' : pass F A t s = some s' := h
    rw [h1] at h'
    injection h' with h'
    subst h'
    rcases h2 with ⟨_, h⟩ | ⟨_, _, h⟩ | ⟨_, _, h⟩
    · subst h; exact hs.start
    · exact hs.moved h
    · subst h; exact hs.congr (auto_still ..)
  | report =>
    injection h with h
    subst h
    show HwOk (report t s)
    unfold report
    split <;> exact ⟨hs.max, hs.fade, hs.tick, hs.r, hs.g, hs.b, hs.cb, hs.w⟩
  | server q => injection h with h; subst h; exact hs.congr (server_still ..)
  | action a => injection h with h; subst h; exact hs.congr (handleAction_still ..)
  | set r g b cb w tg i => injection h with h; subst h; exact hs.congr (set_still ..)
  | restart si mo fr fw => injection h with h; subst h; exact restart_hw hs
  | maxHw n =>
    injection h with h
    subst h
    obtain ⟨h1, h2, h3, h4, h5, h6, h7⟩ := hv
    have hu := u16_eq (x := n) (by omega) (by omega)
    simp only [Light.hw] at h3 h4 h5 h6 h7
    have hc : ∀ c : Comp, (c.hw : Int) ≤ n → CompOk s.maxHw c → CompOk (u16 n) c := fun c h hc => ⟨by omega, hc.2⟩
    exact ⟨⟨by show 2 ≤ u16 n; omega, by show u16 n ≤ 65535; omega⟩, hs.fade, hs.tick, hc _ h3 hs.r, hc _ h4 hs.g, hc _ h5 hs.b, hc _ h6 hs.cb, hc _ h7 hs.w⟩
  | fade n =>
    injection h with h
    subst h
    exact ⟨hs.max, by show u16 n ≤ 65535; unfold u16; omega, hs.tick, hs.r, hs.g, hs.b, hs.cb, hs.w⟩
  | limits lo hi =>
    injection h with h
    subst h
    show HwOk (setLimits lo hi s)
    have e : u16 (s.maxHw : Int) = s.maxHw := by
      have := hs.max.2
      have := u16_eq (x := (s.maxHw : Int)) (by omega) (by omega)
      omega
    unfold setLimits setMaxHw
    rw [e]
    simp only []
    split <;> exact ⟨hs.max, hs.fade, hs.tick, hs.r, hs.g, hs.b, hs.cb, hs.w⟩
  | colorLimits lo hi =>
    injection h with h
    subst h
    show HwOk (setColorLimits lo hi s)
    have e : u16 (s.maxHw : Int) = s.maxHw := by
      have := hs.max.2
      have := u16_eq (x := (s.maxHw : Int)) (by omega) (by omega)
      omega
    unfold setColorLimits setMaxHw
    rw [e]
    simp only []
    split <;> exact ⟨hs.max, hs.fade, hs.tick, hs.r, hs.g, hs.b, hs.cb, hs.w⟩
  | _ =>
    injection h with h
    subst h
    exact ⟨hs.max, hs.fade, hs.tick, hs.r, hs.g, hs.b, hs.cb, hs.w⟩

/-- After every valid history the values are in range. -/
theorem run_inv {F : Rounding} {A : Adjuster} (hA : A.Bounded) : ∀ (h : List (Nat × Op)) {q s : Light}, HwOk q → Ok q →
    ValidRun F A q h → run F A q h = some s → HwOk s ∧ Ok s := by
  intro h
  induction h with
  | nil => intro q s h1 h2 _ hr; injection hr with hr; exact hr ▸ ⟨h1, h2⟩
  | cons e h ih =>
    intro q s h1 h2 hv hr
    unfold run at hr
    unfold ValidRun at hv
    cases hx : exec F A q e with
    | none => rw [hx] at hr; cases hr
    | some q' =>
      rw [hx] at hr
      exact ih (exec_hw (t := e.1) (o := e.2) hA h1 h2 hv.1 hx) (exec_ok (t := e.1) (o := e.2) h2 hv.1 hx) (hv.2 _ hx) hr

theorem toward_refl (a T : Int) : Toward a a T := by unfold Toward; omega

theorem auto_hw (t : Nat) (s : Light) : (auto t s).hw = s.hw := by
  have hst := auto_still t s
  have e4 : (auto t s).hr = s.hr := congrArg Still.hr hst
  have e5 : (auto t s).hg = s.hg := congrArg Still.hg hst
  have e6 : (auto t s).hb = s.hb := congrArg Still.hb hst
  have e7 : (auto t s).hcb = s.hcb := congrArg Still.hcb hst
  have e8 : (auto t s).hwh = s.hwh := congrArg Still.hwh hst
  unfold Light.hw
  rw [e4, e5, e6, e7, e8]

/-- C29: after every history, in every timer pass, each hardware value moves towards the value that
belongs to the wanted colour and brightness and not beyond it; all stay between 0 and the maximal
hardware value. The pass does not fail. -/
theorem fade_toward {F : Rounding} {A : Adjuster} (hA : A.Bounded) {t : Nat} {k : Kind} {si : Int} {mo : Option Bool}
    {fr fw : Bool} {h : List (Nat × Op)} {s : Light} (hv : ValidRun F A (boot t k si mo fr fw) h)
    (hr : run F A (boot t k si mo fr fw) h = some s) (u : Nat) :
    ∃ s', exec F A s (u, .pass) = some s' ∧ s.hw.Toward s'.hw (targets A s') ∧ s'.hw.All (Within s'.maxHw) := by
  obtain ⟨hs, hok⟩ := run_inv hA h (boot_hw ..) (boot_ok ..) hv hr
  obtain ⟨s', h1, h2⟩ := pass_cases (F := F) hA u hs hok
  have hs' : HwOk s' := exec_hw (o := .pass) hA hs hok trivial h1
  refine ⟨s', h1, ?_, ?_⟩
  · rcases h2 with ⟨_, h⟩ | ⟨_, _, h⟩ | ⟨_, _, h⟩
    · subst h
      exact ⟨toward_refl _ _, toward_refl _ _, toward_refl _ _, toward_refl _ _, toward_refl _ _⟩
    · exact ⟨h.r.to, h.g.to, h.b.to, h.cb.to, h.w.to⟩
    · subst h
      rw [auto_hw]
      exact ⟨toward_refl _ _, toward_refl _ _, toward_refl _ _, toward_refl _ _, toward_refl _ _⟩
  · have w : ∀ {m : Nat} {c : Comp}, CompOk m c → Within m c.hw := fun h => ⟨by omega, by have := h.1; omega⟩
    exact ⟨w hs'.r, w hs'.g, w hs'.b, w hs'.cb, w hs'.w⟩

theorem linear_bounded : linear.Bounded := by
  intro m x hx
  have h : linear m x = ((x * m / 100 : Nat) : Int) := by
    unfold linear adjustRange
    rw [show ((x : Int) - 0) * ((m : Int) - 0) = ((x * m : Nat) : Int) by simp,
      Int.tdiv_eq_ediv_of_nonneg (by omega)]
    simp
  rw [h]
  have h1 : x * m / 100 ≤ m := by
    have h2 : x * m ≤ 100 * m := Nat.mul_le_mul_right _ hx
    omega
  omega

example : linear.Bounded ∧ ValidRun .exact linear (boot 1 .rgbw (-1) none false false) witness ∧
    (run .exact linear (boot 1 .rgbw (-1) none false false) witness).isSome :=
  ⟨linear_bounded, by decide +kernel, by decide +kernel⟩

/-- The geometric adjuster keeps to the hardware range, for every power function and rounding. -/
theorem geometric_bounded (F : Rounding) (pw : Rat → Rat) (offset : Nat) : (geometric F pw offset).Bounded := by
  intro m x _
  unfold geometric
  split
  · omega
  · simp only []
    generalize F.rnd _ = r
    have h1 : ∃ r' : Rat, (if (if r > m then (m : Rat) else r) < 0 then 0 else (if r > m then (m : Rat) else r)) = r' ∧ 0 ≤ r' ∧ r' ≤ (m : Rat) := by
      have hm : (0 : Rat) ≤ (m : Rat) := by exact_mod_cast Nat.zero_le m
      refine ⟨_, rfl, ?_, ?_⟩
      · split <;> grind
      · split <;> split <;> grind
    obtain ⟨r', h1, h2, h3⟩ := h1
    rw [h1]
    have h4 : (((0 : Int) : Rat)) ≤ r' + 1 / 2 := by
      have : ((0 : Int) : Rat) = 0 := rfl
      grind
    have h5 := Rat.floor_monotone h4
    rw [Rat.floor_intCast] at h5
    refine ⟨h5, ?_⟩
    have h6 : (r' + 1 / 2).floor < (m : Int) + 1 := by
      rw [Rat.floor_lt_iff]
      have : (((m : Int) + 1 : Int) : Rat) = (m : Rat) + 1 := by
        rw [Rat.intCast_add]; rfl
      rw [this]
      grind
    omega

end Verif.Rgbw
