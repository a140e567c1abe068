import Verif.Group.Lemmas
import Mathlib.Data.List.Forall2
/-!
# C93: a button for a group of lights
-/

namespace Verif.Group

open Verif.Rgbw (Light Kind)

theorem isOn_lit (m : Member) (h : Sane m) (hf : Fits m) : isOn m = true ↔ Lit m := by
  obtain ⟨l, c⟩ := m
  obtain ⟨h1, h2, _⟩ := h
  obtain ⟨f1, f2⟩ := hf
  dsimp only at h1 h2 f1 f2
  unfold Lit hasColour hasWhite isOn Rgbw.Light.isOn
  dsimp only
  cases c <;> cases hk : l.kind <;> simp [hk] at h1 h2 f1 f2 ⊢ <;> omega

/-- Effects of switching one member on. -/
theorem turnOn_member (t : Nat) (m : Member) (h : Sane m) :
    Untouched m (turnOn t m) ∧ Sane (turnOn t m) ∧
    (hasColour m = true → (turnOn t m).light.cb = m.light.lastCb) ∧
    (hasWhite m = true → (turnOn t m).light.w = m.light.lastW) ∧
    (turnOn t m).light.lastCb = m.light.lastCb ∧ (turnOn t m).light.lastW = m.light.lastW := by
  obtain ⟨l, c⟩ := m
  obtain ⟨h1, h2, h3, h4, h5, h6, h7⟩ := h
  dsimp only at h1 h2 h3 h4 h5 h6 h7
  have hk1 : ∀ x : Nat, keep (x : Int) x = x := by intro x; unfold keep; split <;> omega
  have hk2 : ∀ x : Nat, keep (-1) x = x := fun x => rfl
  have hp1 : ∀ x y : Nat, pick (x : Int) y = x := by intro x y; unfold pick; split <;> omega
  have hp2 : ∀ y : Nat, pick (-1) y = y := fun x => rfl
  cases c with
  | both =>
    obtain ⟨e1, e2, e3, e4, e5, e6, e7⟩ := bright_brief t l.lastCb l.lastW l (by omega) (by omega)
    rw [hp1] at e4 e5
    rw [hk1] at e6 e7
    have e6' : (Rgbw.setBright t l.lastCb l.lastW l).lastCb = l.lastCb := by rw [e6]; split <;> rfl
    have e7' : (Rgbw.setBright t l.lastCb l.lastW l).lastW = l.lastW := by rw [e7]; split <;> rfl
    show Untouched _ ⟨Rgbw.setBright t l.lastCb l.lastW l, .both⟩ ∧
      Sane ⟨Rgbw.setBright t l.lastCb l.lastW l, .both⟩ ∧
      (_ → (Rgbw.setBright t l.lastCb l.lastW l).cb = _) ∧
      (_ → (Rgbw.setBright t l.lastCb l.lastW l).w = _) ∧
      (Rgbw.setBright t l.lastCb l.lastW l).lastCb = _ ∧
      (Rgbw.setBright t l.lastCb l.lastW l).lastW = _
    unfold Untouched Sane hasColour hasWhite
    dsimp only
    rw [e1, e2, e4, e5, e6', e7']
    cases hk : l.kind <;> simp [hk] at h1 h2 ⊢ <;> omega
  | rgb =>
    obtain ⟨e1, e2, e3, e4, e5, e6, e7⟩ := bright_brief t l.lastCb (-1) l (by omega) (by omega)
    rw [hp1] at e4
    rw [hp2] at e5
    rw [hk1] at e6
    rw [hk2] at e7
    have e6' : (Rgbw.setBright t l.lastCb (-1) l).lastCb = l.lastCb := by rw [e6]; split <;> rfl
    have e7' : (Rgbw.setBright t l.lastCb (-1) l).lastW = l.lastW := by rw [e7]; split <;> rfl
    show Untouched _ ⟨Rgbw.setBright t l.lastCb (-1) l, .rgb⟩ ∧
      Sane ⟨Rgbw.setBright t l.lastCb (-1) l, .rgb⟩ ∧
      (_ → (Rgbw.setBright t l.lastCb (-1) l).cb = _) ∧
      (_ → (Rgbw.setBright t l.lastCb (-1) l).w = _) ∧
      (Rgbw.setBright t l.lastCb (-1) l).lastCb = _ ∧
      (Rgbw.setBright t l.lastCb (-1) l).lastW = _
    unfold Untouched Sane hasColour hasWhite
    dsimp only
    rw [e1, e2, e4, e5, e6', e7']
    cases hk : l.kind <;> simp [hk] at h1 h2 ⊢ <;> omega
  | w =>
    obtain ⟨e1, e2, e3, e4, e5, e6, e7⟩ := bright_brief t (-1) l.lastW l (by omega) (by omega)
    rw [hp2] at e4
    rw [hp1] at e5
    rw [hk2] at e6
    rw [hk1] at e7
    have e6' : (Rgbw.setBright t (-1) l.lastW l).lastCb = l.lastCb := by rw [e6]; split <;> rfl
    have e7' : (Rgbw.setBright t (-1) l.lastW l).lastW = l.lastW := by rw [e7]; split <;> rfl
    show Untouched _ ⟨Rgbw.setBright t (-1) l.lastW l, .w⟩ ∧
      Sane ⟨Rgbw.setBright t (-1) l.lastW l, .w⟩ ∧
      (_ → (Rgbw.setBright t (-1) l.lastW l).cb = _) ∧
      (_ → (Rgbw.setBright t (-1) l.lastW l).w = _) ∧
      (Rgbw.setBright t (-1) l.lastW l).lastCb = _ ∧
      (Rgbw.setBright t (-1) l.lastW l).lastW = _
    unfold Untouched Sane hasColour hasWhite
    dsimp only
    rw [e1, e2, e4, e5, e6', e7']
    cases hk : l.kind <;> simp [hk] at h1 h2 ⊢ <;> omega
  | unused =>
    refine ⟨⟨rfl, rfl, fun _ _ => rfl, fun _ _ => rfl, fun _ => rfl⟩, ⟨h1, h2, h3, h4, h5, h6, h7⟩, ?_, ?_,
      rfl, rfl⟩
    · intro h; simp [hasColour] at h
    · intro h; simp [hasWhite] at h

/-- Effects of setting one member to a brightness, 0 included. -/
theorem follow_member (t v : Nat) (hv : v ≤ 100) (m : Member) (h : Sane m) :
    Untouched m (follow t v m) ∧ Sane (follow t v m) ∧ At v (follow t v m) ∧
    (v = 0 → (follow t v m).light.lastCb = m.light.lastCb ∧
      (follow t v m).light.lastW = m.light.lastW) := by
  obtain ⟨l, c⟩ := m
  obtain ⟨h1, h2, h3, h4, h5, h6, h7⟩ := h
  dsimp only at h1 h2 h3 h4 h5 h6 h7
  have hk1 : ∀ x : Nat, x ≤ 100 → keep (v : Int) x ≤ 100 ∧ (v = 0 → keep (v : Int) x = x) := by
    intro x hx; unfold keep; split <;> omega
  have hk2 : ∀ x : Nat, keep (-1) x = x := fun x => rfl
  have hp1 : ∀ x y : Nat, pick (x : Int) y = x := by intro x y; unfold pick; split <;> omega
  have hp2 : ∀ y : Nat, pick (-1) y = y := fun x => rfl
  have hkc := hk1 l.lastCb h5
  have hkw := hk1 l.lastW h6
  cases c with
  | both =>
    obtain ⟨e1, e2, e3, e4, e5, e6, e7⟩ := bright_brief t v v l (by omega) (by omega)
    rw [hp1] at e4 e5
    generalize keep (v : Int) l.lastCb = kc at *
    generalize keep (v : Int) l.lastW = kw at *
    show Untouched _ ⟨Rgbw.setBright t v v l, .both⟩ ∧ Sane ⟨Rgbw.setBright t v v l, .both⟩ ∧
      At v ⟨Rgbw.setBright t v v l, .both⟩ ∧ (_ → (Rgbw.setBright t v v l).lastCb = _ ∧
      (Rgbw.setBright t v v l).lastW = _)
    unfold Untouched Sane At hasColour hasWhite
    dsimp only
    rw [e1, e2, e4, e5, e6, e7]
    cases hk : l.kind <;> simp [hk] at h1 h2 ⊢ <;> omega
  | rgb =>
    obtain ⟨e1, e2, e3, e4, e5, e6, e7⟩ := bright_brief t v (-1) l (by omega) (by omega)
    rw [hp1] at e4
    rw [hp2] at e5
    rw [hk2] at e7
    generalize keep (v : Int) l.lastCb = kc at *
    generalize keep (v : Int) l.lastW = kw at *
    show Untouched _ ⟨Rgbw.setBright t v (-1) l, .rgb⟩ ∧ Sane ⟨Rgbw.setBright t v (-1) l, .rgb⟩ ∧
      At v ⟨Rgbw.setBright t v (-1) l, .rgb⟩ ∧ (_ → (Rgbw.setBright t v (-1) l).lastCb = _ ∧
      (Rgbw.setBright t v (-1) l).lastW = _)
    unfold Untouched Sane At hasColour hasWhite
    dsimp only
    rw [e1, e2, e4, e5, e6, e7]
    cases hk : l.kind <;> simp [hk] at h1 h2 ⊢ <;> omega
  | w =>
    obtain ⟨e1, e2, e3, e4, e5, e6, e7⟩ := bright_brief t (-1) v l (by omega) (by omega)
    rw [hp2] at e4
    rw [hp1] at e5
    rw [hk2] at e6
    generalize keep (v : Int) l.lastCb = kc at *
    generalize keep (v : Int) l.lastW = kw at *
    show Untouched _ ⟨Rgbw.setBright t (-1) v l, .w⟩ ∧ Sane ⟨Rgbw.setBright t (-1) v l, .w⟩ ∧
      At v ⟨Rgbw.setBright t (-1) v l, .w⟩ ∧ (_ → (Rgbw.setBright t (-1) v l).lastCb = _ ∧
      (Rgbw.setBright t (-1) v l).lastW = _)
    unfold Untouched Sane At hasColour hasWhite
    dsimp only
    rw [e1, e2, e4, e5, e6, e7]
    cases hk : l.kind <;> simp [hk] at h1 h2 ⊢ <;> omega
  | unused =>
    refine ⟨⟨rfl, rfl, fun _ _ => rfl, fun _ _ => rfl, fun _ => rfl⟩, ⟨h1, h2, h3, h4, h5, h6, h7⟩,
      ⟨?_, ?_⟩, fun _ => ⟨rfl, rfl⟩⟩
    · intro h; simp [follow, hasColour] at h
    · intro h; simp [follow, hasWhite] at h

theorem turnOff_follow (t : Nat) (m : Member) : turnOff t m = follow t 0 m := by
  obtain ⟨l, c⟩ := m
  cases c <;> rfl

theorem untouched_parts {m m' : Member} (h : Untouched m m') :
    hasColour m' = hasColour m ∧ hasWhite m' = hasWhite m := by
  unfold hasColour hasWhite
  rw [h.1, h.2.1]
  exact ⟨rfl, rfl⟩

/-- **Pressing the button while anything is lit darkens the group; otherwise it lights everything
that can be lit**, with the brightness it had before. -/
theorem toggle_group (t : Nat) (g : List Member) (hs : ∀ m ∈ g, Sane m) (hf : ∀ m ∈ g, Fits m) :
    ((∃ m ∈ g, Lit m) → toggle t g = g.map (turnOff t) ∧ ∀ m ∈ toggle t g, ¬ Lit m) ∧
    ((∀ m ∈ g, ¬ Lit m) → toggle t g = g.map (turnOn t) ∧
      ∀ m ∈ g, (hasColour m = true → (turnOn t m).light.cb = m.light.lastCb) ∧
        (hasWhite m = true → (turnOn t m).light.w = m.light.lastW) ∧ (Able m → Lit (turnOn t m))) := by
  constructor
  · rintro ⟨m, hm, hl⟩
    have e : toggle t g = g.map (turnOff t) := by
      unfold toggle
      rw [if_pos (List.any_eq_true.mpr ⟨m, hm, (isOn_lit m (hs m hm) (hf m hm)).mpr hl⟩)]
    refine ⟨e, ?_⟩
    rw [e]
    intro x hx
    obtain ⟨y, hy, rfl⟩ := List.mem_map.mp hx
    rw [turnOff_follow]
    obtain ⟨_, _, ha, _⟩ := follow_member t 0 (by omega) y (hs y hy)
    rintro (⟨a, b⟩ | ⟨a, b⟩)
    · rw [ha.1 a] at b; omega
    · rw [ha.2 a] at b; omega
  · intro h
    have e : toggle t g = g.map (turnOn t) := by
      unfold toggle
      rw [if_neg (by
        intro hh
        obtain ⟨m, hm, ho⟩ := List.any_eq_true.mp hh
        exact h m hm ((isOn_lit m (hs m hm) (hf m hm)).mp ho))]
    refine ⟨e, fun m hm => ?_⟩
    obtain ⟨u, _, h1, h2, _⟩ := turnOn_member t m (hs m hm)
    obtain ⟨p, q⟩ := untouched_parts u
    refine ⟨h1, h2, ?_⟩
    rintro (⟨a, b⟩ | ⟨a, b⟩)
    · exact Or.inl ⟨p.trans a, by rw [h1 a]; exact b⟩
    · exact Or.inr ⟨q.trans a, by rw [h2 a]; exact b⟩

/-- **Off and on again** brings every light back to the brightness it had. -/
theorem toggle_twice (t u : Nat) (g : List Member) (hs : ∀ m ∈ g, Sane m) (hf : ∀ m ∈ g, Fits m)
    (hl : ∃ m ∈ g, Lit m) : ∃ f : Member → Member, toggle u (toggle t g) = g.map f ∧
      ∀ m ∈ g, (hasColour m = true → (f m).light.cb = m.light.lastCb) ∧
        (hasWhite m = true → (f m).light.w = m.light.lastW) := by
  obtain ⟨e, hd⟩ := (toggle_group t g hs hf).1 hl
  have hs' : ∀ m ∈ toggle t g, Sane m := by
    rw [e]
    intro x hx
    obtain ⟨y, hy, rfl⟩ := List.mem_map.mp hx
    rw [turnOff_follow]
    exact (follow_member t 0 (by omega) y (hs y hy)).2.1
  have hf' : ∀ m ∈ toggle t g, Fits m := by
    rw [e]
    intro x hx
    obtain ⟨y, hy, rfl⟩ := List.mem_map.mp hx
    rw [turnOff_follow]
    obtain ⟨a, b, _⟩ := (follow_member t 0 (by omega) y (hs y hy)).1
    have := hf y hy
    unfold Fits at this ⊢
    rw [a, b]
    exact this
  obtain ⟨e2, h2⟩ := (toggle_group u (toggle t g) hs' hf').2 hd
  refine ⟨fun m => turnOn u (turnOff t m), ?_, fun m hm => ?_⟩
  · rw [e2, e, List.map_map]
    rfl
  · have hmem : turnOff t m ∈ toggle t g := by rw [e]; exact List.mem_map.mpr ⟨m, hm, rfl⟩
    obtain ⟨a, b, _⟩ := h2 _ hmem
    show (_ → (turnOn u (turnOff t m)).light.cb = _) ∧ (_ → (turnOn u (turnOff t m)).light.w = _)
    rw [turnOff_follow] at a b ⊢
    obtain ⟨hu, _, _, hk⟩ := follow_member t 0 (by omega) m (hs m hm)
    obtain ⟨p, q⟩ := untouched_parts hu
    obtain ⟨k1, k2⟩ := hk rfl
    rw [p, k1] at a
    rw [q, k2] at b
    exact ⟨a, b⟩

theorem iterStep_zero (s : Light) (x : Nat) : Rgbw.iterStep s x 0 = 0 := by
  unfold Rgbw.iterStep
  cases s.dimDir <;> simp

/-- The leader of an iteration. -/
theorem lead_member (t : Nat) (m m' : Member) (v : Nat) (h : Sane m) (hf : Fits m)
    (hl : lead t m = some (m', v)) :
    Untouched m m' ∧ Sane m' ∧ v ≤ 100 ∧ ((m.ctl = .both → m.light.kind ≠ .dimmer) → At v m') := by
  obtain ⟨l, c⟩ := m
  obtain ⟨h1, h2, h3, h4, h5, h6, h7⟩ := h
  obtain ⟨f1, f2⟩ := hf
  dsimp only at h1 h2 h3 h4 h5 h6 h7 f1 f2
  have hkeep : ∀ x y : Nat, x ≤ 100 → y ≤ 100 → keep (x : Int) y ≤ 100 := by
    intro x y hx hy; unfold keep; split <;> omega
  cases c with
  | unused => simp [lead] at hl
  | rgb =>
    have hl : (⟨Rgbw.iterate t l.step 0 l, .rgb⟩, (Rgbw.iterate t l.step 0 l).cb) = (m', v) :=
      Option.some.inj hl
    obtain ⟨rfl, rfl⟩ := Prod.mk.inj hl
    have hk := f1 rfl
    obtain ⟨k1, k2, _⟩ := iterate_brief t l.step 0 l
    obtain ⟨rs', hr, hb⟩ := iterate_bright t l.step 0 l h3 h4
    rw [if_neg hk] at hr
    subst hr
    have hw : startW (l.step : Int) 0 l = l.w := by unfold startW; rw [if_neg (by omega)]
    rw [hw] at hb
    generalize hL : Rgbw.iterate t l.step 0 l = L at *
    unfold Untouched Sane At hasColour hasWhite
    dsimp only
    rw [k1, k2]
    rcases hb with ⟨b1, b2, b3, b4⟩ | ⟨d, a, b, ha, hb0, b1, b2, b3, b4⟩
    · rw [b1, b2, b3, b4]
      cases hk : l.kind <;> simp_all
    · rw [iterStep_zero] at hb0
      subst hb0
      rw [addLimit_zero l.w h4] at b2 b4
      have hA := addLimit_hundred l.cb a h3
      have hK := hkeep _ l.lastCb hA h5
      have hW := hkeep l.w l.lastW h4 h6
      generalize Rgbw.addLimit l.cb a 100 = A at *
      generalize keep (A : Int) l.lastCb = kc at *
      generalize keep (l.w : Int) l.lastW = kw at *
      rw [b1, b2, b3, b4]
      cases hk : l.kind <;> simp [hk] at h1 h2 hk ⊢ <;> simp_all <;> omega
  | w =>
    have hl : (⟨Rgbw.iterate t 0 l.step l, .w⟩, (Rgbw.iterate t 0 l.step l).w) = (m', v) :=
      Option.some.inj hl
    obtain ⟨rfl, rfl⟩ := Prod.mk.inj hl
    have hk := f2 rfl
    obtain ⟨k1, k2, _⟩ := iterate_brief t 0 l.step l
    obtain ⟨rs', hr, hb⟩ := iterate_bright t 0 l.step l h3 h4
    have hr : rs' = 0 := by rw [hr]; split <;> rfl
    subst hr
    have hw : startW 0 (l.step : Int) l = l.w := by unfold startW; rw [if_neg (by omega)]
    rw [hw] at hb
    generalize hL : Rgbw.iterate t 0 l.step l = L at *
    unfold Untouched Sane At hasColour hasWhite
    dsimp only
    rw [k1, k2]
    rcases hb with ⟨b1, b2, b3, b4⟩ | ⟨d, a, b, ha, hb0, b1, b2, b3, b4⟩
    · rw [b1, b2, b3, b4]
      cases hk : l.kind <;> simp_all
    · rw [iterStep_zero] at ha
      subst ha
      rw [addLimit_zero l.cb h3] at b1 b3
      have hA := addLimit_hundred l.w b h4
      have hK := hkeep _ l.lastW hA h6
      have hW := hkeep l.cb l.lastCb h3 h5
      generalize Rgbw.addLimit l.w b 100 = A at *
      generalize keep (A : Int) l.lastW = kc at *
      generalize keep (l.cb : Int) l.lastCb = kw at *
      rw [b1, b2, b3, b4]
      cases hk : l.kind <;> simp [hk] at h1 h2 hk ⊢ <;> simp_all
  | both =>
    have hl : (⟨Rgbw.iterate t l.step l.step l, .both⟩, (Rgbw.iterate t l.step l.step l).cb) = (m', v) :=
      Option.some.inj hl
    obtain ⟨rfl, rfl⟩ := Prod.mk.inj hl
    obtain ⟨k1, k2, _⟩ := iterate_brief t l.step l.step l
    obtain ⟨rs', hr, hb⟩ := iterate_bright t l.step l.step l h3 h4
    by_cases hd : l.kind = .dimmer
    · rw [if_pos hd] at hr
      subst hr
      have hw : startW 0 (l.step : Int) l = l.w := by unfold startW; rw [if_neg (by omega)]
      rw [hw] at hb
      generalize hL : Rgbw.iterate t l.step l.step l = L at *
      unfold Untouched Sane At hasColour hasWhite
      dsimp only
      rw [k1, k2]
      rcases hb with ⟨b1, b2, b3, b4⟩ | ⟨d, a, b, ha, hb0, b1, b2, b3, b4⟩
      · rw [b1, b2, b3, b4]
        simp_all
      · have hA := addLimit_hundred l.w b h4
        have hK := hkeep _ l.lastW hA h6
        generalize Rgbw.addLimit l.w b 100 = A at *
        generalize keep (A : Int) l.lastW = kc at *
        rw [b1, b2, b3, b4]
        simp_all
    · rw [if_neg hd] at hr
      subst hr
      have hw : startW (l.step : Int) (l.step : Int) l = l.cb := by
        unfold startW; rw [if_pos (by omega)]
      rw [hw] at hb
      generalize hL : Rgbw.iterate t l.step l.step l = L at *
      unfold Untouched Sane At hasColour hasWhite
      dsimp only
      rw [k1, k2]
      rcases hb with ⟨b1, b2, b3, b4⟩ | ⟨d, a, b, ha, hb0, b1, b2, b3, b4⟩
      · rw [b1, b2, b3, b4]
        cases hk : l.kind <;> simp_all
      · have hab : b = a := hb0.trans ha.symm
        subst hab
        have hA := addLimit_hundred l.cb b h3
        have hK := hkeep _ l.lastCb hA h5
        have hK2 := hkeep _ l.lastW hA h6
        generalize Rgbw.addLimit l.cb b 100 = A at *
        generalize keep (A : Int) l.lastCb = kc at *
        generalize keep (A : Int) l.lastW = kw at *
        rw [b1, b2, b3, b4]
        cases hk : l.kind <;> simp [hk] at h1 h2 hk ⊢ <;> simp_all

/-- The first member with an enabled button is not a dimmer with the button on "RGBW". -/
def LeaderSynced : List Member → Prop
  | [] => True
  | m :: g => if m.ctl = .unused then LeaderSynced g else (m.ctl = .both → m.light.kind ≠ .dimmer)

theorem lead_unused (t : Nat) (m : Member) : lead t m = none ↔ m.ctl = .unused := by
  obtain ⟨l, c⟩ := m
  cases c <;> simp [lead]

/-- Holding the button gives everything in the group the same brightness. -/
def IterateSync : Prop :=
  ∀ (t : Nat) (g : List Member), (∀ m ∈ g, Sane m) → (∀ m ∈ g, Fits m) →
    ∃ v, ∀ m ∈ iterate t g, At v m

/-- **Holding the button** gives everything in the group the same brightness, up to 100, if the first
light is not a dimmer with the button on "RGBW". -/
theorem iterate_sync_partial (t : Nat) (g : List Member) (hs : ∀ m ∈ g, Sane m) (hf : ∀ m ∈ g, Fits m)
    (hl : LeaderSynced g) : ∃ v, v ≤ 100 ∧ ∀ m ∈ iterate t g, At v m := by
  induction g with
  | nil => exact ⟨0, by omega, fun m hm => by simp [iterate] at hm⟩
  | cons m g ih =>
    have hm := hs m (by simp)
    rw [iterate]
    cases h : lead t m with
    | none =>
      have hu := (lead_unused t m).mp h
      rw [LeaderSynced, if_pos hu] at hl
      obtain ⟨v, hv, ha⟩ := ih (fun x hx => hs x (by simp [hx])) (fun x hx => hf x (by simp [hx])) hl
      refine ⟨v, hv, ?_⟩
      intro x hx
      rcases List.mem_cons.mp hx with rfl | hx
      · exact ⟨fun hc => by simp [hasColour, hu] at hc, fun hc => by simp [hasWhite, hu] at hc⟩
      · exact ha x hx
    | some p =>
      obtain ⟨m', v⟩ := p
      have hu : m.ctl ≠ .unused := fun e => by
        rw [(lead_unused t m).mpr e] at h; simp at h
      rw [LeaderSynced, if_neg hu] at hl
      obtain ⟨_, _, hv, ha⟩ := lead_member t m m' v hm (hf m (by simp)) h
      refine ⟨v, hv, ?_⟩
      intro x hx
      rcases List.mem_cons.mp hx with rfl | hx
      · exact ha hl
      · obtain ⟨y, hy, rfl⟩ := List.mem_map.mp hx
        exact (follow_member t v hv y (hs y (by simp [hy]))).2.2.1

/-- Two dimmers at 50 %, the button set to its default. -/
def twoDimmers : List Member :=
  [⟨{ kind := .dimmer, w := 50, lastW := 50 }, .both⟩, ⟨{ kind := .dimmer, w := 50, lastW := 50 }, .both⟩]

/-- **False**: for a dimmer with the default setting the colour brightness, which is 0, is given to the
others: holding the button dims the first light and switches the others off. -/
theorem iterate_sync_violation : ¬ IterateSync := by
  intro h
  obtain ⟨v, hv⟩ := h 100000 twoDimmers
    (by
      intro m hm
      simp only [twoDimmers, List.mem_cons, List.not_mem_nil, or_false] at hm
      rcases hm with rfl | rfl <;> (refine ⟨?_, ?_, ?_, ?_, ?_, ?_, ?_⟩ <;> decide))
    (by
      intro m hm
      simp only [twoDimmers, List.mem_cons, List.not_mem_nil, or_false] at hm
      rcases hm with rfl | rfl <;> (refine ⟨?_, ?_⟩ <;> decide))
  have e : (iterate 100000 twoDimmers).map (fun m => (m.light.w, hasWhite m))
      = [(40, true), (0, true)] := by decide
  obtain ⟨a, l, hl, ea, e⟩ := List.map_eq_cons_iff.mp e
  obtain ⟨b, l', hl', eb, _⟩ := List.map_eq_cons_iff.mp e
  obtain ⟨a1, a2⟩ := Prod.mk.inj ea
  obtain ⟨b1, b2⟩ := Prod.mk.inj eb
  have h1 := (hv a (by rw [hl]; simp)).2 a2
  have h2 := (hv b (by rw [hl, hl']; simp)).2 b2
  omega

/-- Everything that stays as it was through one action. -/
theorem handle_untouched (t : Nat) (a : Act) (g : List Member) (hs : ∀ m ∈ g, Sane m)
    (hf : ∀ m ∈ g, Fits m) : List.Forall₂ (fun m m' => Untouched m m' ∧ Sane m') g (handle t a g) := by
  have hmap : ∀ (f : Member → Member) (g : List Member),
      (∀ m ∈ g, Untouched m (f m) ∧ Sane (f m)) →
      List.Forall₂ (fun m m' => Untouched m m' ∧ Sane m') g (g.map f) := by
    intro f g
    induction g with
    | nil => intro _; exact List.Forall₂.nil
    | cons m g ih =>
      intro h
      exact List.Forall₂.cons (h m (by simp)) (ih fun x hx => h x (by simp [hx]))
  have hon : ∀ m ∈ g, Untouched m (turnOn t m) ∧ Sane (turnOn t m) := fun m hm => by
    obtain ⟨a, b, _⟩ := turnOn_member t m (hs m hm)
    exact ⟨a, b⟩
  have hoff : ∀ m ∈ g, Untouched m (turnOff t m) ∧ Sane (turnOff t m) := fun m hm => by
    rw [turnOff_follow]
    obtain ⟨a, b, _⟩ := follow_member t 0 (by omega) m (hs m hm)
    exact ⟨a, b⟩
  cases a with
  | on => exact hmap _ g hon
  | off => exact hmap _ g hoff
  | toggle =>
    show List.Forall₂ _ g (toggle t g)
    unfold toggle
    split
    · exact hmap _ g hoff
    · exact hmap _ g hon
  | iterate =>
    show List.Forall₂ _ g (iterate t g)
    clear hon hoff
    induction g with
    | nil => exact List.Forall₂.nil
    | cons m g ih =>
      have hm := hs m (by simp)
      rw [iterate]
      cases h : lead t m with
      | none =>
        exact List.Forall₂.cons ⟨⟨rfl, rfl, fun _ _ => rfl, fun _ _ => rfl, fun _ => rfl⟩, hm⟩
          (ih (fun x hx => hs x (by simp [hx])) (fun x hx => hf x (by simp [hx])))
      | some p =>
        obtain ⟨m', v⟩ := p
        obtain ⟨a, b, hv, _⟩ := lead_member t m m' v hm (hf m (by simp)) h
        refine List.Forall₂.cons ⟨a, b⟩ (hmap _ g fun x hx => ?_)
        obtain ⟨a, b, _⟩ := follow_member t v hv x (hs x (by simp [hx]))
        exact ⟨a, b⟩

/-- A history of actions. -/
def run (g : List Member) : List (Nat × Act) → List Member
  | [] => g
  | (t, a) :: h => run (handle t a g) h

/-- **Over any history** the lights keep to their classes and to the range, what the button does not
control is never touched, and no light is added or lost. -/
theorem run_untouched (g : List Member) (hs : ∀ m ∈ g, Sane m) (hf : ∀ m ∈ g, Fits m)
    (h : List (Nat × Act)) : List.Forall₂ (fun m m' => Untouched m m' ∧ Sane m' ∧ Fits m') g (run g h) := by
  induction h generalizing g with
  | nil =>
    show List.Forall₂ _ g g
    induction g with
    | nil => exact List.Forall₂.nil
    | cons m g ih =>
      exact List.Forall₂.cons
        ⟨⟨rfl, rfl, fun _ _ => rfl, fun _ _ => rfl, fun _ => rfl⟩, hs m (by simp), hf m (by simp)⟩
        (ih (fun x hx => hs x (by simp [hx])) (fun x hx => hf x (by simp [hx])))
  | cons p h ih =>
    obtain ⟨t, a⟩ := p
    have h1 := handle_untouched t a g hs hf
    have hall : ∀ (x y : List Member), List.Forall₂ (fun m m' => Untouched m m' ∧ Sane m') x y →
        (∀ m ∈ x, Fits m) → ∀ m ∈ y, Sane m ∧ Fits m := by
      intro x y hxy
      induction hxy with
      | nil => intro _ m hm; simp at hm
      | cons hp _ ih =>
        rename_i m0 m1 _ _ _
        intro hf m hm
        rcases List.mem_cons.mp hm with rfl | hm
        · refine ⟨hp.2, ?_⟩
          have := hf m0 (by simp)
          unfold Fits at this ⊢
          rw [hp.1.1, hp.1.2.1]
          exact this
        · exact ih (fun m hm => hf m (by simp [hm])) m hm
    have h2 := hall _ _ h1 hf
    have h3 := ih (handle t a g) (fun m hm => (h2 m hm).1) (fun m hm => (h2 m hm).2)
    show List.Forall₂ _ g (run (handle t a g) h)
    generalize run (handle t a g) h = z at h3
    generalize handle t a g = y at h1 h3
    clear ih h2 hs hf hall
    induction h1 generalizing z with
    | nil => cases h3; exact List.Forall₂.nil
    | cons hp _ ih =>
      cases h3 with
      | cons hq hr =>
        refine List.Forall₂.cons ⟨?_, hq.2⟩ (ih _ hr)
        obtain ⟨a1, a2, a3, a4, a5⟩ := hp.1
        obtain ⟨b1, b2, b3, b4, b5⟩ := hq.1
        obtain ⟨p, q⟩ := untouched_parts hp.1
        refine ⟨b1.trans a1, b2.trans a2, fun hc hk => ?_, fun hc hk => ?_, fun hu => ?_⟩
        · rw [b3 (by rw [p]; exact hc) (by rw [a2]; exact hk), a3 hc hk]
        · rw [b4 (by rw [q]; exact hc) (by rw [a2]; exact hk), a4 hc hk]
        · rw [b5 (by rw [a1]; exact hu), a5 hu]

/-- At most ten lights; the eleventh is refused and nothing else changes. -/
theorem add_bound (l : Light) (g : List Member) (h : g.length ≤ 10) :
    (add l g).length ≤ 10 ∧ (g.length < 10 → add l g = g ++ [⟨l, .both⟩]) ∧
      (g.length = 10 → add l g = g) := by
  unfold add
  refine ⟨?_, fun h => by rw [if_neg (by omega)], fun h => by rw [if_pos (by omega)]⟩
  split
  · exact h
  · simp; omega

/-- Only the documented numbers change what the button controls. -/
theorem load_known (n : Int) (c : Ctl) :
    load (some n) c = (if n = 0 then .both else if n = 1 then .rgb else if n = 2 then .w
      else if n = 3 ∨ n = 4 then .unused else c) := by
  unfold load
  dsimp only
  by_cases h0 : n = 0
  · simp [h0]
  · by_cases h1 : n = 1
    · simp [h1]
    · by_cases h2 : n = 2
      · simp [h2]
      · simp only [h0, h1, h2, if_false]
        by_cases h3 : n = 3 ∨ n = 4
        · rw [if_pos h3, if_pos (by omega)]
        · rw [if_neg h3, if_neg (by omega)]

/-- An RGBW light, an RGB light, a dimmer that is lit and a light without button. -/
def sampleGroup : List Member :=
  [⟨{}, .both⟩, ⟨{ kind := .rgb }, .rgb⟩, ⟨{ kind := .dimmer, w := 40, lastW := 40 }, .w⟩, ⟨{ w := 7, lastW := 7 }, .unused⟩]

example : (∀ m ∈ sampleGroup, Sane m) ∧ (∀ m ∈ sampleGroup, Fits m) ∧ LeaderSynced sampleGroup := by
  refine ⟨?_, ?_, ?_⟩
  · intro m hm
    simp only [sampleGroup, List.mem_cons, List.not_mem_nil, or_false] at hm
    rcases hm with rfl | rfl | rfl | rfl <;> (refine ⟨?_, ?_, ?_, ?_, ?_, ?_, ?_⟩ <;> decide)
  · intro m hm
    simp only [sampleGroup, List.mem_cons, List.not_mem_nil, or_false] at hm
    rcases hm with rfl | rfl | rfl | rfl <;> (refine ⟨?_, ?_⟩ <;> decide)
  · simp [sampleGroup, LeaderSynced]

example : (toggle 1000 sampleGroup).map (fun m => (m.light.cb, m.light.w)) = [(0, 0), (0, 0), (0, 0), (0, 7)] ∧
    (toggle 2000 (toggle 1000 sampleGroup)).map (fun m => (m.light.cb, m.light.w))
      = [(100, 100), (100, 0), (0, 40), (0, 7)] := by decide

end Verif.Group
