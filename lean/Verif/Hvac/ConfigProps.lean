import Verif.Hvac.Config
/-!
# Thermostat: what a configuration message can do
-/
namespace Verif.Hvac.Config
open Verif.Hvac.Mode (unset w16)

/-! ### Specification -/

/-- The limits a temperature is subject to: two slots. -/
def limits (k : Nat) : Nat × Nat := if k = 8 ∨ k = 9 then (12, 13) else if k = 5 then (14, 15) else (10, 11)

/-- Every temperature that is set is within its limits. -/
def InLimits (t : Temps) : Prop :=
  ∀ k x, k < 10 → t k = some x → get t (limits k).1 ≤ x ∧ x ≤ get t (limits k).2

/-- Two temperatures, if both set, keep the heat/cool distance. -/
def Apart (t : Temps) (lo hi : Nat) : Prop :=
  get t lo ≠ unset → get t hi ≠ unset → get t lo + get t 16 ≤ get t hi

/-- A configuration the thermostat can work with. -/
def Good (e : Env) (c : Cfg) : Prop :=
  InLimits c.t ∧ (e.differential = false → Apart c.t 8 9) ∧ (e.heatCool = true → Apart c.t 0 4) ∧
  c.f .minOn ≤ 600 ∧ c.f .minOff ≤ 600 ∧ -100 ≤ c.f .onError ∧ c.f .onError ≤ 100 ∧
  0 ≤ c.f .auxType ∧ c.f .auxType ≤ 5 ∧
  (c.f .auxType ≠ 0 → e.thermo (c.f .aux) = true ∧ c.f .aux ≠ c.f .main ∧ c.f .aux ≠ e.self) ∧
  (c.f .bin = e.self ∨ e.sensor (c.f .bin) = true) ∧
  (e.thermostat = true → 0 ≤ c.f .subfn ∧ c.f .subfn ≤ 2) ∧
  e.avail &&& (c.f .alg).toNat = (c.f .alg).toNat

/-- The limits make sense: the distance is configured and fits between the room limits, which leave
room for it in 16 bits. -/
def SaneLimits (t : Temps) : Prop :=
  0 ≤ get t 16 ∧ get t 10 + get t 16 ≤ get t 11 ∧ -32768 < get t 10 - get t 16 ∧ get t 11 + get t 16 ≤ 32767

/-- What happens: a message, or a local change of the "changed offline" flag. -/
inductive Op
  | msg (m : Msg)
  | flag (b : Bool)

/-- One operation. -/
def Op.run (e : Env) (s : St) : Op → St
  | .msg m => (handle e s m).1
  | .flag b => { s with offline := b }

/-! ### Lemmas -/

theorem get_put (t : Temps) (k j : Nat) (v : Int) : get (put t k v) j = if j = k then v else get t j := by
  unfold get put; split <;> rfl

theorem get_clear (t : Temps) (k j : Nat) : get (clear t k) j = if j = k then unset else get t j := by
  unfold get clear; split <;> rfl

theorem get_of_some (t : Temps) (k : Nat) (x : Int) (h : t k = some x) : get t k = x := by
  unfold get; rw [h]; rfl

theorem some_of_get (t : Temps) (k : Nat) (h : get t k ≠ unset) : t k = some (get t k) := by
  unfold get at h ⊢
  cases hk : t k with
  | none => rw [hk] at h; exact absurd rfl h
  | some x => rfl

theorem setIf_other (ok : Bool) (k j : Nat) (x : Int) (t : Temps) (h : j ≠ k) : setIf ok k x t j = t j := by
  unfold setIf put; split
  · simp [h]
  · rfl

theorem repairAux_other (e : Env) (t : Temps) (k : Nat) (h8 : k ≠ 8) (h9 : k ≠ 9) : repairAux e t k = t k := by
  unfold repairAux
  dsimp only
  repeat' split
  all_goals first
    | rfl
    | (simp [put, h8]; done)
    | (simp [put, h9]; done)
    | (rw [setIf_other _ _ _ _ _ h9, setIf_other _ _ _ _ _ h8]; simp [clear, h8, h9])

theorem repairProt_other (e : Env) (t : Temps) (k : Nat) (h0 : k ≠ 0) (h4 : k ≠ 4) : repairProt e t k = t k := by
  unfold repairProt
  dsimp only
  repeat' split
  all_goals first
    | rfl
    | (simp [put, h0]; done)
    | (simp [put, h4]; done)
    | (rw [setIf_other _ _ _ _ _ h4, setIf_other _ _ _ _ _ h0]; simp [clear, h0, h4])

theorem get_congr' (t u : Temps) (k : Nat) (h : t k = u k) : get t k = get u k := by unfold get; rw [h]

/-- What the repair leaves in the two slots it may change. -/
theorem repairAux_slots (e : Env) (t : Temps) (h : InLimits t) (hoff : 0 ≤ get t 16) :
    (∀ k x, (k = 8 ∨ k = 9) → repairAux e t k = some x → get t 12 ≤ x ∧ x ≤ get t 13) ∧
    (e.differential = false → Apart (repairAux e t) 8 9) := by
  have hl8 : ∀ x, t 8 = some x → get t 12 ≤ x ∧ x ≤ get t 13 := fun x q => h 8 x (by decide) q
  have hl9 : ∀ x, t 9 = some x → get t 12 ≤ x ∧ x ≤ get t 13 := fun x q => h 9 x (by decide) q
  have h16 : get (repairAux e t) 16 = get t 16 := by unfold get; rw [repairAux_other e t 16 (by decide) (by decide)]
  have hu : get t 16 ≠ unset := by unfold unset; omega
  have base : (∀ k x, (k = 8 ∨ k = 9) → t k = some x → get t 12 ≤ x ∧ x ≤ get t 13) := by
    intro k x hk q
    rcases hk with rfl | rfl
    · exact hl8 x q
    · exact hl9 x q
  unfold Apart
  rw [h16]
  unfold repairAux
  by_cases hd : e.differential = true
  · rw [if_pos hd]
    exact ⟨base, fun q => by rw [hd] at q; exact absurd q (by decide)⟩
  · rw [if_neg hd]
    dsimp only
    by_cases hb : get t 8 ≠ unset ∧ get t 9 ≠ unset
    · rw [if_pos hb, if_neg hu]
      by_cases hg : get t 8 > get t 9 - get t 16
      · rw [if_pos hg]
        generalize hx : w16 (get t 9 - get t 16) = x
        by_cases o1 : auxMinOk t x = true
        · rw [if_pos o1]
          unfold auxMinOk at o1
          rw [decide_eq_true_eq] at o1
          obtain ⟨a, b, c, d⟩ := o1
          constructor
          · intro k y hk q
            rcases hk with rfl | rfl
            · unfold put at q
              rw [if_pos rfl] at q
              injection q with q
              subst q
              exact ⟨c, d⟩
            · unfold put at q
              rw [if_neg (by decide)] at q
              exact hl9 y q
          · intro _ _ _
            rw [get_put, get_put, if_pos rfl, if_neg (by decide)]
            rcases b with b | b
            · omega
            · exact absurd b hb.2
        · rw [if_neg o1]
          generalize hy : w16 (get t 8 + get t 16) = y
          by_cases o2 : auxMaxOk t y = true
          · rw [if_pos o2]
            unfold auxMaxOk at o2
            rw [decide_eq_true_eq] at o2
            obtain ⟨a, b, c, d⟩ := o2
            constructor
            · intro k z hk q
              rcases hk with rfl | rfl
              · unfold put at q
                rw [if_neg (by decide)] at q
                exact hl8 z q
              · unfold put at q
                rw [if_pos rfl] at q
                injection q with q
                subst q
                exact ⟨c, d⟩
            · intro _ _ _
              rw [get_put, get_put, if_pos rfl, if_neg (by decide)]
              rcases b with b | b
              · omega
              · exact absurd b hb.1
          · rw [if_neg o2]
            have g : ∀ k, k ≠ 8 → k ≠ 9 → get (clear (clear t 8) 9) k = get t k := by
              intro k a b
              rw [get_clear, get_clear, if_neg b, if_neg a]
            have g8 : clear (clear t 8) 9 8 = none := rfl
            have g9 : clear (clear t 8) 9 9 = none := rfl
            generalize clear (clear t 8) 9 = u at *
            have s1 : ∀ z, setIf (auxMinOk u (get u 12)) 8 (get u 12) u 8 = some z → get t 12 ≤ z ∧ z ≤ get t 13 := by
              intro z q
              unfold setIf at q
              by_cases o : auxMinOk u (get u 12) = true
              · rw [if_pos o] at q
                unfold put at q
                rw [if_pos rfl] at q
                injection q with q
                unfold auxMinOk at o
                rw [decide_eq_true_eq, g 12 (by decide) (by decide), g 13 (by decide) (by decide)] at o
                rw [g 12 (by decide) (by decide)] at q
                omega
              · rw [if_neg o, g8] at q
                exact absurd q (by simp)
            have s16 : get (setIf (auxMinOk u (get u 12)) 8 (get u 12) u) 16 = get t 16 := by
              rw [← g 16 (by decide) (by decide)]
              unfold get
              rw [setIf_other _ _ _ _ _ (by decide)]
            have s12 : get (setIf (auxMinOk u (get u 12)) 8 (get u 12) u) 12 = get t 12 := by
              rw [← g 12 (by decide) (by decide)]
              unfold get
              rw [setIf_other _ _ _ _ _ (by decide)]
            have s13 : get (setIf (auxMinOk u (get u 12)) 8 (get u 12) u) 13 = get t 13 := by
              rw [← g 13 (by decide) (by decide)]
              unfold get
              rw [setIf_other _ _ _ _ _ (by decide)]
            have s9 : setIf (auxMinOk u (get u 12)) 8 (get u 12) u 9 = none := by
              rw [setIf_other _ _ _ _ _ (by decide)]; exact g9
            generalize setIf (auxMinOk u (get u 12)) 8 (get u 12) u = v at *
            have k8 : setIf (auxMaxOk v (get v 13)) 9 (get v 13) v 8 = v 8 := setIf_other _ _ _ _ _ (by decide)
            constructor
            · intro k z hk q
              rcases hk with rfl | rfl
              · rw [k8] at q
                exact s1 z q
              · unfold setIf at q
                by_cases o : auxMaxOk v (get v 13) = true
                · rw [if_pos o] at q
                  unfold put at q
                  rw [if_pos rfl] at q
                  injection q with q
                  unfold auxMaxOk at o
                  rw [decide_eq_true_eq, s13, s12] at o
                  rw [s13] at q
                  omega
                · rw [if_neg o, s9] at q
                  exact absurd q (by simp)
            · intro _ p8 p9
              have e8 : get (setIf (auxMaxOk v (get v 13)) 9 (get v 13) v) 8 = get v 8 := get_congr' _ _ _ k8
              rw [e8] at p8 ⊢
              unfold setIf at p9 ⊢
              by_cases o : auxMaxOk v (get v 13) = true
              · rw [if_pos o] at p9 ⊢
                rw [get_put, if_pos rfl]
                unfold auxMaxOk at o
                rw [decide_eq_true_eq, s16] at o
                rcases o.2.1 with b | b
                · omega
                · exact absurd b p8
              · rw [if_neg o] at p9
                unfold get at p9
                rw [s9] at p9
                exact absurd rfl p9
      · rw [if_neg hg]
        exact ⟨base, fun _ _ _ => by omega⟩
    · rw [if_neg hb]
      exact ⟨base, fun _ p q => absurd ⟨p, q⟩ hb⟩

theorem w16_id (x : Int) (h : -32768 ≤ x) (h' : x ≤ 32767) : w16 x = x := by unfold w16; omega

theorem repairProt_slots (e : Env) (t : Temps) (h : InLimits t) (hs : SaneLimits t) :
    (∀ k x, (k = 0 ∨ k = 4) → repairProt e t k = some x → get t 10 ≤ x ∧ x ≤ get t 11) ∧
    (e.heatCool = true → Apart (repairProt e t) 0 4) := by
  obtain ⟨hoff, hr, hmin, hmax⟩ := hs
  have hl0 : ∀ x, t 0 = some x → get t 10 ≤ x ∧ x ≤ get t 11 := fun x q => h 0 x (by decide) q
  have hl4 : ∀ x, t 4 = some x → get t 10 ≤ x ∧ x ≤ get t 11 := fun x q => h 4 x (by decide) q
  have h16 : get (repairProt e t) 16 = get t 16 := by unfold get; rw [repairProt_other e t 16 (by decide) (by decide)]
  have hu : get t 16 ≠ unset := by unfold unset; omega
  have base : (∀ k x, (k = 0 ∨ k = 4) → t k = some x → get t 10 ≤ x ∧ x ≤ get t 11) := by
    intro k x hk q
    rcases hk with rfl | rfl
    · exact hl0 x q
    · exact hl4 x q
  unfold Apart
  rw [h16]
  unfold repairProt
  by_cases hd : (!e.heatCool) = true
  · rw [if_pos hd]
    exact ⟨base, fun q => by rw [q] at hd; exact absurd hd (by decide)⟩
  · rw [if_neg hd]
    dsimp only
    by_cases hb : get t 0 ≠ unset ∧ get t 4 ≠ unset
    · rw [if_pos hb, if_neg hu]
      have b0 := hl0 _ (some_of_get t 0 hb.1)
      have b4 := hl4 _ (some_of_get t 4 hb.2)
      by_cases hg : get t 0 > get t 4 - get t 16
      · rw [if_pos hg, w16_id _ (by omega) (by omega), w16_id _ (by omega) (by omega)]
        by_cases o1 : between t 10 11 (get t 4 - get t 16) = true
        · rw [if_pos o1]
          unfold between at o1
          rw [decide_eq_true_eq] at o1
          constructor
          · intro k y hk q
            rcases hk with rfl | rfl
            · unfold put at q
              rw [if_pos rfl] at q
              injection q with q
              omega
            · unfold put at q
              rw [if_neg (by decide)] at q
              exact hl4 y q
          · intro _ _ _
            rw [get_put, get_put, if_pos rfl, if_neg (by decide)]
            omega
        · rw [if_neg o1]
          by_cases o2 : between t 10 11 (get t 0 + get t 16) = true
          · rw [if_pos o2]
            unfold between at o2
            rw [decide_eq_true_eq] at o2
            constructor
            · intro k z hk q
              rcases hk with rfl | rfl
              · unfold put at q
                rw [if_neg (by decide)] at q
                exact hl0 z q
              · unfold put at q
                rw [if_pos rfl] at q
                injection q with q
                omega
            · intro _ _ _
              rw [get_put, get_put, if_pos rfl, if_neg (by decide)]
              omega
          · rw [if_neg o2]
            have g : ∀ k, k ≠ 0 → k ≠ 4 → get (clear (clear t 0) 4) k = get t k := by
              intro k a b
              rw [get_clear, get_clear, if_neg b, if_neg a]
            generalize clear (clear t 0) 4 = u at *
            have o3 : between u 10 11 (get u 10) = true := by
              unfold between
              rw [decide_eq_true_eq, g 10 (by decide) (by decide), g 11 (by decide) (by decide)]
              unfold unset
              omega
            rw [o3, g 10 (by decide) (by decide)]
            have gv : ∀ k, k ≠ 0 → k ≠ 4 → get (setIf true 0 (get t 10) u) k = get t k := by
              intro k a b
              unfold setIf
              rw [if_pos rfl, get_put, if_neg a, g k a b]
            have o4 : between (setIf true 0 (get t 10) u) 10 11 (get (setIf true 0 (get t 10) u) 11) = true := by
              unfold between
              rw [decide_eq_true_eq, gv 10 (by decide) (by decide), gv 11 (by decide) (by decide)]
              unfold unset
              omega
            rw [o4, gv 11 (by decide) (by decide)]
            unfold setIf
            rw [if_pos rfl, if_pos rfl]
            constructor
            · intro k z hk q
              rcases hk with rfl | rfl
              · unfold put at q
                rw [if_neg (by decide), if_pos rfl] at q
                injection q with q
                omega
              · unfold put at q
                rw [if_pos rfl] at q
                injection q with q
                omega
            · intro _ _ _
              rw [get_put, get_put, get_put, if_pos rfl, if_neg (by decide), if_pos rfl]
              omega
      · rw [if_neg hg]
        exact ⟨base, fun _ _ _ => by omega⟩
    · rw [if_neg hb]
      exact ⟨base, fun _ p q => absurd ⟨p, q⟩ hb⟩

theorem get_congr (t u : Temps) (k : Nat) (h : t k = u k) : get t k = get u k := get_congr' t u k h

/-- The repair gives temperatures within limits that keep their distance. -/
theorem repair_good (e : Env) (t : Temps) (h : InLimits t) (hs : SaneLimits t) :
    InLimits (repair e t) ∧ (e.differential = false → Apart (repair e t) 8 9) ∧
    (e.heatCool = true → Apart (repair e t) 0 4) := by
  have a := repairAux_slots e t h hs.1
  have oth := repairAux_other e t
  have g : ∀ k, k ≠ 8 → k ≠ 9 → get (repairAux e t) k = get t k := fun k p q => get_congr _ _ _ (oth k p q)
  have hI : InLimits (repairAux e t) := by
    intro k x hk q
    by_cases k89 : k = 8 ∨ k = 9
    · unfold limits
      rw [if_pos k89, g 12 (by decide) (by decide), g 13 (by decide) (by decide)]
      exact a.1 k x k89 q
    · have k8 : k ≠ 8 := fun z => k89 (Or.inl z)
      have k9 : k ≠ 9 := fun z => k89 (Or.inr z)
      rw [oth k k8 k9] at q
      have := h k x hk q
      unfold limits at this ⊢
      rw [if_neg k89] at this ⊢
      by_cases k5 : k = 5
      · rw [if_pos k5] at this ⊢
        rw [g 14 (by decide) (by decide), g 15 (by decide) (by decide)]
        exact this
      · rw [if_neg k5] at this ⊢
        rw [g 10 (by decide) (by decide), g 11 (by decide) (by decide)]
        exact this
  have hS : SaneLimits (repairAux e t) := by
    unfold SaneLimits
    rw [g 16 (by decide) (by decide), g 10 (by decide) (by decide), g 11 (by decide) (by decide)]
    exact hs
  have aA := a.2
  unfold repair
  generalize repairAux e t = u at *
  have b := repairProt_slots e u hI hS
  have oth2 := repairProt_other e u
  have g2 : ∀ k, k ≠ 0 → k ≠ 4 → get (repairProt e u) k = get u k := fun k p q => get_congr _ _ _ (oth2 k p q)
  refine ⟨?_, ?_, b.2⟩
  · intro k x hk q
    by_cases k04 : k = 0 ∨ k = 4
    · have := b.1 k x k04 q
      unfold limits
      rw [if_neg (by omega), if_neg (by omega), g2 10 (by decide) (by decide), g2 11 (by decide) (by decide)]
      exact this
    · rw [oth2 k (by omega) (by omega)] at q
      have := hI k x hk q
      unfold limits at this ⊢
      by_cases k89 : k = 8 ∨ k = 9
      · rw [if_pos k89] at this ⊢
        rw [g2 12 (by decide) (by decide), g2 13 (by decide) (by decide)]
        exact this
      · rw [if_neg k89] at this ⊢
        by_cases k5 : k = 5
        · rw [if_pos k5] at this ⊢
          rw [g2 14 (by decide) (by decide), g2 15 (by decide) (by decide)]
          exact this
        · rw [if_neg k5] at this ⊢
          rw [g2 10 (by decide) (by decide), g2 11 (by decide) (by decide)]
          exact this
  · intro q
    have := aA q
    unfold Apart at this ⊢
    rw [g2 8 (by decide) (by decide), g2 9 (by decide) (by decide), g2 16 (by decide) (by decide)]
    exact this

/-- The limits are never written. -/
theorem repair_limits (e : Env) (t : Temps) (k : Nat) (h : 10 ≤ k) : repair e t k = t k := by
  unfold repair
  rw [repairProt_other e _ k (by omega) (by omega), repairAux_other e t k (by omega) (by omega)]

theorem applyTemps_limits (c n : Temps) (k : Nat) (h : 10 ≤ k) : applyTemps c n k = c k := by
  unfold applyTemps
  rw [if_neg (by omega)]

theorem slot_in (c n : Temps) (k : Nat) (x : Int) (h : slotValid c n k = true) (q : n k = some x) :
    get c (limits k).1 ≤ x ∧ x ≤ get c (limits k).2 := by
  unfold slotValid at h
  rw [q] at h
  dsimp only at h
  unfold limits
  by_cases k89 : k = 8 ∨ k = 9
  · rw [if_pos k89] at h ⊢
    exact of_decide_eq_true h
  · rw [if_neg k89] at h ⊢
    by_cases k5 : k = 5
    · rw [if_pos k5] at h ⊢
      exact (of_decide_eq_true h).2
    · rw [if_neg k5] at h ⊢
      exact (of_decide_eq_true h).2

theorem limits_ge (k : Nat) : 10 ≤ (limits k).1 ∧ 10 ≤ (limits k).2 := by
  unfold limits
  repeat' split
  all_goals decide

theorem apply_in (c n : Temps) (hc : InLimits c) (hv : tempsValid c n = true) : InLimits (applyTemps c n) := by
  intro k x hk q
  rw [get_congr _ _ _ (applyTemps_limits c n _ (limits_ge k).1), get_congr _ _ _ (applyTemps_limits c n _ (limits_ge k).2)]
  unfold applyTemps at q
  rw [if_pos hk] at q
  cases hn : n k with
  | some y =>
    rw [hn] at q
    injection q with q
    subst q
    unfold tempsValid at hv
    rw [List.all_eq_true] at hv
    exact slot_in c n k y (hv k (List.mem_range.2 hk)) hn
  | none =>
    rw [hn] at q
    dsimp only at q
    by_cases k5 : k = 5
    · rw [if_pos k5] at q
      subst k5
      exact hc 5 x (by decide) q
    · rw [if_neg k5] at q
      exact absurd q (by simp)

theorem handle_good (e : Env) (s : St) (m : Msg) (hs : SaneLimits s.c.t) (h : Good e s.c) :
    Good e (handle e s m).1.c ∧ (∀ k, 10 ≤ k → (handle e s m).1.c.t k = s.c.t k) := by
  have same : Good e s.c ∧ (∀ k, 10 ≤ k → s.c.t k = s.c.t k) := ⟨h, fun _ _ => rfl⟩
  unfold handle
  by_cases o : s.offline = true
  · rw [if_pos o]; exact same
  · rw [if_neg o]
    cases m with
    | empty => exact same
    | short => exact same
    | full n =>
      dsimp only
      generalize fixRo e s.c n = n'
      by_cases v : valid e s.c n' = true
      · rw [if_pos v]
        have hlim : ∀ k, 10 ≤ k → repair e (applyTemps s.c.t n'.t) k = s.c.t k := by
          intro k hk
          rw [repair_limits e _ k hk, applyTemps_limits _ _ k hk]
        refine ⟨?_, hlim⟩
        unfold valid at v
        simp only [Bool.and_eq_true, Bool.or_eq_true, decide_eq_true_eq, Bool.not_eq_true'] at v
        obtain ⟨⟨⟨⟨⟨⟨⟨⟨v1, v2⟩, v3⟩, v4⟩, v5⟩, v6⟩, v7⟩, v8⟩, v9⟩ := v
        have hI := apply_in s.c.t n'.t h.1 v9
        have gl : ∀ k, 10 ≤ k → get (applyTemps s.c.t n'.t) k = get s.c.t k := fun k hk =>
          get_congr _ _ _ (applyTemps_limits _ _ k hk)
        have hS : SaneLimits (applyTemps s.c.t n'.t) := by
          unfold SaneLimits
          rw [gl 16 (by decide), gl 10 (by decide), gl 11 (by decide)]
          exact hs
        have r := repair_good e _ hI hS
        refine ⟨r.1, r.2.1, r.2.2, v6, v7, v8.1, v8.2, v2.1, v2.2, fun q => ?_, v3, fun q => ?_, v5⟩
        · rcases v1 with v1 | v1
          · exact absurd v1 q
          · exact ⟨v1.1.1, v1.2, v1.1.2⟩
        · rcases v4 with v4 | v4
          · rw [v4] at q; exact absurd q (by decide)
          · exact v4
      · rw [if_neg v]; exact same

/-- Whatever configurations the server sends, in whatever order: the configuration in use is one the
thermostat can work with, and the limits are the ones of the device. -/
theorem always_good (e : Env) (s : St) (ops : List Op) (hs : SaneLimits s.c.t) (h : Good e s.c) :
    Good e (ops.foldl (Op.run e) s).c ∧ ∀ k, 10 ≤ k → (ops.foldl (Op.run e) s).c.t k = s.c.t k := by
  induction ops generalizing s with
  | nil => exact ⟨h, fun _ _ => rfl⟩
  | cons op ops ih =>
    rw [List.foldl_cons]
    cases op with
    | msg m =>
      have a := handle_good e s m hs h
      have hS : SaneLimits (handle e s m).1.c.t := by
        have gl : ∀ k, 10 ≤ k → get (handle e s m).1.c.t k = get s.c.t k := fun k hk => get_congr _ _ _ (a.2 k hk)
        unfold SaneLimits
        rw [gl 16 (by decide), gl 10 (by decide), gl 11 (by decide)]
        exact hs
      have b := ih (handle e s m).1 hS a.1
      exact ⟨b.1, fun k hk => (b.2 k hk).trans (a.2 k hk)⟩
    | flag b => exact ih { s with offline := b } hs h

/-- A refused message changes nothing. -/
theorem refused (e : Env) (s : St) (m : Msg) (h : (handle e s m).2 = .dataError) : (handle e s m).1 = s := by
  unfold handle at h ⊢
  by_cases o : s.offline = true
  · rw [if_pos o]
  · rw [if_neg o] at h ⊢
    cases m with
    | empty => exact absurd h (fun q => Res.noConfusion q)
    | short => rfl
    | full n =>
      dsimp only at h ⊢
      generalize fixRo e s.c n = n' at *
      by_cases v : valid e s.c n' = true
      · rw [if_pos v] at h; exact Res.noConfusion h
      · rw [if_neg v]

/-! ### Read-only fields -/

theorem handle_fields (e : Env) (s : St) (m : Msg) (x : Fld) (h : roOf e x = true) :
    (handle e s m).1.c.f x = s.c.f x := by
  unfold handle
  by_cases o : s.offline = true
  · rw [if_pos o]
  · rw [if_neg o]
    cases m with
    | empty => rfl
    | short => rfl
    | full n =>
      dsimp only
      split
      · show (fixRo e s.c n).f x = _
        unfold fixRo
        dsimp only
        rw [if_pos h]
      · rfl

/-- Specification: which fields the device declares read-only.  "Is set" and channel number of pump,
heat source and master go together. -/
def ReadOnly (e : Env) (x : Fld) : Prop :=
  (x ≠ .pumpSet ∧ x ≠ .srcSet ∧ x ≠ .masterSet ∧ e.roF x = true) ∨ (x = .pumpSet ∧ e.roF .pump = true) ∨
  (x = .srcSet ∧ e.roF .src = true) ∨ (x = .masterSet ∧ e.roF .master = true)

theorem roOf_eq (e : Env) (x : Fld) (h : ReadOnly e x) : roOf e x = true := by
  unfold ReadOnly at h
  cases x <;> simp_all [roOf]

/-- A read-only field keeps its value for ever. -/
theorem readonly_fields (e : Env) (s : St) (ops : List Op) (x : Fld) (h : ReadOnly e x) :
    (ops.foldl (Op.run e) s).c.f x = s.c.f x := by
  induction ops generalizing s with
  | nil => rfl
  | cons op ops ih =>
    rw [List.foldl_cons, ih]
    cases op with
    | msg m => exact handle_fields e s m x (roOf_eq e x h)
    | flag b => rfl

example : ReadOnly ⟨5, false, true, false, fun _ => true, fun _ => true, 1, fun x => x = .master, fun _ => false⟩ .masterSet := Or.inr (Or.inr (Or.inr ⟨rfl, rfl⟩))

/-- The full claim for temperatures. -/
def ReadonlyTemps (e : Env) (s : St) : Prop :=
  ∀ (ops : List Op) (k : Nat), k < 10 → e.roT k = true → get (ops.foldl (Op.run e) s).c.t k = get s.c.t k

theorem fixRoT_other (c n : Temps) (k j : Nat) (h : j ≠ k) : fixRoT c n k j = n j := by
  unfold fixRoT
  repeat' split
  all_goals simp [clear, put, h]

theorem fixRoT_self (c n : Temps) (k : Nat) : get (fixRoT c n k) k = get c k := by
  unfold fixRoT
  by_cases h : get c k ≠ get n k
  · rw [if_pos h]
    by_cases h2 : get c k = unset
    · rw [if_pos h2, get_clear, if_pos rfl, h2]
    · rw [if_neg h2, get_put, if_pos rfl]
  · rw [if_neg h]
    exact (Decidable.not_not.1 h).symm

theorem fixRo_foldl (p : Nat → Bool) (c : Temps) (n : Temps) (m k : Nat) :
    get ((List.range m).foldl (fun t k => if p k then fixRoT c t k else t) n) k =
      if k < m ∧ p k = true then get c k else get n k := by
  induction m with
  | zero => simp
  | succ m ih =>
    rw [List.range_succ, List.foldl_append, List.foldl_cons, List.foldl_nil]
    generalize (List.range m).foldl (fun t k => if p k then fixRoT c t k else t) n = u at *
    by_cases pm : p m = true
    · rw [if_pos pm]
      by_cases km : k = m
      · subst km
        rw [fixRoT_self, if_pos ⟨by omega, pm⟩]
      · rw [get_congr _ _ _ (fixRoT_other c u m k km), ih]
        by_cases q : k < m ∧ p k = true
        · rw [if_pos q, if_pos ⟨by omega, q.2⟩]
        · rw [if_neg q, if_neg (fun z => q ⟨by omega, z.2⟩)]
    · rw [if_neg pm, ih]
      by_cases q : k < m ∧ p k = true
      · rw [if_pos q, if_pos ⟨by omega, q.2⟩]
      · rw [if_neg q, if_neg (fun z => q ⟨by
          have h1 := z.1
          have h2 : k ≠ m := fun w => pm (by rw [← w]; exact z.2)
          omega, z.2⟩)]

theorem fixRo_keeps (p : Nat → Bool) (c : Temps) (n : Temps) (m k : Nat) (h : p k = false) :
    (List.range m).foldl (fun t k => if p k then fixRoT c t k else t) n k = n k := by
  induction m with
  | zero => simp
  | succ m ih =>
    rw [List.range_succ, List.foldl_append, List.foldl_cons, List.foldl_nil]
    generalize (List.range m).foldl (fun t k => if p k then fixRoT c t k else t) n = u at *
    by_cases pm : p m = true
    · rw [if_pos pm, fixRoT_other c u m k (fun w => by rw [w, pm] at h; exact absurd h (by decide))]
      exact ih
    · rw [if_neg pm]
      exact ih

theorem handle_roT (e : Env) (s : St) (m : Msg) (k : Nat) (hk : k < 10) (h : e.roT k = true)
    (h8 : k ≠ 8) (h9 : k ≠ 9) (h0 : k ≠ 0) (h4 : k ≠ 4) : get (handle e s m).1.c.t k = get s.c.t k := by
  unfold handle
  by_cases o : s.offline = true
  · rw [if_pos o]
  · rw [if_neg o]
    cases m with
    | empty => rfl
    | short => rfl
    | full n =>
      dsimp only
      have hf : get (fixRo e s.c n).t k = get s.c.t k := by
        unfold fixRo
        dsimp only
        rw [fixRo_foldl (fun k => e.roT k || decide (10 ≤ k)), if_pos ⟨by omega, by simp [h]⟩]
      generalize fixRo e s.c n = n' at *
      split
      · rename_i v
        show get (repair e (applyTemps s.c.t n'.t)) k = _
        have r : repair e (applyTemps s.c.t n'.t) k = applyTemps s.c.t n'.t k := by
          unfold repair
          rw [repairProt_other e _ k h0 h4, repairAux_other e _ k h8 h9]
        rw [get_congr _ _ _ r]
        clear r
        unfold get applyTemps at *
        rw [if_pos hk]
        cases hn : n'.t k with
        | some y =>
          rw [hn] at hf
          exact hf
        | none =>
          rw [hn] at hf
          dsimp only
          by_cases k5 : k = 5
          · rw [if_pos k5, k5]
          · rw [if_neg k5]
            exact hf
      · rfl

/-- Read-only temperatures other than the four that are repaired keep their value for ever. -/
theorem readonly_temps_partial (e : Env) (s : St) (ops : List Op) (k : Nat) (hk : k < 10) (h : e.roT k = true)
    (h8 : k ≠ 8) (h9 : k ≠ 9) (h0 : k ≠ 0) (h4 : k ≠ 4) : get (ops.foldl (Op.run e) s).c.t k = get s.c.t k := by
  induction ops generalizing s with
  | nil => rfl
  | cons op ops ih =>
    rw [List.foldl_cons, ih]
    cases op with
    | msg m => exact handle_roT e s m k hk h h8 h9 h0 h4
    | flag b => rfl

/-! ### An accepted message is applied -/

/-- Every field that is not read-only has the value of the accepted message. -/
theorem accepted_fields (e : Env) (s : St) (n : Cfg) (ho : s.offline = false)
    (h : (handle e s (.full n)).2 = .ok) (x : Fld) (hx : roOf e x = false) :
    (handle e s (.full n)).1.c.f x = n.f x := by
  unfold handle at h ⊢
  rw [ho] at h ⊢
  simp only [Bool.false_eq_true, if_false] at h ⊢
  by_cases v : valid e s.c (fixRo e s.c n) = true
  · rw [if_pos v]
    show (fixRo e s.c n).f x = _
    unfold fixRo
    dsimp only
    rw [hx]
    rfl
  · rw [if_neg v] at h
    exact Res.noConfusion h

/-- Every temperature of the accepted message that is not read-only and not one of the four repaired
ones is in use. -/
theorem accepted_temps_partial (e : Env) (s : St) (n : Cfg) (ho : s.offline = false)
    (h : (handle e s (.full n)).2 = .ok) (k : Nat) (hk : k < 10) (hr : e.roT k = false) (x : Int) (hx : n.t k = some x)
    (h8 : k ≠ 8) (h9 : k ≠ 9) (h0 : k ≠ 0) (h4 : k ≠ 4) :
    get (handle e s (.full n)).1.c.t k = x := by
  unfold handle at h ⊢
  rw [ho] at h ⊢
  simp only [Bool.false_eq_true, if_false] at h ⊢
  have hf : (fixRo e s.c n).t k = some x := by
    unfold fixRo
    dsimp only
    rw [fixRo_keeps (fun k => e.roT k || decide (10 ≤ k)) _ _ _ _ (by simp [hr]; omega)]
    exact hx
  by_cases v : valid e s.c (fixRo e s.c n) = true
  · rw [if_pos v]
    generalize fixRo e s.c n = n' at *
    show get (repair e (applyTemps s.c.t n'.t)) k = _
    have r : repair e (applyTemps s.c.t n'.t) k = applyTemps s.c.t n'.t k := by
      unfold repair
      rw [repairProt_other e _ k h0 h4, repairAux_other e _ k h8 h9]
    rw [get_congr _ _ _ r]
    apply get_of_some
    unfold applyTemps
    rw [if_pos hk, hf]
  · rw [if_neg v] at h
    exact Res.noConfusion h

/-! ### Concrete cases -/

/-- A HEAT_COOL thermostat, channel 5; channels 0 and 1 are thermometers; 5 to 40 degrees, distance 2. -/
def exEnv : Env :=
  ⟨5, false, true, false, fun n => n = 0 ∨ n = 1, fun n => n = 2, 1, fun _ => false, fun k => k = 0⟩

/-- Temperatures of the example. -/
def exT : Temps := fun k =>
  match k with
  | 0 => some 1000 | 4 => some 3000 | 5 => some 40 | 10 => some 500 | 11 => some 4000 | 14 => some 20
  | 15 => some 1000 | 16 => some 200 | 17 => some 2000 | _ => none

/-- Settings of the example. -/
def exF : Fld → Int | .bin => 5 | .alg => 1 | .main => 0 | .aux => 5 | _ => 0

/-- The example. -/
def exSt : St := ⟨⟨exF, exT⟩, false⟩

theorem exGood : SaneLimits exSt.c.t ∧ Good exEnv exSt.c := by
  refine ⟨by unfold SaneLimits; decide, ?_, fun _ p _ => absurd rfl p, fun _ _ _ => by decide, by decide, by decide, by decide, by decide, by decide, by decide, fun q => absurd rfl q, Or.inl rfl, by decide, by decide⟩
  intro k x hk q
  have : ∀ k, k < 10 → ∀ y ∈ (exT k).toList, get exT (limits k).1 ≤ y ∧ y ≤ get exT (limits k).2 := by decide
  exact this k hk x (by show x ∈ (exT k).toList; rw [show exT k = some x from q]; simp)

example : (handle exEnv exSt (.full ⟨fun x => if x = .minOn then 60 else exF x, exT⟩)).1.c.f .minOn = 60 := by decide +kernel
example : (handle exEnv exSt (.full ⟨fun x => if x = .minOn then 601 else exF x, exT⟩)).2 = .dataError := by decide +kernel
example : get (handle exEnv exSt (.full ⟨exF, put exT 1 2100⟩)).1.c.t 1 = 2100 := by decide +kernel

/-- False: the freeze protection temperature is read-only (10 degrees), the server sends a heat
protection of 11 degrees, and the repair lowers the read-only temperature to 9 degrees. -/
theorem readonly_temp_violation : ¬ ReadonlyTemps exEnv exSt := by
  intro h
  have := h [.msg (.full ⟨exF, put exT 4 1100⟩)] 0 (by decide) (by decide)
  revert this
  decide +kernel

/-- Nothing checks that the main thermometer is a thermometer: channel 77 does not exist. -/
theorem main_thermometer_violation :
    (handle exEnv exSt (.full ⟨fun x => if x = .main then 77 else exF x, exT⟩)).2 = .ok ∧
    (handle exEnv exSt (.full ⟨fun x => if x = .main then 77 else exF x, exT⟩)).1.c.f .main = 77 ∧
    exEnv.thermo 77 = false := by
  decide +kernel

/-- Nor that a thermostat is not its own master. -/
theorem own_master_violation :
    (handle exEnv exSt (.full ⟨fun x => if x = .master then 5 else if x = .masterSet then 1 else exF x, exT⟩)).1.c.f .master = exEnv.self := by
  decide +kernel

end Verif.Hvac.Config
