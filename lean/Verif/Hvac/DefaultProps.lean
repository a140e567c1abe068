import Verif.Hvac.Default
import Verif.Hvac.ScheduleProps
/-!
# Thermostat: the weekly schedules after a start, proofs
-/
namespace Verif.Hvac.Schedule

/-! ### Specification -/

/-- The default week: what is planned for an hour (nothing: off). -/
def planned : Fn → Bool → Nat → Option Program
  | .thermostat, false, h => some (if 6 ≤ h ∧ h < 21 then ⟨2, 2100, 0⟩ else ⟨2, 1900, 0⟩)
  | .thermostat, true, h => if 6 ≤ h ∧ h < 21 then some ⟨3, 0, 2400⟩ else none
  | .heatCool, false, h => some (if 6 ≤ h ∧ h < 21 then ⟨4, 2100, 2400⟩ else ⟨4, 1800, 2500⟩)
  | .differential, false, h => some (if 6 ≤ h ∧ h < 21 then ⟨2, -200, 0⟩ else ⟨2, -500, 0⟩)
  | .dhw, false, h => some (if 6 ≤ h ∧ h < 21 then ⟨2, 5000, 0⟩ else ⟨2, 4000, 0⟩)
  | _, _, _ => none

/-- Off. -/
def offProgram : Program := ⟨1, -32768, -32768⟩

/-- The program in force: the planned one, but off if it does not fit the device. -/
def inForce (e : Env) (alt : Bool) : Option Program → Program
  | none => offProgram
  | some p => if progValid e alt p then p else offProgram

/-! ### Programs -/

theorem zero_wf : Sched.zero.WF := ⟨by decide, by decide +kernel, by decide +kernel⟩

theorem zero_slots : ∀ j, j < 672 → slotVal Sched.zero j = 0 := by decide +kernel

theorem zero_consistent (e : Env) (alt : Bool) : Consistent e alt Sched.zero := by
  refine ⟨?_, fun j hj => Or.inl (zero_slots j hj)⟩
  intro p hp
  rw [List.eq_of_mem_replicate hp]
  rfl

/-- Programs set: those that are valid are there, the others are not. -/
theorem setPrograms_spec (e : Env) (alt : Bool) (ps : List Program) : ∀ (i : Nat) (s : Sched), 1 ≤ i → i + ps.length ≤ 5 → s.prog.length = 4 →
    ∃ s', setPrograms e alt i ps s = some s' ∧ s'.quarters = s.quarters ∧ s'.prog.length = 4 ∧
      ∀ k, k < 4 → s'.prog[k]? = if h : i ≤ k + 1 ∧ k + 1 - i < ps.length then (if progValid e alt (ps[k + 1 - i]'h.2) then some (ps[k + 1 - i]'h.2) else s.prog[k]?) else s.prog[k]? := by
  induction ps with
  | nil =>
    intro i s h1 h2 h3
    refine ⟨s, rfl, rfl, h3, fun k hk => ?_⟩
    rw [dif_neg (fun q => absurd q.2 (Nat.not_lt_zero _))]
  | cons p ps ih =>
    intro i s h1 h2 h3
    have hl : i + 1 + ps.length ≤ 5 := by rw [List.length_cons] at h2; omega
    have hi : ¬ ((i : Int) < 1 ∨ (i : Int) > (maxPrograms : Int)) := by unfold maxPrograms; omega
    unfold setPrograms setProgram
    cases hv : progValid e alt p with
    | false =>
      obtain ⟨s', e1, e2, e3, e4⟩ := ih (i + 1) s (by omega) hl h3
      rw [if_pos (show (!false) = true from rfl)]
      refine ⟨s', e1, e2, e3, fun k hk => ?_⟩
      rw [e4 k hk]
      by_cases hk0 : i = k + 1
      · rw [dif_neg (show ¬ (i + 1 ≤ k + 1 ∧ _) from fun q => by have := q.1; omega)]
        rw [dif_pos (show i ≤ k + 1 ∧ k + 1 - i < (p :: ps).length from ⟨by omega, by rw [List.length_cons]; omega⟩)]
        simp only [show k + 1 - i = 0 by omega, List.getElem_cons_zero]
        rw [hv, if_neg Bool.false_ne_true]
      · by_cases hr : i + 1 ≤ k + 1 ∧ k + 1 - (i + 1) < ps.length
        · rw [dif_pos hr, dif_pos (show i ≤ k + 1 ∧ k + 1 - i < (p :: ps).length from ⟨by omega, by rw [List.length_cons]; omega⟩)]
          simp only [show k + 1 - i = k + 1 - (i + 1) + 1 by omega, List.getElem_cons_succ]
        · rw [dif_neg hr, dif_neg (show ¬ (i ≤ k + 1 ∧ k + 1 - i < (p :: ps).length) from fun q => hr ⟨by omega, by have := q.2; rw [List.length_cons] at this; omega⟩)]
    | true =>
      rw [if_neg (show ¬ (!true) = true by decide), if_neg hi]
      obtain ⟨s', e1, e2, e3, e4⟩ := ih (i + 1) { s with prog := s.prog.set ((i : Int).toNat - 1) p } (by omega) hl (by rw [List.length_set]; exact h3)
      refine ⟨s', e1, e2, e3, fun k hk => ?_⟩
      rw [e4 k hk]
      dsimp only
      rw [Int.toNat_natCast, List.getElem?_set]
      by_cases hk0 : i = k + 1
      · rw [dif_neg (show ¬ (i + 1 ≤ k + 1 ∧ _) from fun q => by have := q.1; omega)]
        rw [dif_pos (show i ≤ k + 1 ∧ k + 1 - i < (p :: ps).length from ⟨by omega, by rw [List.length_cons]; omega⟩)]
        rw [if_pos (show i - 1 = k by omega), if_pos (show i - 1 < s.prog.length by omega)]
        simp only [show k + 1 - i = 0 by omega, List.getElem_cons_zero]
        rw [hv, if_pos rfl]
      · rw [if_neg (show ¬ i - 1 = k by omega)]
        by_cases hr : i + 1 ≤ k + 1 ∧ k + 1 - (i + 1) < ps.length
        · rw [dif_pos hr, dif_pos (show i ≤ k + 1 ∧ k + 1 - i < (p :: ps).length from ⟨by omega, by rw [List.length_cons]; omega⟩)]
          simp only [show k + 1 - i = k + 1 - (i + 1) + 1 by omega, List.getElem_cons_succ]
        · rw [dif_neg hr, dif_neg (show ¬ (i ≤ k + 1 ∧ k + 1 - i < (p :: ps).length) from fun q => hr ⟨by omega, by have := q.2; rw [List.length_cons] at this; omega⟩)]

/-! ### Slots -/

theorem calcIndex_nat (d h q : Nat) (hd : d < 7) (hh : h < 24) (hq : q < 4) : calcIndex d h q = (((d * 24 + h) * 4 + q : Nat) : Int) := by
  unfold calcIndex
  rw [if_neg (by omega), if_neg (by omega), if_neg (by omega)]
  push_cast
  rfl

/-- The loops put the planned program, if it is usable, into every slot of the list. -/
theorem fillWeek_spec (plan : Nat → Nat) (ts : List (Nat × Nat × Nat)) : ∀ s : Sched, s.WF → (∀ t ∈ ts, t.1 < 7 ∧ t.2.1 < 24 ∧ t.2.2 < 4) →
    ∃ s', fillWeek plan ts s = some s' ∧ s'.WF ∧ s'.prog = s.prog ∧
      ∀ j, j < 672 → (∀ d h q, (d, h, q) ∈ ts → (d * 24 + h) * 4 + q = j → Usable s (plan h) → slotVal s' j = plan h) ∧
        ((∀ d h q, (d, h, q) ∈ ts → (d * 24 + h) * 4 + q = j → ¬ Usable s (plan h)) → slotVal s' j = slotVal s j) := by
  induction ts with
  | nil =>
    intro s hs _
    exact ⟨s, rfl, hs, rfl, fun j hj => ⟨(fun d h q hm => by cases hm), fun _ => rfl⟩⟩
  | cons t ts ih =>
    obtain ⟨d, h, q⟩ := t
    intro s hs hts
    obtain ⟨hd, hh, hq⟩ := hts (d, h, q) (List.mem_cons_self ..)
    dsimp only at hd hh hq
    obtain ⟨u, ok, e1, w, pr, ho, hf, ht⟩ := set_slot s hs (calcIndex d h q) (plan h)
    obtain ⟨s', f1, f2, f3, f4⟩ := ih u w (fun t ht => hts t (List.mem_cons_of_mem _ ht))
    rw [calcIndex_nat d h q hd hh hq] at e1 ho ht
    rw [Int.toNat_natCast] at ho ht
    refine ⟨s', ?_, f2, f3.trans pr, ?_⟩
    · unfold fillWeek
      rw [calcIndex_nat d h q hd hh hq, e1]
      exact f1
    have hus : ∀ p, Usable u p ↔ Usable s p := fun p => by unfold Usable; rw [pr]
    intro j hj
    obtain ⟨g1, g2⟩ := f4 j hj
    have inj : ∀ d' h' q', (d', h', q') ∈ (d, h, q) :: ts → (d' * 24 + h') * 4 + q' = j → h' = j / 4 % 24 := by
      intro d' h' q' hm he
      have := hts _ hm
      dsimp only at this
      omega
    refine ⟨?_, ?_⟩
    · intro d' h' q' hm he hu
      by_cases hin : ∃ d'' h'' q'', (d'', h'', q'') ∈ ts ∧ (d'' * 24 + h'') * 4 + q'' = j
      · obtain ⟨d'', h'', q'', hm'', he''⟩ := hin
        have : h' = h'' := (inj _ _ _ hm he).trans (inj _ _ _ (List.mem_cons_of_mem _ hm'') he'').symm
        subst this
        exact g1 _ _ _ hm'' he'' ((hus _).2 hu)
      · rcases List.mem_cons.mp hm with r | r
        · cases r
          rw [g2 (fun d'' h'' q'' hm'' he'' => absurd ⟨d'', h'', q'', hm'', he''⟩ hin)]
          have hok : ok = true := ho.2 ⟨by omega, by omega, by omega, hu⟩
          rw [ht hok j hj, if_pos (by exact_mod_cast he.symm)]
        · exact absurd ⟨d', h', q', r, he⟩ hin
    · intro hno
      rw [g2 (fun d' h' q' hm he hu => hno d' h' q' (List.mem_cons_of_mem _ hm) he ((hus _).1 hu))]
      cases hok : ok with
      | false => rw [hf hok]
      | true =>
        rw [ht hok j hj]
        refine if_neg (fun he => ?_)
        have he' : (d * 24 + h) * 4 + q = j := by exact_mod_cast he.symm
        exact hno d h q (List.mem_cons_self ..) he' (ho.1 hok).2.2.2

theorem mem_weekTimes (d h q : Nat) : (d, h, q) ∈ weekTimes ↔ d < 7 ∧ h < 24 ∧ q < 4 := by
  unfold weekTimes
  simp only [List.mem_flatMap, List.mem_map, List.mem_range]
  constructor
  · rintro ⟨d', hd, h', hh, q', hq, e⟩
    cases e
    exact ⟨hd, hh, hq⟩
  · rintro ⟨hd, hh, hq⟩
    exact ⟨d, hd, h, hh, q, hq, rfl⟩

theorem programAt_slot (s : Sched) (hs : s.WF) (j : Nat) (hj : j < 672) :
    programAt s j = match slotVal s j with
      | 0 => some offProgram
      | id + 1 => if id + 1 > maxPrograms then some ⟨0, -32768, -32768⟩ else s.prog[id]? := by
  unfold programAt
  rw [if_pos (by omega), getId_eq s hs j hj]
  cases slotVal s j <;> rfl

/-- Programs and plan together. -/
theorem default_general (e : Env) (alt : Bool) (ps : List Program) (plan : Nat → Nat) (hl : ps.length ≤ 4) (hm : ∀ p ∈ ps, p.mode ≠ 0 ∧ p.mode ≤ 7)
    (hp : ∀ h, plan h ≤ ps.length) :
    ∃ u s, setPrograms e alt 1 ps Sched.zero = some u ∧ fillWeek plan weekTimes u = some s ∧ s.WF ∧ Consistent e alt s ∧
      ∀ d h q : Nat, d < 7 → h < 24 → q < 4 →
        programAt s (calcIndex d h q) = some (inForce e alt (if plan h = 0 then none else ps[plan h - 1]?)) := by
  obtain ⟨u, e1, e2, e3, e4⟩ := setPrograms_spec e alt ps 1 Sched.zero (by omega) (by omega) (by decide)
  have uwf : u.WF := ⟨e3, by rw [e2]; exact zero_wf.quarts, by rw [e2]; exact zero_wf.bytes⟩
  have hz : ∀ k, k < 4 → Sched.zero.prog[k]? = some ⟨0, 0, 0⟩ := by decide
  have e5 : ∀ k, k < 4 → u.prog[k]? = if h : k < ps.length then (if progValid e alt (ps[k]'h) then some (ps[k]'h) else some ⟨0, 0, 0⟩) else some ⟨0, 0, 0⟩ := by
    intro k hk
    rw [e4 k hk, hz k hk]
    by_cases hr : k < ps.length
    · rw [dif_pos (show 1 ≤ k + 1 ∧ k + 1 - 1 < ps.length from ⟨by omega, by omega⟩), dif_pos hr]
      simp only [Nat.add_sub_cancel]
    · rw [dif_neg (show ¬ (1 ≤ k + 1 ∧ k + 1 - 1 < ps.length) from fun q => hr (by have := q.2; omega)), dif_neg hr]
  obtain ⟨s, f1, f2, f3, f4⟩ := fillWeek_spec plan weekTimes u uwf (by
    rintro ⟨d, h, q⟩ ht
    exact (mem_weekTimes d h q).1 ht)
  have usable : ∀ p, 1 ≤ p → p ≤ ps.length → (Usable u p ↔ ∃ h : p - 1 < ps.length, progValid e alt (ps[p - 1]'h) = true) := by
    intro p h1 h2
    have hk : p - 1 < ps.length := by omega
    have hx := e5 (p - 1) (by omega)
    rw [dif_pos hk] at hx
    unfold Usable
    rw [hx]
    constructor
    · rintro (r | ⟨_, _, q, hq, hq0, _⟩)
      · omega
      · refine ⟨hk, ?_⟩
        cases hv : progValid e alt (ps[p - 1]'hk) with
        | true => rfl
        | false =>
          rw [hv, if_neg Bool.false_ne_true] at hq
          cases hq
          exact absurd rfl hq0
    · rintro ⟨_, hv⟩
      rw [if_pos hv]
      obtain ⟨m1, m2⟩ := hm _ (List.getElem_mem hk)
      exact Or.inr ⟨h1, by omega, _, rfl, m1, m2⟩
  have hslot : ∀ d h q : Nat, d < 7 → h < 24 → q < 4 → slotVal s ((d * 24 + h) * 4 + q) = 0 ∧ (plan h = 0 ∨ ¬ Usable u (plan h)) ∨
      slotVal s ((d * 24 + h) * 4 + q) = plan h ∧ Usable u (plan h) ∧ plan h ≠ 0 := by
    intro d h q hd hh hq
    have hj : (d * 24 + h) * 4 + q < 672 := by omega
    obtain ⟨g1, g2⟩ := f4 _ hj
    by_cases hu : Usable u (plan h)
    · have := g1 d h q ((mem_weekTimes d h q).2 ⟨hd, hh, hq⟩) rfl hu
      by_cases h0 : plan h = 0
      · exact Or.inl ⟨this.trans h0, Or.inl h0⟩
      · exact Or.inr ⟨this, hu, h0⟩
    · refine Or.inl ⟨?_, Or.inr hu⟩
      rw [g2 ?_]
      · have : slotVal u ((d * 24 + h) * 4 + q) = slotVal Sched.zero ((d * 24 + h) * 4 + q) := by
          unfold slotVal; rw [e2]
        rw [this]
        exact zero_slots _ hj
      · intro d' h' q' hm' he hu'
        have := (mem_weekTimes d' h' q').1 hm'
        have hhh : h' = h := by omega
        subst hhh
        exact hu hu'
  refine ⟨u, s, e1, f1, f2, ⟨?_, ?_⟩, ?_⟩
  · intro p hpm
    rw [f3] at hpm
    obtain ⟨k, hk, he⟩ := List.mem_iff_getElem.mp hpm
    have hx := e5 k (by omega)
    rw [List.getElem?_eq_getElem hk, he] at hx
    by_cases hr : k < ps.length
    · rw [dif_pos hr] at hx
      cases hv : progValid e alt (ps[k]'hr) with
      | true =>
        rw [hv, if_pos rfl] at hx
        rw [Option.some.inj hx]; exact hv
      | false =>
        rw [hv, if_neg Bool.false_ne_true] at hx
        rw [Option.some.inj hx]; rfl
    · rw [dif_neg hr] at hx
      rw [Option.some.inj hx]; rfl
  · intro j hj
    have hjj : j = (j / 96 * 24 + j / 4 % 24) * 4 + j % 4 := by omega
    have hcase := hslot (j / 96) (j / 4 % 24) (j % 4) (by omega) (by omega) (by omega)
    rw [← hjj] at hcase
    rcases hcase with ⟨r, _⟩ | ⟨r, hu, h0⟩
    · exact Or.inl r
    · right
      rw [r, f3]
      rcases hu with q | ⟨_, h4, q, hq, hq0, _⟩
      · exact absurd q h0
      · exact ⟨q, hq, hq0, h4⟩
  · intro d h q hd hh hq
    have hj : (d * 24 + h) * 4 + q < 672 := by omega
    rw [calcIndex_nat d h q hd hh hq, programAt_slot s f2 _ hj]
    rcases hslot d h q hd hh hq with ⟨r, hn⟩ | ⟨r, hu, h0⟩
    · rw [r]
      refine congrArg some ?_
      rcases hn with hn | hn
      · rw [if_pos hn]; rfl
      · by_cases h0 : plan h = 0
        · rw [if_pos h0]; rfl
        · have hk : plan h - 1 < ps.length := by have := hp h; omega
          rw [if_neg h0, List.getElem?_eq_getElem hk]
          refine (if_neg (fun hv => hn ((usable (plan h) (by omega) (hp h)).2 ⟨hk, hv⟩))).symm
    · obtain ⟨hk, hv⟩ := (usable (plan h) (by omega) (hp h)).1 hu
      have hx := e5 (plan h - 1) (by omega)
      rw [dif_pos hk, if_pos hv] at hx
      rw [r, if_neg h0, List.getElem?_eq_getElem hk]
      have h4 := hp h
      rw [← f3] at hx
      have hgoal : some (inForce e alt (some ps[plan h - 1])) = s.prog[plan h - 1]? := by
        rw [hx]
        exact congrArg some (if_pos hv)
      rw [hgoal]
      generalize plan h = n at h0 h4
      cases n with
      | zero => exact absurd rfl h0
      | succ m =>
        dsimp only
        rw [if_neg (by unfold maxPrograms; omega)]
        rfl

theorem defPlan_le (alt : Bool) (h : Nat) : defPlan alt h ≤ if alt then 1 else 2 := by
  unfold defPlan
  cases alt
  · rw [if_neg Bool.false_ne_true, if_neg Bool.false_ne_true]
    split <;> decide
  · rw [if_pos rfl, if_pos rfl]
    split <;> decide

theorem defPrograms_ok (fn : Fn) (alt : Bool) : (defPrograms fn alt).length ≤ 4 ∧ (∀ p ∈ defPrograms fn alt, p.mode ≠ 0 ∧ p.mode ≤ 7) ∧
    (hasPlan fn alt = true → (defPrograms fn alt).length = 4) ∧ (hasPlan fn alt = false → defPrograms fn alt = []) := by
  cases fn <;> cases alt <;> decide

theorem planned_eq (fn : Fn) (alt : Bool) (h : Nat) (hp : hasPlan fn alt = true) :
    (if defPlan alt h = 0 then none else (defPrograms fn alt)[defPlan alt h - 1]?) = planned fn alt h := by
  by_cases hh : 6 ≤ h ∧ h < 21
  · have h1 : defPlan alt h = if alt then 1 else 2 := by
      unfold defPlan
      rw [if_pos hh, if_pos hh]
    rw [h1]
    cases fn <;> cases alt <;> first
      | exact absurd hp (by decide)
      | (dsimp only [planned]; rw [if_pos hh]; rfl)
  · have h1 : defPlan alt h = if alt then 0 else 1 := by
      unfold defPlan
      rw [if_neg hh, if_neg hh]
    rw [h1]
    cases fn <;> cases alt <;> first
      | exact absurd hp (by decide)
      | (dsimp only [planned]; rw [if_neg hh]; rfl)

/-- The default week.  For every function and all limits of the device it is consistent, and at every time
of the week the planned program is in force if the device can do it, and off otherwise. -/
theorem default_week (e : Env) (fn : Fn) (alt : Bool) : ∃ s, defaultSched e fn alt = some s ∧ s.WF ∧ Consistent e alt s ∧
    ∀ d h q : Nat, d < 7 → h < 24 → q < 4 → programAt s (calcIndex d h q) = some (inForce e alt (planned fn alt h)) := by
  obtain ⟨o1, o2, o3, o4⟩ := defPrograms_ok fn alt
  unfold defaultSched
  cases hp : hasPlan fn alt with
  | true =>
    have hl := o3 hp
    obtain ⟨u, s, e1, e2, e3, e4, e5⟩ := default_general e alt (defPrograms fn alt) (defPlan alt) o1 o2 (fun h => by
      rw [hl]
      have := defPlan_le alt h
      cases alt <;> simp at this <;> omega)
    rw [e1]
    refine ⟨s, ?_, e3, e4, fun d h q hd hh hq => ?_⟩
    · dsimp only
      rw [if_pos rfl]; exact e2
    · rw [e5 d h q hd hh hq, planned_eq fn alt h hp]
  | false =>
    rw [o4 hp]
    refine ⟨Sched.zero, rfl, zero_wf, zero_consistent e alt, fun d h q hd hh hq => ?_⟩
    rw [calcIndex_nat d h q hd hh hq, programAt_slot _ zero_wf _ (by omega), zero_slots _ (by omega)]
    refine congrArg some ?_
    cases fn <;> cases alt <;> first
      | exact absurd hp (by decide)
      | rfl

/-! ### Default limits -/

/-- The limits and modes of a device with the default settings of hvac_base.h: temperatures between the
limits of the function, 3 and 7 degrees between heating and cooling allowed, the modes of the function. -/
structure Usual (e : Env) (fn : Fn) : Prop where
  thermostat : e.thermostat = decide (fn = .thermostat)
  heatCool : fn = .thermostat → e.heatCool = true
  modes : fn = .heatCool → e.modeOk 4 = true
  heats : fn = .differential ∨ fn = .dhw → e.modeOk 2 = true
  tMin : e.tMin = if fn = .differential then -5000 else if fn = .dhw then 1000 else 500
  tMax : e.tMax = if fn = .differential then 5000 else if fn = .dhw then 7500 else 4000
  offMin : e.offMin ≤ 300
  offMax : 700 ≤ e.offMax

/-- With the default settings every planned program is in force. -/
theorem default_hours (e : Env) (fn : Fn) (alt : Bool) (hu : Usual e fn) : ∃ s, defaultSched e fn alt = some s ∧
    ∀ d h q : Nat, d < 7 → h < 24 → q < 4 → programAt s (calcIndex d h q) = some ((planned fn alt h).getD offProgram) := by
  obtain ⟨s, e1, _, _, e4⟩ := default_week e fn alt
  refine ⟨s, e1, fun d h q hd hh hq => ?_⟩
  rw [e4 d h q hd hh hq]
  refine congrArg some ?_
  have key : ∀ p, planned fn alt h = some p → progValid e alt p = true := by
    obtain ⟨u1, u2, u3, u4, u5, u6, u7, u8⟩ := hu
    intro p hp
    clear e1 e4
    by_cases hday : 6 ≤ h ∧ h < 21
    · cases fn <;> cases alt <;> dsimp only [planned] at hp <;> first
        | (simp only [reduceCtorEq] at hp; done)
        | (rw [if_pos hday] at hp; cases Option.some.inj hp; simp at u1 u5 u6; simp_all [progValid, Env.inRoom]; done)
        | (rw [if_pos hday] at hp; cases Option.some.inj hp; simp at u1 u5 u6; simp_all [progValid, Env.inRoom]; omega)
    · cases fn <;> cases alt <;> dsimp only [planned] at hp <;> first
        | (simp only [reduceCtorEq] at hp; done)
        | (rw [if_neg hday] at hp; cases Option.some.inj hp; simp at u1 u5 u6; simp_all [progValid, Env.inRoom]; done)
        | (rw [if_neg hday] at hp; cases Option.some.inj hp; simp at u1 u5 u6; simp_all [progValid, Env.inRoom]; omega)
        | (rw [if_neg hday] at hp; exact absurd hp.symm (Option.some_ne_none p))
  cases hp : planned fn alt h with
  | none => rfl
  | some p => exact if_pos (key p hp)

/-- A device with the default limits. -/
def homeEnv : Env := ⟨true, true, fun _ => true, 500, 4000, 200, 1000⟩

theorem homeEnv_usual : Usual homeEnv .thermostat :=
  ⟨by decide, fun _ => rfl, (fun h => by cases h), fun h => (by rcases h with h | h <;> cases h), by decide, by decide, by decide, by decide⟩

/-- Monday 12:00: 21 degrees; 23:00: 19 degrees; cooling only during the day. -/
example : planned .thermostat false 12 = some ⟨2, 2100, 0⟩ ∧ planned .thermostat false 23 = some ⟨2, 1900, 0⟩ ∧
    planned .thermostat true 12 = some ⟨3, 0, 2400⟩ ∧ planned .thermostat true 23 = none := by decide

/-- The full claim: whatever the limits, the default week heats at every hour. -/
def DefaultHeats : Prop :=
  ∀ (e : Env), e.thermostat = true → e.heatCool = true → e.tMin ≤ 2100 → 2100 ≤ e.tMax →
    ∃ s, defaultSched e .thermostat false = some s ∧
      ∀ d h q : Nat, d < 7 → h < 24 → q < 4 → ∃ p, programAt s (calcIndex d h q) = some p ∧ p.mode = 2

/-- For every lower limit above 19 degrees the default week is off from 21:00 to 6:00. -/
theorem night_off (e : Env) (h1 : 1900 < e.tMin) : ∃ s, defaultSched e .thermostat false = some s ∧
    ∀ d h q : Nat, d < 7 → h < 24 → q < 4 → ¬ (6 ≤ h ∧ h < 21) → programAt s (calcIndex d h q) = some offProgram := by
  obtain ⟨s, e1, _, _, e4⟩ := default_week e .thermostat false
  refine ⟨s, e1, fun d h q hd hh hq hn => ?_⟩
  rw [e4 d h q hd hh hq]
  dsimp only [planned]
  rw [if_neg hn]
  have hv : progValid e false ⟨2, 1900, 0⟩ = false := by
    have hr : e.inRoom 1900 = false := decide_eq_false (fun q => by have := q.2.1; omega)
    simp [progValid, hr]
  refine congrArg some (if_neg ?_)
  rw [hv]
  exact Bool.false_ne_true

/-- A lower limit of 20 degrees, as in a nursery: no heating at night. -/
theorem night_violation : ¬ DefaultHeats := by
  intro h
  obtain ⟨s, e1, e2⟩ := h { homeEnv with tMin := 2000 } rfl rfl (by decide) (by decide)
  obtain ⟨s', f1, f2⟩ := night_off { homeEnv with tMin := 2000 } (by decide)
  rw [f1] at e1
  cases e1
  obtain ⟨p, g1, g2⟩ := e2 0 0 0 (by decide) (by decide) (by decide)
  rw [f2 0 0 0 (by decide) (by decide) (by decide) (by decide)] at g1
  cases g1
  cases g2

/-! ### After a start -/

/-- What is in storage has the size of the structure and program numbers up to 4. -/
def Sound (stored : Option Sched) : Prop := ∀ x, stored = some x → x.WF ∧ ∀ j, j < 672 → slotVal x j ≤ 4

/-- A usable schedule is in storage. -/
def Good (e : Env) (alt : Bool) (stored : Option Sched) : Prop := ∃ x, stored = some x ∧ Consistent e alt x

/-- The right schedule after a start: the stored one if it can be used, otherwise the default one. -/
def Chosen (e : Env) (fn : Fn) (alt : Bool) (stored : Option Sched) (s : Sched) : Prop :=
  (Good e alt stored → stored = some s) ∧ (¬ Good e alt stored → defaultSched e fn alt = some s)

theorem loadOne_spec (e : Env) (alt : Bool) (stored : Option Sched) (h : Sound stored) :
    ∃ s b, loadOne e alt stored = some (s, b) ∧ (b = true ↔ Good e alt stored) ∧ stored.getD Sched.zero = s := by
  cases stored with
  | none => exact ⟨_, _, rfl, ⟨(fun q => by cases q), fun q => by obtain ⟨x, q, _⟩ := q; cases q⟩, rfl⟩
  | some x =>
    obtain ⟨b, b1, b2⟩ := validation_partial e alt x (h x rfl).1 (h x rfl).2
    refine ⟨x, b, ?_, ?_, rfl⟩
    · unfold loadOne
      dsimp only
      rw [b1]
      rfl
    · rw [b2]
      exact ⟨fun q => ⟨x, rfl, q⟩, fun q => by obtain ⟨y, y1, y2⟩ := q; cases y1; exact y2⟩

/-- What a start does: if one of the schedules that apply can be used, both stay as stored (all off if
nothing is stored); otherwise both are the default ones. -/
theorem started_eq (e : Env) (fn : Fn) (main alt : Option Sched) (hm : Sound main) (ha : Sound alt) :
    ∃ m a, started e fn main alt = some (m, a) ∧
      (Good e false main ∨ (fn = .thermostat ∧ Good e true alt) →
        m = main.getD Sched.zero ∧ a = if fn = .thermostat then alt.getD Sched.zero else Sched.zero) ∧
      (¬ (Good e false main ∨ (fn = .thermostat ∧ Good e true alt)) →
        defaultSched e fn false = some m ∧ defaultSched e fn true = some a) := by
  obtain ⟨m, cm, m1, m2, m3⟩ := loadOne_spec e false main hm
  obtain ⟨dm, dm1, _⟩ := default_week e fn false
  obtain ⟨da, da1, _⟩ := default_week e fn true
  have hA : ∃ a ca, (if fn = .thermostat then loadOne e true alt else some (Sched.zero, false)) = some (a, ca) ∧
      (ca = true ↔ fn = .thermostat ∧ Good e true alt) ∧ a = if fn = .thermostat then alt.getD Sched.zero else Sched.zero := by
    by_cases hf : fn = .thermostat
    · obtain ⟨a, ca, a1, a2, a3⟩ := loadOne_spec e true alt ha
      refine ⟨a, ca, by rw [if_pos hf, a1], ?_, by rw [if_pos hf, a3]⟩
      rw [a2]
      exact ⟨fun q => ⟨hf, q⟩, fun q => q.2⟩
    · exact ⟨_, _, by rw [if_neg hf], ⟨(fun q => by cases q), fun q => absurd q.1 hf⟩, by rw [if_neg hf]⟩
  obtain ⟨a, ca, a1, a2, a3⟩ := hA
  unfold started
  rw [m1, a1]
  dsimp only
  rw [← m2, ← a2]
  by_cases hc : cm = true ∨ ca = true
  · rw [if_pos (by rw [Bool.or_eq_true]; exact hc)]
    exact ⟨m, a, rfl, fun _ => ⟨m3.symm, a3⟩, fun q => absurd hc q⟩
  · rw [if_neg (by rw [Bool.or_eq_true]; exact hc), dm1, da1]
    exact ⟨dm, da, rfl, fun q => absurd q hc, fun _ => ⟨rfl, rfl⟩⟩

/-- The full claim: after a start each schedule that applies is the stored one if that can be used and the
default one otherwise, and both are consistent. -/
def StartRight : Prop :=
  ∀ (e : Env) (fn : Fn) (main alt : Option Sched), Sound main → Sound alt →
    ∃ m a, started e fn main alt = some (m, a) ∧ Chosen e fn false main m ∧ (fn = .thermostat → Chosen e fn true alt a) ∧
      Consistent e false m ∧ Consistent e true a

/-- It holds for all functions with one schedule, and for a thermostat if both stored schedules can be used
or neither. -/
theorem start_partial (e : Env) (fn : Fn) (main alt : Option Sched) (hm : Sound main) (ha : Sound alt)
    (hb : fn ≠ .thermostat ∨ (Good e false main ↔ Good e true alt)) :
    ∃ m a, started e fn main alt = some (m, a) ∧ Chosen e fn false main m ∧ (fn = .thermostat → Chosen e fn true alt a) ∧
      Consistent e false m ∧ Consistent e true a := by
  obtain ⟨m, a, h1, h2, h3⟩ := started_eq e fn main alt hm ha
  refine ⟨m, a, h1, ?_⟩
  by_cases hg : Good e false main
  · obtain ⟨x2, x3⟩ := h2 (Or.inl hg)
    obtain ⟨x, g1, g2⟩ := id hg
    have hx : m = x := by rw [x2, g1]; rfl
    subst hx
    refine ⟨⟨fun _ => g1, fun q => absurd hg q⟩, ?_⟩
    by_cases hf : fn = .thermostat
    · have hga := (hb.resolve_left (fun q => q hf)).1 hg
      obtain ⟨y, y1, y2⟩ := id hga
      rw [if_pos hf, y1] at x3
      have hy : a = y := x3
      subst hy
      exact ⟨fun _ => ⟨fun _ => y1, fun q => absurd hga q⟩, g2, y2⟩
    · rw [if_neg hf] at x3
      subst x3
      exact ⟨fun q => absurd q hf, g2, zero_consistent e true⟩
  · have hn : ¬ (Good e false main ∨ (fn = .thermostat ∧ Good e true alt)) := by
      intro q
      rcases q with q | ⟨q1, q2⟩
      · exact hg q
      · exact hg ((hb.resolve_left (fun w => w q1)).2 q2)
    obtain ⟨d1, d2⟩ := h3 hn
    obtain ⟨s1, f1, _, f3, _⟩ := default_week e fn false
    obtain ⟨s2, k1, _, k3, _⟩ := default_week e fn true
    rw [d1] at f1
    rw [d2] at k1
    cases f1
    cases k1
    refine ⟨⟨fun q => absurd q hg, fun _ => d1⟩, fun hf => ⟨fun q => absurd (Or.inr ⟨hf, q⟩) hn, fun _ => d2⟩, f3, k3⟩

theorem zero_sound : Sound (some Sched.zero) := by
  intro x hx
  cases hx
  exact ⟨zero_wf, fun j hj => by rw [zero_slots j hj]; decide⟩

theorem none_sound : Sound none := fun x hx => by cases hx

/-- A first start. -/
example : ¬ Good homeEnv false none ∧ ¬ Good homeEnv true none :=
  ⟨(fun h => by obtain ⟨x, h, _⟩ := h; cases h), fun h => by obtain ⟨x, h, _⟩ := h; cases h⟩

/-- For every thermostat with a usable main schedule and nothing stored for cooling (the device was
configured before it had an alternative schedule): cooling is off all week, not the default. -/
theorem alt_missing (e : Env) (x : Sched) (hx : Sound (some x)) (hc : Consistent e false x) :
    started e .thermostat (some x) none = some (x, Sched.zero) := by
  obtain ⟨m, a, h1, h2, _⟩ := started_eq e .thermostat (some x) none hx none_sound
  obtain ⟨q1, q2⟩ := h2 (Or.inl ⟨x, rfl, hc⟩)
  rw [if_pos rfl] at q2
  rw [h1, q1, q2]
  rfl

theorem alt_missing_violation : ¬ StartRight := by
  intro h
  obtain ⟨m, a, h1, _, h3, _⟩ := h homeEnv .thermostat (some Sched.zero) none zero_sound none_sound
  rw [alt_missing homeEnv Sched.zero zero_sound (zero_consistent _ _)] at h1
  cases h1
  have d := (h3 rfl).2 (fun g => by obtain ⟨x, g, _⟩ := g; cases g)
  obtain ⟨s, e1, e2⟩ := default_hours homeEnv .thermostat true homeEnv_usual
  rw [d] at e1
  cases e1
  have p := e2 0 12 0 (by decide) (by decide) (by decide)
  rw [calcIndex_nat 0 12 0 (by decide) (by decide) (by decide), programAt_slot _ zero_wf _ (by decide), zero_slots _ (by decide)] at p
  cases p

/-- For every thermostat with a usable alternative schedule: an unusable main schedule is kept and used. -/
theorem main_kept (e : Env) (x y : Sched) (hx : Sound (some x)) (hy : Sound (some y)) (hc : Consistent e true y) :
    started e .thermostat (some x) (some y) = some (x, y) := by
  obtain ⟨m, a, h1, h2, _⟩ := started_eq e .thermostat (some x) (some y) hx hy
  obtain ⟨q1, q2⟩ := h2 (Or.inr ⟨rfl, y, rfl, hc⟩)
  rw [if_pos rfl] at q2
  rw [h1, q1, q2]
  rfl

/-- A stored week with 60 degrees. -/
def hot : Sched := ⟨[⟨2, 6000, 0⟩, ⟨0, 0, 0⟩, ⟨0, 0, 0⟩, ⟨0, 0, 0⟩], List.replicate 336 17⟩

theorem hot_wf : hot.WF := ⟨by decide, by decide +kernel, by decide +kernel⟩

theorem hot_slots : ∀ j, j < 672 → slotVal hot j = 1 := by decide +kernel

theorem hot_sound : Sound (some hot) := by
  intro x hx
  cases hx
  exact ⟨hot_wf, fun j hj => by rw [hot_slots j hj]; decide⟩

theorem hot_bad : ¬ Consistent homeEnv false hot := by
  intro h
  have := h.1 ⟨2, 6000, 0⟩ (List.mem_cons_self ..)
  revert this
  decide

/-- A stored main schedule of 60 degrees, beyond the limit of the device, is in force all week although it
was found invalid. -/
theorem main_invalid_violation : ¬ StartRight ∧ started homeEnv .thermostat (some hot) (some Sched.zero) = some (hot, Sched.zero) ∧
    ¬ Consistent homeEnv false hot ∧ ∀ d h q : Nat, d < 7 → h < 24 → q < 4 → programAt hot (calcIndex d h q) = some ⟨2, 6000, 0⟩ := by
  refine ⟨?_, main_kept _ _ _ hot_sound zero_sound (zero_consistent _ _), hot_bad, ?_⟩
  · intro h
    obtain ⟨m, a, h1, _, _, h4, _⟩ := h homeEnv .thermostat (some hot) (some Sched.zero) hot_sound zero_sound
    rw [main_kept _ _ _ hot_sound zero_sound (zero_consistent _ _)] at h1
    cases h1
    exact hot_bad h4
  · intro d h q hd hh hq
    have hj : (d * 24 + h) * 4 + q < 672 := by omega
    rw [calcIndex_nat d h q hd hh hq, programAt_slot _ hot_wf _ hj, hot_slots _ hj]
    rfl

end Verif.Hvac.Schedule
