import Verif.Condition.Model

/-!
# C21: conditions fire once per crossing
-/

namespace Verif.Condition

/-! ## Specification -/

/-- A reading of a channel satisfies the condition the user wrote. -/
def Sat (ty : ChType) (useAlt : Bool) : Kind → Reading → Prop := fun k r =>
  ∃ v, valueOf ty useAlt r = some v ∧
    match k with
    | .less th => validOf ty useAlt v ∧ ∃ a b, v = .num a ∧ th = .num b ∧ a < b
    | .lessEq th => validOf ty useAlt v ∧ ∃ a b, v = .num a ∧ th = .num b ∧ a ≤ b
    | .greater th => validOf ty useAlt v ∧ ∃ a b, v = .num a ∧ th = .num b ∧ a > b
    | .greaterEq th => validOf ty useAlt v ∧ ∃ a b, v = .num a ∧ th = .num b ∧ a ≥ b
    | .between lo hi => validOf ty useAlt v
        ∧ ∃ a l h, v = .num a ∧ lo = .num l ∧ hi = .num h ∧ l < a ∧ a < h
    | .betweenEq lo hi => validOf ty useAlt v
        ∧ ∃ a l h, v = .num a ∧ lo = .num l ∧ hi = .num h ∧ l ≤ a ∧ a ≤ h
    | .equal th => validOf ty useAlt v ∧ ∃ a, v = .num a ∧ th = .num a
    | .invalid => ¬ validOf ty useAlt v

/-- Steps of a history: a new reading is published, or the user changes the threshold (which also
re-evaluates the condition on the current reading, condition.cpp lines 162-167). -/
inductive Step
  | reading (r : Reading)
  | setKind (k : Kind) (r : Reading)

/-- The model run over a history: whether the action was run at each step. -/
def fires (ty : ChType) : Cond → List Step → List Bool
  | _, [] => []
  | c, .reading r :: rest =>
    let q := onChange c ty r
    q.2 :: fires ty q.1 rest
  | c, .setKind k r :: rest =>
    let q := onChange { c with kind := k } ty r
    q.2 :: fires ty q.1 rest

/-- For each step of a history, is the condition (as configured then) satisfied? -/
noncomputable def truth (ty : ChType) (useAlt : Bool) : Kind → List Step → List Bool
  | _, [] => []
  | k, .reading r :: rest => (open Classical in decide (Sat ty useAlt k r)) :: truth ty useAlt k rest
  | _, .setKind k r :: rest =>
    (open Classical in decide (Sat ty useAlt k r)) :: truth ty useAlt k rest

/-- Rising edges of a list of truth values, `prev` being the value before it. -/
def edges (prev : Bool) : List Bool → List Bool
  | [] => []
  | b :: rest => (b && !prev) :: edges b rest

/-! ## Proofs -/

theorem lt_iff (a b : V) : a.lt b = true ↔ ∃ x y, a = .num x ∧ b = .num y ∧ x < y := by
  cases a <;> cases b <;> simp [V.lt]

theorem le_iff (a b : V) : a.le b = true ↔ ∃ x y, a = .num x ∧ b = .num y ∧ x ≤ y := by
  cases a <;> cases b <;> simp [V.le]

theorem eq_iff (a b : V) : a.eq b = true ↔ ∃ x, a = .num x ∧ b = .num x := by
  cases a <;> cases b <;> simp [V.eq]
  exact eq_comm

/-- `condition` is what the user wrote. -/
theorem holds_iff (ty : ChType) (useAlt : Bool) (k : Kind) (r : Reading) (v : V)
    (hv : valueOf ty useAlt r = some v) : holds k v (validOf ty useAlt v) = true ↔ Sat ty useAlt k r := by
  unfold Sat
  simp only [hv, Option.some.injEq]
  constructor
  · intro h
    refine ⟨v, rfl, ?_⟩
    cases k <;> simp only [holds] at h
    case invalid => simpa using h
    all_goals
      split at h
      · rename_i hval
        refine ⟨hval, ?_⟩
        first
          | (obtain ⟨x, y, h1, h2, h3⟩ := (lt_iff _ _).mp h; first | exact ⟨x, y, h1, h2, h3⟩ | exact ⟨y, x, h2, h1, h3⟩)
          | (obtain ⟨x, y, h1, h2, h3⟩ := (le_iff _ _).mp h; first | exact ⟨x, y, h1, h2, h3⟩ | exact ⟨y, x, h2, h1, h3⟩)
          | (obtain ⟨x, h1, h2⟩ := (eq_iff _ _).mp h; exact ⟨x, h1, h2⟩)
          | (rw [Bool.and_eq_true] at h
             first
               | (obtain ⟨x, y, h1, h2, h3⟩ := (lt_iff _ _).mp h.1
                  obtain ⟨x', y', h1', h2', h3'⟩ := (lt_iff _ _).mp h.2
                  have e := h2.symm.trans h1'
                  injection e with e
                  subst e
                  exact ⟨y, x, y', h2, h1, h2', h3, h3'⟩)
               | (obtain ⟨x, y, h1, h2, h3⟩ := (le_iff _ _).mp h.1
                  obtain ⟨x', y', h1', h2', h3'⟩ := (le_iff _ _).mp h.2
                  have e := h2.symm.trans h1'
                  injection e with e
                  subst e
                  exact ⟨y, x, y', h2, h1, h2', h3, h3'⟩))
      · exact absurd h (by decide)
  · rintro ⟨v', rfl, h⟩
    cases k <;> simp only [holds] at h ⊢
    case invalid => simpa using h
    all_goals
      rw [if_pos h.1]
      first
        | (obtain ⟨_, a, b, h1, h2, h3⟩ := h; rw [h1, h2]; simp only [V.lt, V.le]; simpa using h3)
        | (obtain ⟨_, a, h1, h2⟩ := h; rw [h1, h2]; simp [V.eq])
        | (obtain ⟨_, a, b, d, h1, h2, h3, h4, h5⟩ := h; rw [h1, h2, h3]; simp [V.lt, V.le, h4, h5])

/-- `checkConditionFor` keeps the truth of the latest evaluation and reports rising edges. -/
theorem check_eq (fired : Bool) (k : Kind) (v : V) (ok : Bool) :
    check fired k v ok = (holds k v ok, holds k v ok && !fired) := by
  unfold check
  cases fired <;> cases holds k v ok <;> rfl

theorem onChange_eq (c : Cond) (ty : ChType) (hty : ty ≠ .other) (r : Reading) :
    ∃ b, (onChange c ty r).1 = { c with fired := b } ∧ (onChange c ty r).2 = (b && !c.fired)
      ∧ (b = true ↔ Sat ty c.useAlt c.kind r) := by
  have hsome : ∃ v, valueOf ty c.useAlt r = some v := by
    cases ty <;> simp [valueOf] at hty ⊢
  obtain ⟨v, hv⟩ := hsome
  refine ⟨holds c.kind v (validOf ty c.useAlt v), ?_, ?_, holds_iff _ _ _ _ _ hv⟩
  · simp [onChange, hv, check_eq]
  · simp [onChange, hv, check_eq]

/-- C21: over every history of readings and threshold changes, the action is run exactly at the steps
where the condition is satisfied and was not satisfied at the step before (or there is none). -/
theorem condition_edges (ty : ChType) (hty : ty ≠ .other) : ∀ (h : List Step) (c : Cond),
    fires ty c h = edges c.fired (truth ty c.useAlt c.kind h) := by
  intro h
  induction h with
  | nil => intro c; rfl
  | cons s rest ih =>
    intro c
    cases s with
    | reading r =>
      obtain ⟨b, h1, h2, h3⟩ := onChange_eq c ty hty r
      simp only [fires, truth, edges]
      have hb : (open Classical in decide (Sat ty c.useAlt c.kind r)) = b := by
        cases b
        · simp at h3 ⊢; exact h3
        · simp at h3 ⊢; exact h3
      rw [hb, h1, h2, ih]
    | setKind k r =>
      obtain ⟨b, h1, h2, h3⟩ := onChange_eq { c with kind := k } ty hty r
      simp only [fires, truth, edges]
      have hb : (open Classical in decide (Sat ty c.useAlt k r)) = b := by
        cases b
        · simp at h3 ⊢; exact h3
        · simp at h3 ⊢; exact h3
      rw [hb, h1, h2, ih]

/-- The same in words for one reading after a history of readings with a fixed threshold: the action
runs iff the reading satisfies the condition and there was no reading before, or the one before it did
not. -/
theorem fires_iff (ty : ChType) (hty : ty ≠ .other) (k : Kind) (useAlt : Bool) (pre : List Reading)
    (r : Reading) :
    (fires ty { kind := k, useAlt := useAlt, fired := false } ((pre ++ [r]).map .reading)).getLast? = some true
    ↔ Sat ty useAlt k r ∧ (∀ q, pre.getLast? = some q → ¬ Sat ty useAlt k q) := by
  rw [condition_edges ty hty]
  simp only
  have htr : ∀ l : List Reading, truth ty useAlt k (l.map .reading)
      = l.map (fun r => open Classical in decide (Sat ty useAlt k r)) := by
    intro l
    induction l with
    | nil => rfl
    | cons x xs ih => simp [truth, ih]
  rw [htr]
  have hed : ∀ (l : List Bool) (b p : Bool), (edges p (l ++ [b])).getLast?
      = some (b && !(l.getLast?.getD p)) := by
    intro l
    induction l with
    | nil => intro b p; simp [edges]
    | cons x xs ih =>
      intro b p
      simp only [List.cons_append, edges, List.getLast?_cons, ih, Option.getD_some]
  rw [List.map_append, List.map_singleton, hed]
  cases hl : pre.getLast? with
  | none => simp [hl]
  | some q => simp [hl]

/-- On channel types without a readable value nothing ever fires. -/
theorem never_fires_other (h : List Step) : ∀ c, fires .other c h = h.map (fun _ => false) := by
  induction h with
  | nil => intro c; rfl
  | cons s rest ih => intro c; cases s <;> simp [fires, onChange, valueOf, ih]

/-- Publishing the same reading twice changes nothing: so it does not matter that channels do not
announce unchanged values. -/
theorem repeat_silent (c : Cond) (ty : ChType) (hty : ty ≠ .other) (r : Reading) :
    onChange (onChange c ty r).1 ty r = ((onChange c ty r).1, false) := by
  obtain ⟨b, h1, h2, h3⟩ := onChange_eq c ty hty r
  obtain ⟨b', h1', h2', h3'⟩ := onChange_eq (onChange c ty r).1 ty hty r
  have hb : b' = b := by
    have e : (onChange c ty r).1.kind = c.kind ∧ (onChange c ty r).1.useAlt = c.useAlt := by
      rw [h1]; exact ⟨rfl, rfl⟩
    rw [e.1, e.2] at h3'
    cases b <;> cases b' <;> simp_all
  subst hb
  apply Prod.ext
  · rw [h1', h1]
  · rw [h2', h1]; cases b' <;> rfl

/-- A thermometer with "below 10 degrees": 20, 9, 8, invalid, 9, 15, 10. -/
example : fires .thermometer { kind := .less (.num 10000), useAlt := false, fired := false }
    ([.num 20000, .num 9000, .num 8000, .num (-275000), .num 9000, .num 15000, .num 10000].map
      (fun v => .reading { main := v, alt := .nan }))
    = [false, true, false, false, true, false, false] := by decide +kernel

example : Sat .thermometer false (.less (.num 10000)) { main := .num 9000, alt := .nan } :=
  ⟨.num 9000, rfl, by decide, 9000, 10000, rfl, rfl, by decide⟩

example : ¬ Sat .thermometer false (.less (.num 10000)) { main := .num (-275000), alt := .nan } := by
  rintro ⟨v, hv, h, _⟩
  simp [valueOf] at hv
  subst hv
  exact absurd h (by decide)

end Verif.Condition
