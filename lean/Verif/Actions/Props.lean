import Verif.Actions.Spec

/-! # C22: local action dispatch -/

namespace Verif.Actions

/-! ## Each call acts on each registration by itself -/

/-- Effect of a call on one registration; `none`: removed. -/
def stepReg (w : World) (r : Reg) : Op → Option Reg
  | .add .. => some r
  | .disable t a c e => some (if matchesAction r t a c e then r.disable else r)
  | .enable t a c e => some (if matchesAction r t a c e then r.enable else r)
  | .disableOthers t c e => some
      (if r.trigger == t && r.event == e % 65536 && r.client != some c then r.disable else r)
  | .enableOthers t c e => some
      (if r.trigger == t && r.event == e % 65536 && r.client != some c then r.enable else r)
  | .deleteHandledBy c => if handledBy w c r then none else some r
  | .deleteTriggeredBy t => if r.trigger == t then none else some r
  | .destroyHandler c => some
      (match r.client with
       | some x => if x = c ∨ w.real x = c then { r with client := none } else r
       | none => r)

/-- The registration added by a call. -/
def added : Op → List Reg
  | .add t c e a al =>
    [{ trigger := t, client := some c, event := e % 65536, action := a % 65536, enabled := true, always := al }]
  | _ => []

/-- Condition objects in use by the registrations. -/
def condsIn (w : World) (regs : List Reg) : List Nat :=
  regs.filterMap (fun r => match r.client with
    | some c => if w.isCond c then some c else none
    | none => none)

theorem splitFirst_some {p : Reg → Bool} : ∀ {l a x b}, splitFirst p l = some (a, x, b) →
    l = a ++ x :: b ∧ p x = true ∧ ∀ r ∈ a, p r = false := by
  intro l
  induction l with
  | nil => intro a x b h; simp [splitFirst] at h
  | cons r rest ih =>
    intro a x b h
    simp only [splitFirst] at h
    by_cases hp : p r = true
    · rw [if_pos hp] at h
      simp only [Option.some.injEq, Prod.mk.injEq] at h
      obtain ⟨rfl, rfl, rfl⟩ := h
      exact ⟨rfl, hp, by simp⟩
    · rw [if_neg hp] at h
      cases hs : splitFirst p rest with
      | none => rw [hs] at h; simp at h
      | some q =>
        obtain ⟨a', x', b'⟩ := q
        rw [hs] at h
        simp only [Option.some.injEq, Prod.mk.injEq] at h
        obtain ⟨rfl, rfl, rfl⟩ := h
        obtain ⟨h1, h2, h3⟩ := ih hs
        refine ⟨by rw [h1]; rfl, h2, ?_⟩
        intro q hq
        rcases List.mem_cons.mp hq with rfl | hq
        · simpa using hp
        · exact h3 q hq

theorem splitFirst_none {p : Reg → Bool} : ∀ {l}, splitFirst p l = none → ∀ r ∈ l, p r = false := by
  intro l
  induction l with
  | nil => intro _ r hr; simp at hr
  | cons x rest ih =>
    intro h r hr
    simp only [splitFirst] at h
    by_cases hp : p x = true
    · rw [if_pos hp] at h; simp at h
    · rw [if_neg hp] at h
      cases hs : splitFirst p rest with
      | none =>
        rcases List.mem_cons.mp hr with rfl | hr
        · simpa using hp
        · exact ih hs r hr
      | some q => obtain ⟨a', x', b'⟩ := q; rw [hs] at h; simp at h

/-- Nullifying a condition nobody uses changes nothing. -/
theorem nullify_unused (w : World) (c : Nat) (regs : List Reg)
    (h : ∀ r ∈ regs, ∀ x, r.client = some x → x ≠ c ∧ w.real x ≠ c) : nullify w regs c = regs := by
  unfold nullify
  conv => rhs; rw [← List.map_id regs]
  apply List.map_congr_left
  intro r hr
  cases hc : r.client with
  | none => rfl
  | some x =>
    have := h r hr x hc
    simp [this.1, this.2]

/-- A condition is nobody's real client. -/
def World.NoCondReal (w : World) : Prop := ∀ x c, w.isCond c = true → x ≠ c → w.real x ≠ c

theorem deleteNode_eq {w : World} (hw : w.NoCondReal) {a b : List Reg} {x : Reg}
    (hn : (condsIn w (a ++ x :: b)).Nodup) :
    deleteNode w a x b = a ++ b := by
  unfold deleteNode
  cases hc : x.client with
  | none => rfl
  | some c =>
    by_cases hcond : w.isCond c = true
    · simp only [hcond, if_true]
      apply nullify_unused
      intro r hr' y hy
      have hyc : y ≠ c := by
        rintro rfl
        have hx : condsIn w (a ++ x :: b) = condsIn w a ++ y :: condsIn w b := by
          simp [condsIn, hc, hcond]
        have hm : y ∈ condsIn w (a ++ b) := by
          simp only [condsIn, List.mem_filterMap]
          exact ⟨r, hr', by simp [hy, hcond]⟩
        have hab : condsIn w (a ++ b) = condsIn w a ++ condsIn w b := by simp [condsIn]
        rw [hab, List.mem_append] at hm
        rw [hx] at hn
        have h1 := List.nodup_append.mp hn
        rcases hm with hm | hm
        · exact h1.2.2 y hm y (by simp) rfl
        · exact (List.nodup_cons.mp h1.2.1).1 hm
      exact ⟨hyc, hw y c hcond hyc⟩
    · simp [hcond]

theorem condsIn_append (w : World) (a b : List Reg) : condsIn w (a ++ b) = condsIn w a ++ condsIn w b := by
  simp [condsIn]

theorem condsIn_sublist {w : World} {a b : List Reg} (h : a.Sublist b) :
    (condsIn w a).Sublist (condsIn w b) := h.filterMap _

theorem deleteLoop_eq {w : World} (hw : w.NoCondReal)
    (p : Reg → Bool) : ∀ (fuel : Nat) (l : List Reg), l.length ≤ fuel → (condsIn w l).Nodup →
    deleteLoop w p fuel l = l.filter (fun r => !p r) := by
  intro fuel
  induction fuel with
  | zero =>
    intro l hl _
    have : l = [] := List.eq_nil_of_length_eq_zero (by omega)
    subst this; rfl
  | succ fuel ih =>
    intro l hl hn
    simp only [deleteLoop]
    cases hs : splitFirst p l with
    | none =>
      have := splitFirst_none hs
      simp only
      rw [List.filter_eq_self.mpr]
      intro r hr; simp [this r hr]
    | some q =>
      obtain ⟨a, x, b⟩ := q
      obtain ⟨h1, h2, h3⟩ := splitFirst_some hs
      simp only
      rw [h1] at hn
      rw [deleteNode_eq hw hn, ih, h1]
      · simp [h2]
      · rw [h1] at hl; simp only [List.length_append, List.length_cons] at hl ⊢; omega
      · have hsub : (a ++ b).Sublist (a ++ x :: b) :=
          List.Sublist.append_left (List.sublist_cons_self x b) a
        exact List.Nodup.sublist (condsIn_sublist hsub) hn

theorem filterMap_ite_filter {α} (p : α → Bool) (l : List α) :
    l.filterMap (fun r => if p r = true then none else some r) = l.filter (fun r => !p r) := by
  induction l with
  | nil => rfl
  | cons x xs ih =>
    cases hp : p x <;> simp [hp, ih]

theorem Sane.noCondReal {w : World} (h : w.Sane) : w.NoCondReal := by
  intro x c hc hne e
  cases hx : w.isCond x with
  | true => have := h.cond x hx; rw [e, hc] at this; exact absurd this (by decide)
  | false => exact hne ((h.plain x hx).symm.trans e)

theorem step_eq {w : World} (hw : w.Sane) (regs : List Reg) (hn : (condsIn w regs).Nodup) (o : Op) :
    step w regs o = regs.filterMap (fun r => stepReg w r o) ++ added o := by
  cases o with
  | add t c e a al => simp [step, addAction, stepReg, added]
  | disable t a c e =>
    simp only [step, disableAction, stepReg, added, List.append_nil]
    rw [← List.filterMap_eq_map']
  | enable t a c e =>
    simp only [step, enableAction, stepReg, added, List.append_nil]
    rw [← List.filterMap_eq_map']
  | disableOthers t c e =>
    simp only [step, disableOthers, stepReg, added, List.append_nil]
    rw [← List.filterMap_eq_map']
  | enableOthers t c e =>
    simp only [step, enableOthers, stepReg, added, List.append_nil]
    rw [← List.filterMap_eq_map']
  | deleteHandledBy c =>
    simp only [step, deleteHandledBy, stepReg, added, List.append_nil]
    rw [deleteLoop_eq (Sane.noCondReal hw) _ _ _ (Nat.le_refl _) hn,
      filterMap_ite_filter]
  | deleteTriggeredBy t =>
    simp only [step, deleteTriggeredBy, stepReg, added, List.append_nil]
    rw [deleteLoop_eq (Sane.noCondReal hw) _ _ _ (Nat.le_refl _) hn,
      ← filterMap_ite_filter]
  | destroyHandler c =>
    simp only [step, nullify, stepReg, added, List.append_nil]
    rw [← List.filterMap_eq_map']; rfl

theorem condsIn_step {w : World} (hw : w.Sane) (regs : List Reg) (hn : (condsIn w regs).Nodup) (o : Op) :
    (condsIn w (step w regs o)).Sublist (condsIn w regs ++ condsOf w [o]) := by
  rw [step_eq hw regs hn o, condsIn_append]
  apply List.Sublist.append
  · unfold condsIn
    rw [List.filterMap_filterMap]
    induction regs with
    | nil => exact List.Sublist.refl _
    | cons r rest ih =>
      have hrest : (condsIn w rest).Nodup :=
        List.Nodup.sublist (condsIn_sublist (List.sublist_cons_self r rest)) hn
      have hi := ih hrest
      have hstep : ∀ q, stepReg w r o = some q → q.client = none ∨ q.client = r.client := by
        intro q hq
        cases o <;> simp only [stepReg, Option.some.injEq] at hq
        case deleteHandledBy c => split at hq <;> simp_all
        case deleteTriggeredBy c => split at hq <;> simp_all
        case add => subst hq; exact .inr rfl
        case destroyHandler c =>
          subst hq
          cases hc : r.client with
          | none => simp [hc]
          | some x =>
            simp only
            split
            · left; rfl
            · right; exact hc
        all_goals
          subst hq
          right
          try unfold Reg.disable
          try unfold Reg.enable
          repeat' split
          all_goals rfl
      simp only [List.filterMap_cons]
      cases hs : stepReg w r o with
      | none =>
        simp only [Option.bind_none]
        split
        · exact hi
        · exact hi.trans (List.sublist_cons_self _ _)
      | some q =>
        simp only [Option.bind_some]
        rcases hstep q hs with hq | hq
        · simp only [hq]
          split
          · exact hi
          · exact hi.trans (List.sublist_cons_self _ _)
        · simp only [hq]
          split
          · exact hi
          · exact hi.cons_cons _
  · cases o <;> simp only [added, condsIn, List.filterMap_nil, List.nil_sublist]
    rename_i t c e a al
    simp only [condsOf, List.filterMap_cons, List.filterMap_nil]
    cases w.isCond c <;> simp

/-! ## A registration through the rest of its life -/

/-- The registration after the later calls. -/
def evolve (w : World) : Option Reg → List Op → Option Reg
  | r, [] => r
  | r, o :: rest => evolve w (r.bind (fun x => stepReg w x o)) rest

/-- Registrations made by a history, as they are at its end. -/
def news (w : World) : List Op → List Reg
  | [] => []
  | o :: rest => (added o).filterMap (fun r => evolve w (some r) rest) ++ news w rest

theorem condsOf_cons (w : World) (o : Op) (rest : List Op) :
    condsOf w (o :: rest) = condsOf w [o] ++ condsOf w rest := by
  cases o <;> simp only [condsOf, List.nil_append]
  split <;> simp

theorem evolve_none (w : World) (h : List Op) : evolve w none h = none := by
  induction h with
  | nil => rfl
  | cons o rest ih => simpa [evolve] using ih

theorem exec_eq {w : World} (hw : w.Sane) : ∀ (h : List Op) (regs : List Reg),
    (condsIn w regs ++ condsOf w h).Nodup →
    exec w regs h = regs.filterMap (fun r => evolve w (some r) h) ++ news w h := by
  intro h
  induction h with
  | nil => intro regs _; simp [exec, evolve, news]
  | cons o rest ih =>
    intro regs hn
    have hn1 : (condsIn w regs).Nodup := (List.nodup_append.mp hn).1
    have hn2 : (condsIn w (step w regs o) ++ condsOf w rest).Nodup := by
      rw [condsOf_cons, ← List.append_assoc] at hn
      exact List.Nodup.sublist (List.Sublist.append (condsIn_step hw regs hn1 o) (List.Sublist.refl _)) hn
    have := ih (step w regs o) hn2
    simp only [exec, List.foldl_cons] at this ⊢
    rw [this, step_eq hw regs hn1 o, List.filterMap_append, List.filterMap_filterMap]
    simp only [news, List.append_assoc]
    congr 2
    funext r
    simp only [evolve, Option.bind_some]
    cases stepReg w r o with
    | none => simp [evolve_none]
    | some q => rfl

/-- The registration of an `Add` with its switch in position `en`. -/
def Add.reg (a : Add) (en : Bool) : Reg :=
  { trigger := a.trigger, client := some a.client, event := a.event, action := a.action,
    enabled := en, always := a.always }

/-- The call a registration contributes to an event. -/
def callOf (t e : Nat) (r : Reg) : Option (Nat × Nat) :=
  match r.client with
  | some c => if r.trigger = t ∧ r.event = e % 65536 ∧ r.enabled then some (c, r.action) else none
  | none => none

theorem runAction_eq (t e : Nat) (regs : List Reg) : runAction t e regs = regs.filterMap (callOf t e) := by
  induction regs with
  | nil => rfl
  | cons r rest ih =>
    simp only [runAction, List.filterMap_cons, callOf]
    cases hc : r.client with
    | none => simpa using ih
    | some c =>
      simp only
      split
      · simp [ih]
      · simpa using ih

theorem runAction_append (t e : Nat) (a b : List Reg) :
    runAction t e (a ++ b) = runAction t e a ++ runAction t e b := by
  simp [runAction_eq]

/-- A registration whose handler is gone is never called. -/
theorem dead_silent (w : World) (t e : Nat) : ∀ (h : List Op) (r : Reg), r.client = none →
    (evolve w (some r) h).bind (callOf t e) = none := by
  intro h
  induction h with
  | nil => intro r hr; simp [evolve, callOf, hr]
  | cons o rest ih =>
    intro r hr
    simp only [evolve, Option.bind_some]
    cases hs : stepReg w r o with
    | none => simp [evolve_none]
    | some q =>
      apply ih
      cases o <;> simp only [stepReg, Option.some.injEq] at hs
      case deleteHandledBy c => split at hs <;> simp_all
      case deleteTriggeredBy c => split at hs <;> simp_all
      case add => subst hs; exact hr
      case destroyHandler c => subst hs; simp [hr]
      all_goals
        subst hs
        try unfold Reg.disable
        try unfold Reg.enable
        repeat' split
        all_goals exact hr

theorem toCheck_wanted (x : Int) (y : Nat) (hx : -1 ≤ x ∧ x < 65536) :
    (y == toCheck x || x == -1) = wanted x y := by
  unfold toCheck wanted
  rw [Bool.eq_iff_iff]
  simp only [Bool.or_eq_true, beq_iff_eq]
  split <;> omega

theorem stepReg_add (w : World) (a : Add) (en : Bool)
    (hal : a.always = true → en = true) (o : Op) (ho : InRange o) :
    (kills w a o = true ∧ (stepReg w (a.reg en) o = none
        ∨ ∃ q, stepReg w (a.reg en) o = some q ∧ q.client = none))
    ∨ (kills w a o = false ∧ stepReg w (a.reg en) o
        = some (a.reg (if a.always then true else (switches a o).getD en))) := by
  have hen : a.always = true → a.reg en = a.reg true := fun h => by rw [hal h]
  have off : (a.reg en).disable = a.reg (if a.always then true else false) := by
    unfold Reg.disable Add.reg
    cases h : a.always
    · simp
    · simp [hal h]
  have on : (a.reg en).enable = a.reg (if a.always then true else true) := by
    unfold Reg.enable Add.reg
    simp
  have same : a.reg en = a.reg (if a.always then true else en) := by
    split
    · rename_i h; exact hen h
    · rfl
  have hm : ∀ t act c e, (-1 ≤ act ∧ act < 65536) ∧ (-1 ≤ e ∧ e < 65536) →
      matchesAction (a.reg en) t act c e
        = (a.trigger == t && a.client == c && wanted act a.action && wanted e a.event) := by
    intro t act c e hr
    rw [← toCheck_wanted act a.action hr.1, ← toCheck_wanted e a.event hr.2]
    simp only [matchesAction, Add.reg]
    have : (some a.client == some c) = (a.client == c) := by
      rw [Bool.eq_iff_iff]; simp
    rw [this]
    cases a.trigger == t <;> cases a.client == c <;> simp <;> exact Bool.and_comm _ _
  have ho' : ∀ t c e, e < 65536 → ((a.reg en).trigger == t && (a.reg en).event == e % 65536
      && (a.reg en).client != some c) = (a.trigger == t && a.client != c && a.event == e) := by
    intro t c e he
    rw [Nat.mod_eq_of_lt he]
    have h1 : ((a.reg en).client != some c) = (a.client != c) := by
      rw [Bool.eq_iff_iff]; simp [Add.reg]
    rw [h1]
    simp only [Add.reg]
    cases a.trigger == t <;> simp <;> exact Bool.and_comm _ _
  cases o with
  | add t c e act al => right; exact ⟨rfl, by simp only [stepReg, switches, Option.getD_none]; rw [← same]⟩
  | disable t act c e =>
    right
    refine ⟨rfl, ?_⟩
    simp only [stepReg, switches, hm _ _ _ _ ho]
    split
    · rw [off]; rfl
    · exact congrArg some same
  | enable t act c e =>
    right
    refine ⟨rfl, ?_⟩
    simp only [stepReg, switches, hm _ _ _ _ ho]
    split
    · rw [on]; rfl
    · exact congrArg some same
  | disableOthers t c e =>
    right
    refine ⟨rfl, ?_⟩
    simp only [stepReg, switches, ho' t c e ho]
    split
    · rw [off]; rfl
    · exact congrArg some same
  | enableOthers t c e =>
    right
    refine ⟨rfl, ?_⟩
    simp only [stepReg, switches, ho' t c e ho]
    split
    · rw [on]; rfl
    · exact congrArg some same
  | deleteHandledBy c =>
    simp only [stepReg, kills, handledBy, Add.reg]
    by_cases h : (w.real a.client == c) = true
    · left; exact ⟨h, .inl (if_pos h)⟩
    · right
      refine ⟨by simpa using h, ?_⟩
      exact (if_neg h).trans (congrArg some same)
  | deleteTriggeredBy t =>
    simp only [stepReg, kills, Add.reg]
    by_cases h : (a.trigger == t) = true
    · left; exact ⟨h, .inl (if_pos h)⟩
    · right
      refine ⟨by simpa using h, ?_⟩
      exact (if_neg h).trans (congrArg some same)
  | destroyHandler c =>
    simp only [stepReg, kills, Add.reg]
    by_cases h : a.client = c ∨ w.real a.client = c
    · left
      refine ⟨by simpa using h, .inr ⟨_, rfl, ?_⟩⟩
      rw [if_pos h]
    · right
      refine ⟨?_, ?_⟩
      · rw [not_or] at h
        simp [h.1, h.2]
      · exact congrArg some ((if_neg h).trans same)

theorem getLast?_cons_getD {α} (x : α) (l : List α) (d : α) :
    (x :: l).getLast?.getD d = l.getLast?.getD x := by
  rw [List.getLast?_cons]; rfl

theorem life (w : World) (a : Add) (ha : a.event < 65536) (t e : Nat) (he : e < 65536) :
    ∀ (h : List Op) (en : Bool), (a.always = true → en = true) → (∀ o ∈ h, InRange o) →
    (evolve w (some (a.reg en)) h).bind (callOf t e)
      = if a.trigger = t ∧ a.event = e ∧ alive w a h
          ∧ (a.always || (h.filterMap (switches a)).getLast?.getD en) then some (a.client, a.action)
        else none := by
  intro h
  induction h with
  | nil =>
    intro en hal _
    simp only [evolve, Option.bind_some, callOf, Add.reg, alive, List.all_nil, List.filterMap_nil,
      List.getLast?_nil, Option.getD_none, Nat.mod_eq_of_lt he, true_and]
    cases hh : a.always
    · simp
    · simp [hal hh]
  | cons o rest ih =>
    intro en hal hr
    have hro := hr o (by simp)
    have hrr : ∀ x ∈ rest, InRange x := fun x hx => hr x (by simp [hx])
    simp only [evolve, Option.bind_some]
    rcases stepReg_add w a en hal o hro with ⟨hk, hd⟩ | ⟨hk, hs⟩
    · have hal' : alive w a (o :: rest) = false := by simp [alive, hk]
      rw [hal', if_neg (by simp)]
      rcases hd with hd | ⟨q, hq, hqc⟩
      · rw [hd, evolve_none]; rfl
      · rw [hq]; exact dead_silent w t e rest q hqc
    · have hal' : alive w a (o :: rest) = alive w a rest := by simp [alive, hk]
      rw [hs, hal', ih _ (by intro h; simp [h]) hrr]
      cases hh : a.always
      · simp only [List.filterMap_cons, Bool.false_eq_true, if_false, Bool.false_or]
        cases hsw : switches a o with
        | none => simp
        | some b => simp only [Option.getD_some, getLast?_cons_getD]
      · simp

theorem news_calls {w : World} (t e : Nat) (he : e < 65536) : ∀ (h : List Op), (∀ o ∈ h, InRange o) →
    runAction t e (news w h) = expected w t e h := by
  intro h
  induction h with
  | nil => intro _; rfl
  | cons o rest ih =>
    intro hr
    have hrr : ∀ x ∈ rest, InRange x := fun x hx => hr x (by simp [hx])
    simp only [news, runAction_append, ih hrr]
    cases o with
    | add t' c e' act al =>
      have hro := hr (.add t' c e' act al) (by simp)
      simp only [expected, added]
      congr 1
      have hl := life w ⟨t', c, e', act, al⟩ hro.1 t e he rest true (fun _ => rfl) hrr
      simp only [Add.reg] at hl
      rw [runAction_eq, List.filterMap_filterMap]
      simp only [Nat.mod_eq_of_lt hro.1, Nat.mod_eq_of_lt hro.2, List.filterMap_cons,
        List.filterMap_nil, hl, enabledAfter]
      split
      · rename_i hnone
        split at hnone
        · simp at hnone
        · rename_i hc; exact (if_neg hc).symm
      · rename_i b hsome
        split at hsome
        · rename_i hc
          simp only [Option.some.injEq] at hsome
          rw [← hsome]; exact (if_pos hc).symm
        · simp at hsome
    | _ => simp [expected, added, runAction]

/-- C22 in full: after every history of API calls, an event runs exactly the live, enabled registrations
for it, each once, in the order in which they were made. -/
def DispatchExact : Prop :=
  ∀ (w : World) (h : List Op) (t e : Nat), w.Sane → e < 65536 → (condsOf w h).Nodup →
    (∀ t c e a al, Op.add t c e a al ∈ h → e < 65536 ∧ a < 65536) →
    runAction t e (exec w [] h) = expected w t e h

/-- C22 is false of the code in one corner: `disableAction`/`enableAction` take 32-bit numbers, but an
event or action number outside 0..65535 (and not -1) is treated as number 0. Here disabling a
non-existing event disables the press event (number 0). -/
theorem out_of_range_violation : ¬ DispatchExact := by
  intro h
  have := h { isCond := fun _ => false, real := fun c => c }
    [.add 1 2 0 3 false, .disable 1 3 2 70000] 1 0
    ⟨fun _ _ => rfl, fun _ h => by simp at h⟩ (by decide) (by decide)
    (by
      intro t c e a al hm
      simp only [List.mem_cons, Op.add.injEq, reduceCtorEq, List.not_mem_nil, or_false] at hm
      omega)
  exact absurd this (by decide +kernel)

/-- C22, for histories whose event and action numbers are 16-bit values (or -1 for all), and in which a
condition object is used for one registration only: an event runs exactly the live, enabled
registrations for it, each once, in registration order. -/
theorem dispatch_exact_partial (w : World) (h : List Op) (t e : Nat) (hw : w.Sane) (he : e < 65536)
    (hn : (condsOf w h).Nodup) (hr : ∀ o ∈ h, InRange o) :
    runAction t e (exec w [] h) = expected w t e h := by
  rw [exec_eq hw h [] (by simpa [condsIn] using hn)]
  simp only [List.filterMap_nil, List.nil_append]
  exact news_calls t e he h hr

/-- A condition made for one registration goes with it; two handlers, one always enabled. -/
example : let w : World := { isCond := fun c => c == 9, real := fun c => if c == 9 then 2 else c }
    let h : List Op := [.add 1 2 0 10 false, .add 1 3 0 11 true, .add 1 9 0 12 false,
      .disable 1 (-1) 2 (-1), .disable 1 11 3 0]
    runAction 1 0 (exec w [] h) = [(3, 11), (9, 12)] ∧ expected w 1 0 h = [(3, 11), (9, 12)]
    ∧ runAction 1 0 (exec w [] (h ++ [.destroyHandler 2])) = [(3, 11)] := by
  decide +kernel

example : World.Sane { isCond := fun c => c == 9, real := fun c => if c == 9 then 2 else c } := by
  constructor
  · intro c hc; simp_all
  · intro c hc; simp_all

end Verif.Actions
