import Verif.AtConfig.Spec

/-!
# C158: actions configured for a channel are the ones announced and sent
-/

namespace Verif.AtConfig

/-! ## Maps -/

variable {K : Type} [DecidableEq K]

theorem find_filter (k k' : K) (m : List (K × Int)) (h : k' ≠ k) : find k' (m.filter fun p => decide (p.1 ≠ k)) = find k' m := by
  induction m with
  | nil => rfl
  | cons p m ih =>
    by_cases hp : p.1 = k
    · rw [List.filter_cons_of_neg (by simpa using hp), ih]
      unfold find
      rw [if_neg (by rw [hp]; exact fun e => h e.symm)]
      cases m <;> rfl
    · rw [List.filter_cons_of_pos (by simpa using hp)]
      unfold find
      rw [ih]

theorem find_put (k k' : K) (v : Int) (m : List (K × Int)) : find k' (put k v m) = if k = k' then some v else find k' m := by
  unfold put
  by_cases h : k = k'
  · rw [if_pos h]; unfold find; rw [if_pos h]
  · rw [if_neg h, ← find_filter k k' m (fun e => h e.symm)]
    exact if_neg h

theorem find_mem (k : K) (a : Int) (m : List (K × Int)) (h : find k m = some a) : (k, a) ∈ m := by
  induction m with
  | nil => cases h
  | cons p m ih =>
    unfold find at h
    by_cases hp : p.1 = k
    · rw [if_pos hp] at h
      have : p = (k, a) := by rw [← hp, ← Option.some.inj h]
      rw [this]; exact List.mem_cons_self
    · rw [if_neg hp] at h
      exact List.mem_cons_of_mem _ (ih h)

/-- Every pair is the one that is found. -/
def Good (m : List (K × Int)) : Prop := ∀ p ∈ m, find p.1 m = some p.2

theorem good_put (k : K) (v : Int) (m : List (K × Int)) (h : Good m) : Good (put k v m) := by
  intro p hp
  rw [find_put]
  rcases List.mem_cons.1 hp with e | hm
  · rw [e, if_pos rfl]
  · have h1 := List.mem_filter.1 hm
    have h2 : p.1 ≠ k := by simpa using h1.2
    rw [if_neg (fun e => h2 e.symm)]
    exact h p h1.1

theorem mem_actions (m : List (K × Int)) (h : Good m) (a : Int) : a ∈ m.map (·.2) ↔ ∃ k, find k m = some a := by
  constructor
  · intro ha
    obtain ⟨p, hp, e⟩ := List.mem_map.1 ha
    exact ⟨p.1, by rw [h p hp, e]⟩
  · rintro ⟨k, hk⟩
    exact List.mem_map.2 ⟨(k, a), find_mem k a m hk, rfl⟩

/-! ## Configuration -/

theorem lastOf_cons {α : Type} (f : Item → Option α) (i : Item) (is : List Item) : lastOf f (i :: is) = (lastOf f is).or (f i) := by
  unfold lastOf
  cases h : f i with
  | none => rw [List.filterMap_cons_none h, Option.or_none]
  | some x =>
    rw [List.filterMap_cons_some h, List.getLast?_cons]
    cases (List.filterMap f is).getLast? <;> rfl

/-- What one line does. -/
theorem element_item (c : Cfg × Bool) (i : Item) : ∃ d, element c i.el = some d ∧
    (∀ s, find s d.1.state = (i.forState s).or (find s c.1.state)) ∧
    (∀ s, find s d.1.value = (i.forValue s).or (find s c.1.value)) ∧
    (∀ f t, find (f, t) d.1.stateChange = (i.forStateChange f t).or (find (f, t) c.1.stateChange)) ∧
    (∀ f t, find (f, t) d.1.valueChange = (i.forValueChange f t).or (find (f, t) c.1.valueChange)) ∧
    d.1.name = i.forName.getD c.1.name ∧ d.2 = (i.forName.isSome || c.2) ∧
    (Good c.1.state → Good d.1.state) ∧ (Good c.1.value → Good d.1.value) ∧
    (Good c.1.stateChange → Good d.1.stateChange) ∧ (Good c.1.valueChange → Good d.1.valueChange) := by
  cases i with
  | onState k a =>
    refine ⟨_, rfl, ?_, fun _ => rfl, fun _ _ => rfl, fun _ _ => rfl, rfl, rfl, good_put _ _ _, id, id, id⟩
    intro s
    show find s (put k a c.1.state) = (if k = s then some a else none).or _
    rw [find_put]; split <;> rfl
  | onValue k a =>
    refine ⟨_, rfl, fun _ => rfl, ?_, fun _ _ => rfl, fun _ _ => rfl, rfl, rfl, id, good_put _ _ _, id, id⟩
    intro s
    show find s (put k a c.1.value) = (if k = s then some a else none).or _
    rw [find_put]; split <;> rfl
  | onStateChange k l a =>
    refine ⟨_, rfl, fun _ => rfl, fun _ => rfl, ?_, fun _ _ => rfl, rfl, rfl, id, id, good_put _ _ _, id⟩
    intro f t
    show find (f, t) (put (k, l) a c.1.stateChange) = (if k = f ∧ l = t then some a else none).or _
    rw [find_put]
    simp only [Prod.mk.injEq]
    split <;> rfl
  | onValueChange k l a =>
    refine ⟨_, rfl, fun _ => rfl, fun _ => rfl, fun _ _ => rfl, ?_, rfl, rfl, id, id, id, good_put _ _ _⟩
    intro f t
    show find (f, t) (put (k, l) a c.1.valueChange) = (if k = f ∧ l = t then some a else none).or _
    rw [find_put]
    simp only [Prod.mk.injEq]
    split <;> rfl
  | use n =>
    exact ⟨_, rfl, fun _ => rfl, fun _ => rfl, fun _ _ => rfl, fun _ _ => rfl, rfl, rfl, id, id, id, id⟩

theorem elements_items (is : List Item) (c : Cfg × Bool) : ∃ d, elements c (is.map Item.el) = some d ∧
    (∀ s, find s d.1.state = (lastOf (Item.forState s) is).or (find s c.1.state)) ∧
    (∀ s, find s d.1.value = (lastOf (Item.forValue s) is).or (find s c.1.value)) ∧
    (∀ f t, find (f, t) d.1.stateChange = (lastOf (Item.forStateChange f t) is).or (find (f, t) c.1.stateChange)) ∧
    (∀ f t, find (f, t) d.1.valueChange = (lastOf (Item.forValueChange f t) is).or (find (f, t) c.1.valueChange)) ∧
    d.1.name = (lastOf Item.forName is).getD c.1.name ∧ d.2 = ((lastOf Item.forName is).isSome || c.2) ∧
    (Good c.1.state → Good d.1.state) ∧ (Good c.1.value → Good d.1.value) ∧
    (Good c.1.stateChange → Good d.1.stateChange) ∧ (Good c.1.valueChange → Good d.1.valueChange) := by
  induction is generalizing c with
  | nil => exact ⟨c, rfl, fun _ => rfl, fun _ => rfl, fun _ _ => rfl, fun _ _ => rfl, rfl, rfl, id, id, id, id⟩
  | cons i is ih =>
    obtain ⟨d, e, h1, h2, h3, h4, h5, h6, g1, g2, g3, g4⟩ := element_item c i
    obtain ⟨d', e', h1', h2', h3', h4', h5', h6', g1', g2', g3', g4'⟩ := ih d
    refine ⟨d', ?_, ?_, ?_, ?_, ?_, ?_, ?_, fun x => g1' (g1 x), fun x => g2' (g2 x), fun x => g3' (g3 x), fun x => g4' (g4 x)⟩
    · rw [List.map_cons]
      unfold elements
      rw [e]
      exact e'
    · intro s; rw [h1', h1, lastOf_cons, Option.or_assoc]
    · intro s; rw [h2', h2, lastOf_cons, Option.or_assoc]
    · intro f t; rw [h3', h3, lastOf_cons, Option.or_assoc]
    · intro f t; rw [h4', h4, lastOf_cons, Option.or_assoc]
    · rw [h5', h5, lastOf_cons]
      cases lastOf Item.forName is <;> cases i.forName <;> rfl
    · rw [h6', h6, lastOf_cons]
      cases lastOf Item.forName is <;> cases i.forName <;> simp

theorem good_nil : Good ([] : List (K × Int)) := fun p hp => by cases hp

/-- Lines one to an element are accepted exactly when one of them names the channel for the actions. The last line for an event counts, and
the last name. -/
theorem configured (is : List Item) :
    (lastOf Item.forName is = none → configure (is.map Item.el) = none) ∧
    ∀ n, lastOf Item.forName is = some n → ∃ c, configure (is.map Item.el) = some c ∧ c.name = n ∧
      (∀ s, find s c.state = lastOf (Item.forState s) is) ∧ (∀ v, find v c.value = lastOf (Item.forValue v) is) ∧
      (∀ f t, find (f, t) c.stateChange = lastOf (Item.forStateChange f t) is) ∧
      (∀ f t, find (f, t) c.valueChange = lastOf (Item.forValueChange f t) is) ∧ ∀ a, a ∈ actions c ↔ Used is a := by
  obtain ⟨⟨c, b⟩, e, h1, h2, h3, h4, h5, h6, g1, g2, g3, g4⟩ := elements_items is ({}, false)
  constructor
  · intro hn
    rw [hn] at h6
    have hb : b = false := h6
    unfold configure
    rw [e, hb]
  · intro n hn
    rw [hn] at h6 h5
    have hb : b = true := h6
    have k1 : ∀ s, find s c.state = lastOf (Item.forState s) is := fun s => by rw [h1 s]; exact Option.or_none
    have k2 : ∀ s, find s c.value = lastOf (Item.forValue s) is := fun s => by rw [h2 s]; exact Option.or_none
    have k3 : ∀ f t, find (f, t) c.stateChange = lastOf (Item.forStateChange f t) is := fun f t => by rw [h3 f t]; exact Option.or_none
    have k4 : ∀ f t, find (f, t) c.valueChange = lastOf (Item.forValueChange f t) is := fun f t => by rw [h4 f t]; exact Option.or_none
    refine ⟨c, ?_, h5, k1, k2, k3, k4, ?_⟩
    · unfold configure
      rw [e, hb]
    · intro a
      unfold actions Used
      rw [List.mem_append, List.mem_append, List.mem_append, mem_actions _ (g1 good_nil), mem_actions _ (g2 good_nil),
        mem_actions _ (g3 good_nil), mem_actions _ (g4 good_nil)]
      simp only [Prod.exists, k1, k2, k3, k4, or_assoc]

/-- The example of the README, lines 928-933. -/
def readme : List Item := [.use "myAt2001", .onState (-1) 0, .onStateChange 0 1 1, .onValue 5 2, .onValueChange 6 7 3]

example : ∃ c, configure (readme.map Item.el) = some c ∧ c.name = "myAt2001" ∧ find (-1) c.state = some 0 ∧ find (6, 7) c.valueChange = some 3 :=
  ⟨_, rfl, rfl, by decide, by decide⟩

/-- A condition with the wrong number of values refuses the channel, whatever else is configured. -/
theorem wrong_size_refused (els : List El) (el : El) (h : el ∈ els)
    (hl : ∃ l, (el.onState = some l ∧ l.length ≠ 2) ∨ (el.onState = none ∧ el.onValue = some l ∧ l.length ≠ 2) ∨
      (el.onState = none ∧ el.onValue = none ∧ el.onValueChange = some l ∧ l.length ≠ 3) ∨
      (el.onState = none ∧ el.onValue = none ∧ el.onValueChange = none ∧ el.onStateChange = some l ∧ l.length ≠ 3)) :
    configure els = none := by
  have a2 : ∀ m l, l.length ≠ 2 → add2 m l = none := by
    intro m l h
    unfold add2
    split
    · exact absurd rfl h
    · rfl
  have a3 : ∀ m l, l.length ≠ 3 → add3 m l = none := by
    intro m l h
    unfold add3
    split
    · exact absurd rfl h
    · rfl
  have e1 : ∀ c, element c el = none := by
    intro c
    obtain ⟨l, hl⟩ := hl
    unfold element
    rcases hl with ⟨e, h⟩ | ⟨e1, e, h⟩ | ⟨e1, e2, e, h⟩ | ⟨e1, e2, e3, e, h⟩
    · simp only [e, a2 _ _ h, Option.map_none]
    · simp only [e1, e, a2 _ _ h, Option.map_none]
    · simp only [e1, e2, e, a3 _ _ h, Option.map_none]
    · simp only [e1, e2, e3, e, a3 _ _ h, Option.map_none]
  have e2 : ∀ c, elements c els = none := by
    induction els with
    | nil => cases h
    | cons x els ih =>
      intro c
      unfold elements
      rcases List.mem_cons.1 h with e | hm
      · rw [← e, e1]; rfl
      · cases element c x with
        | none => rfl
        | some d => exact ih hm d
  unfold configure
  rw [e2]

example : configure [{ use := some "a" }, { onState := some [1, 0, 2] }] = none :=
  wrong_size_refused _ _ (List.mem_cons_of_mem _ List.mem_cons_self) ⟨[1, 0, 2], Or.inl ⟨rfl, by decide⟩⟩

/-- The full claim: a channel with a name for the actions and conditions of the right size is accepted. -/
def NameCounts : Prop :=
  ∀ els : List El, (∃ el ∈ els, el.use.isSome) → (∀ el ∈ els, ∀ l, el.onState = some l → l.length = 2) →
    (∀ el ∈ els, el.onValue = none ∧ el.onValueChange = none ∧ el.onStateChange = none) → configure els ≠ none

/-- **Finding.** A name written together with a condition, in the same element, is not seen. -/
theorem name_beside_condition_violation (els : List El) (h : ∀ el ∈ els, el.use.isSome → el.onState.isSome) : configure els = none := by
  have e2 : ∀ c d : Cfg × Bool, c.2 = false → elements c els = some d → d.2 = false := by
    induction els with
    | nil => intro c d hc e; rw [← Option.some.inj e]; exact hc
    | cons x els ih =>
      intro c d hc e
      unfold elements at e
      cases hx : element c x with
      | none => rw [hx] at e; cases e
      | some c' =>
        rw [hx] at e
        refine ih (fun el hel => h el (List.mem_cons_of_mem _ hel)) c' d ?_ e
        have hu := h x List.mem_cons_self
        unfold element at hx
        have mapf : ∀ {A : Type} (o : Option A) (f : A → Cfg), (o.map fun m => (f m, c.2)) = some c' → c'.2 = false := by
          intro A o f ho
          cases o with
          | none => cases ho
          | some m => rw [← Option.some.inj ho]; exact hc
        split at hx
        · exact mapf _ _ hx
        · rename_i hs
          split at hx
          · exact mapf _ _ hx
          · split at hx
            · exact mapf _ _ hx
            · split at hx
              · exact mapf _ _ hx
              · split at hx
                · rename_i n hn
                  rw [hn, hs] at hu
                  cases hu rfl
                · rw [← Option.some.inj hx]; exact hc
  unfold configure
  cases he : elements ({}, false) els with
  | none => rfl
  | some d =>
    have := e2 _ d rfl he
    obtain ⟨c, b⟩ := d
    have hb : b = false := this
    rw [hb]

theorem name_violation : ¬ NameCounts := by
  intro h
  refine h [{ use := some "at1", onState := some [1, 0] }] ⟨_, List.mem_cons_self, rfl⟩ ?_ ?_ ?_
  · intro el hel l hl
    rw [List.mem_singleton.1 hel] at hl
    rw [← Option.some.inj hl]
    rfl
  · intro el hel
    rw [List.mem_singleton.1 hel]
    exact ⟨rfl, rfl, rfl⟩
  · rfl

/-! ## Announced actions -/

theorem activate_spec (as : List Int) (caps : Nat) (h : ∀ a ∈ as, 0 ≤ a ∧ a < 32) :
    ∃ r, activate caps as = some r ∧ ∀ i : Nat, r.testBit i = true ↔ caps.testBit i = true ∨ (i : Int) ∈ as := by
  induction as generalizing caps with
  | nil => exact ⟨caps, rfl, fun i => by simp⟩
  | cons a as ih =>
    have ha := h a List.mem_cons_self
    obtain ⟨r, e, hr⟩ := ih (caps ||| 2 ^ a.toNat) fun x hx => h x (List.mem_cons_of_mem _ hx)
    refine ⟨r, ?_, ?_⟩
    · unfold activate bit
      rw [if_pos ha]
      exact e
    · intro i
      rw [hr i, Nat.testBit_or, Nat.testBit_two_pow, Bool.or_eq_true, decide_eq_true_eq, List.mem_cons, or_assoc]
      have : a.toNat = i ↔ (i : Int) = a := by omega
      rw [this]

theorem activate_none (as : List Int) (caps : Nat) (a : Int) (h : a ∈ as) (ha : ¬ (0 ≤ a ∧ a < 32)) : activate caps as = none := by
  induction as generalizing caps with
  | nil => cases h
  | cons x as ih =>
    unfold activate
    rcases List.mem_cons.1 h with e | hm
    · unfold bit
      rw [← e, if_neg ha]
      rfl
    · cases bit x with
      | none => rfl
      | some b => exact ih _ hm

/-- At the start the channel for the actions announces exactly the actions that some event triggers, besides those other channels have
announced, if all are numbers from 0 to 31. A name that is not known announces nothing. -/
theorem announced_iff (is : List Item) (known : String → Bool) (n : String) (hn : lastOf Item.forName is = some n) (hl : n.length ≠ 0)
    (hr : ∀ a, Used is a → 0 ≤ a ∧ a < 32) (caps : Nat) : ∃ c r, configure (is.map Item.el) = some c ∧ register known c caps = some r ∧
      ∀ i : Nat, r.testBit i = true ↔ caps.testBit i = true ∨ (known n = true ∧ Used is i) := by
  obtain ⟨c, e, en, _, _, _, _, ha⟩ := (configured is).2 n hn
  cases hk : known n with
  | true =>
    obtain ⟨r, er, h⟩ := activate_spec (actions c) caps fun a h => hr a ((ha a).1 h)
    refine ⟨c, r, e, ?_, ?_⟩
    · unfold register
      rw [en, if_neg hl, if_pos hk]
      exact er
    · intro i
      rw [h i, ha]
      simp
  | false =>
    refine ⟨c, caps, e, ?_, fun i => by simp⟩
    unfold register
    rw [en, if_neg hl, if_neg (by rw [hk]; decide)]

example : ∃ c, configure (readme.map Item.el) = some c ∧ register (fun _ => true) c 0 = some 15 := ⟨_, rfl, by decide⟩

/-- The full claim: the start of an accepted configuration is defined. -/
def StartDefined : Prop :=
  ∀ (is : List Item) (known : String → Bool) (c : Cfg), configure (is.map Item.el) = some c → register known c 0 ≠ none

/-- **Finding.** A number outside 0 to 31 is accepted, and the start is then undefined. -/
theorem range_violation (is : List Item) (known : String → Bool) (n : String) (hn : lastOf Item.forName is = some n) (hl : n.length ≠ 0)
    (hk : known n = true) (a : Int) (hu : Used is a) (ha : ¬ (0 ≤ a ∧ a < 32)) (caps : Nat) :
    ∃ c, configure (is.map Item.el) = some c ∧ register known c caps = none := by
  obtain ⟨c, e, en, _, _, _, _, h⟩ := (configured is).2 n hn
  refine ⟨c, e, ?_⟩
  unfold register
  rw [en, if_neg hl, if_pos hk]
  exact activate_none _ _ a ((h a).2 hu) ha

theorem start_violation : ¬ StartDefined := by
  intro h
  obtain ⟨c, e, r⟩ := range_violation [.use "at1", .onState 1 32] (fun _ => true) "at1" rfl (by decide) rfl 32 (Or.inl ⟨1, rfl⟩) (by decide) 0
  exact h _ _ c e r

/-! ## Sent actions -/

/-- Actions triggered one after the other before the channel has sent anything. -/
def sends (active : Nat) (onServer : Bool) (w : Nat) : List Int → Option Nat
  | [] => some w
  | a :: as => (send active onServer a w).bind fun w' => sends active onServer w' as

/-- What waits after any sequence of triggered actions, each from 0 to 31: what waited before, and the triggered actions the server has
activated, or all of them if they are also published without the server. None is lost and no other is sent. -/
theorem waiting_iff (active : Nat) (onServer : Bool) (as : List Int) (h : ∀ a ∈ as, 0 ≤ a ∧ a < 32) (w : Nat) :
    ∃ r, sends active onServer w as = some r ∧ ∀ i : Nat, r.testBit i = true ↔
      w.testBit i = true ∨ ((i : Int) ∈ as ∧ (active.testBit i = true ∨ onServer = false)) := by
  induction as generalizing w with
  | nil => exact ⟨w, rfl, fun i => by simp⟩
  | cons a as ih =>
    have ha := h a List.mem_cons_self
    have hand : (2 ^ a.toNat &&& active ≠ 0) ↔ active.testBit a.toNat = true := by
      constructor
      · intro hne
        cases ht : active.testBit a.toNat with
        | true => rfl
        | false =>
          refine absurd (Nat.eq_of_testBit_eq fun i => ?_) hne
          rw [Nat.testBit_and, Nat.testBit_two_pow, Nat.zero_testBit]
          by_cases hi : a.toNat = i
          · rw [← hi, ht, Bool.and_false]
          · rw [decide_eq_false hi, Bool.false_and]
      · intro ht he
        have := congrArg (fun x => x.testBit a.toNat) he
        simp [Nat.testBit_and, ht] at this
    have hs : ∃ w', send active onServer a w = some w' ∧ ∀ i : Nat, w'.testBit i = true ↔
        w.testBit i = true ∨ ((i : Int) = a ∧ (active.testBit i = true ∨ onServer = false)) := by
      unfold send bit
      rw [if_pos ha]
      refine ⟨_, rfl, fun i => ?_⟩
      dsimp only
      have hi : a.toNat = i ↔ (i : Int) = a := by omega
      by_cases hc : 2 ^ a.toNat &&& active ≠ 0 ∨ onServer = false
      · rw [if_pos hc, Nat.testBit_or, Nat.testBit_two_pow, Bool.or_eq_true, decide_eq_true_eq, hi]
        rw [hand] at hc
        constructor
        · rintro (x | x)
          · exact Or.inl x
          · refine Or.inr ⟨x, ?_⟩
            rw [← hi.2 x]
            exact hc
        · rintro (x | x)
          · exact Or.inl x
          · exact Or.inr x.1
      · rw [if_neg hc]
        rw [hand] at hc
        constructor
        · exact Or.inl
        · rintro (x | x)
          · exact x
          · rw [hi.2 x.1] at hc
            exact absurd x.2 hc
    obtain ⟨w', e, hw⟩ := hs
    obtain ⟨r, er, hr⟩ := ih (fun x hx => h x (List.mem_cons_of_mem _ hx)) w'
    refine ⟨r, ?_, ?_⟩
    · unfold sends
      rw [e]
      exact er
    · intro i
      rw [hr i, hw i, List.mem_cons, or_assoc, ← or_and_right]

example : sends 0b1010 true 0 [1, 0, 3] = some 0b1010 := by decide

/-- Whatever events trigger their actions in whatever order, only announced actions wait to be sent. -/
theorem sent_announced (is : List Item) (known : String → Bool) (n : String) (hn : lastOf Item.forName is = some n) (hl : n.length ≠ 0)
    (hk : known n = true) (hr : ∀ a, Used is a → 0 ≤ a ∧ a < 32) (as : List Int) (ha : ∀ a ∈ as, Used is a) (active : Nat) (onServer : Bool) :
    ∃ c r w, configure (is.map Item.el) = some c ∧ register known c 0 = some r ∧ sends active onServer 0 as = some w ∧
      ∀ i : Nat, w.testBit i = true → r.testBit i = true := by
  obtain ⟨c, r, e, er, h⟩ := announced_iff is known n hn hl hr 0
  obtain ⟨w, ew, hw⟩ := waiting_iff active onServer as (fun a h => hr a (ha a h)) 0
  refine ⟨c, r, w, e, er, ew, fun i hi => (h i).2 (Or.inr ⟨hk, ?_⟩)⟩
  rcases (hw i).1 hi with h0 | h1
  · rw [Nat.zero_testBit] at h0
    cases h0
  · exact ha _ h1.1

example : ∃ c r w, configure ([Item.use "a", .onState 1 3].map Item.el) = some c ∧ register (fun _ => true) c 0 = some r ∧ sends 8 true 0 [3] = some w ∧
    w = 8 ∧ r = 8 := ⟨_, 8, 8, rfl, by decide, by decide, rfl, rfl⟩

/-- The full claim: actions are sent in the order they are triggered, as often as they are. -/
def OrderKept : Prop := ∀ (active : Nat) (as bs : List Int), sends active true 0 as = sends active true 0 bs → as = bs

/-- **Finding.** Actions triggered before the channel sends are kept as a set: neither order nor number matters. -/
theorem order_violation : ¬ OrderKept := by
  intro h
  have := h 3 [0, 1, 0] [1, 0] (by decide)
  revert this
  decide

end Verif.AtConfig
