import Verif.Actions.Props

/-!
# Local actions whose handlers change the registrations

`LocalAction::runAction` (`/repo/src/supla/local_action.cpp` lines 103-112) walks the list of
registrations while it calls the handlers, and reads `ptr->next` after the handler has returned.  A
handler may add registrations, switch them on and off, delete them or destroy handlers.  Here the nodes
have an identity, so that a walk that stands on a deleted node can be told from one that does not.
-/

namespace Verif.Actions

/-- A node of the list with its identity (its address; addresses are not reused here, which is the
case that is least bad for the code): local_action.h lines 28-51. -/
structure Node where
  id : Nat
  reg : Reg
deriving DecidableEq, Repr

/-- The list from `begin` on, and the identity of the next `new ActionHandlerClient`
(local_action.cpp lines 21-31, 85). -/
structure St where
  nodes : List Node
  fresh : Nat
deriving DecidableEq, Repr

/-- What remains of a node after a call of the API: `stepReg`, which `step_eq` derives from the code. -/
def stepNode (w : World) (o : Op) (n : Node) : Option Node :=
  match stepReg w n.reg o with
  | some r => some ⟨n.id, r⟩
  | none => none

/-- One call of the API (lines 81-94 and 130-271) on nodes. -/
def nstep (w : World) (s : St) (o : Op) : St :=
  match added o with
  | [] => ⟨s.nodes.filterMap (stepNode w o), s.fresh⟩
  | r :: _ => ⟨s.nodes.filterMap (stepNode w o) ++ [⟨s.fresh, r⟩], s.fresh + 1⟩

/-- What a handler does: any calls of the API, depending on everything.  `handleAction` is the user's
(or an element's) code. -/
def Beh := St → Nat → Nat → List Op

/-- The calls of one handler, in turn. -/
def nexec (w : World) (s : St) (ops : List Op) : St := ops.foldl (nstep w) s

/-- `ptr->next` of the node `i`; `none` if there is no such node (any more). -/
def after (i : Nat) : List Node → Option (Option Nat)
  | [] => none
  | n :: rest => if n.id = i then some (rest.head?.map Node.id) else after i rest

/-- The test of lines 106-107: the handler to call and the action. -/
def wants (t e : Nat) (n : Node) : Option (Nat × Nat) := callOf t e n.reg

/-- One call made: the state it was made in, the node, handler and action. -/
structure Call where
  st : St
  id : Nat
  client : Nat
  action : Nat

/-- How the walk ends: normally; by reading a deleted node (undefined behaviour); or not within the
given number of steps. -/
inductive End
  | done (s : St)
  | undefined
  | more

/-- `LocalAction::runAction`, lines 103-112: the loop with `ptr` at node `i`; the calls made and the
end.  `fuel` bounds the number of nodes visited. -/
def walk (w : World) (b : Beh) (t e : Nat) : Nat → St → Option Nat → List Call × End
  | _, s, none => ([], .done s)
  | 0, _, some _ => ([], .more)
  | fuel + 1, s, some i =>
    match s.nodes.find? (fun n => n.id == i) with
    | none => ([], .undefined)
    | some n =>
      match wants t e n with
      | some (c, a) =>
        let s' := nexec w s (b s c a)
        match after i s'.nodes with
        | none => ([⟨s, i, c, a⟩], .undefined)
        | some p => let r := walk w b t e fuel s' p; (⟨s, i, c, a⟩ :: r.1, r.2)
      | none =>
        match after i s.nodes with
        | none => ([], .undefined)
        | some p => walk w b t e fuel s p

/-- `runAction` from `ActionHandlerClient::begin` (line 104). -/
def dispatch (w : World) (b : Beh) (t e fuel : Nat) (s : St) : List Call × End :=
  walk w b t e fuel s (s.nodes.head?.map Node.id)

/-! ## The nodes are the registrations of the model without identities -/

theorem stepNode_reg (w : World) (o : Op) (l : List Node) :
    (l.filterMap (stepNode w o)).map Node.reg = (l.map Node.reg).filterMap (fun r => stepReg w r o) := by
  induction l with
  | nil => rfl
  | cons n l ih =>
    simp only [List.filterMap_cons, List.map_cons, stepNode]
    cases h : stepReg w n.reg o with
    | none => simpa using ih
    | some r => simp only [List.map_cons, ih]

/-- The same registrations as in the model of C22. -/
theorem nstep_reg {w : World} (hw : w.Sane) (s : St) (hn : (condsIn w (s.nodes.map Node.reg)).Nodup) (o : Op) :
    (nstep w s o).nodes.map Node.reg = step w (s.nodes.map Node.reg) o := by
  rw [step_eq hw _ hn]
  unfold nstep
  cases o <;> simp [added, stepNode_reg]

/-! ## Identities are never reused, and stand in the order of registration -/

/-- Every reachable list: identities increase along it, and are old. -/
structure Ok (s : St) : Prop where
  sorted : s.nodes.Pairwise (fun a b => a.id < b.id)
  old : ∀ n ∈ s.nodes, n.id < s.fresh

theorem stepNode_id {w : World} {o : Op} {n m : Node} (h : stepNode w o n = some m) : m.id = n.id := by
  unfold stepNode at h
  split at h
  · exact (congrArg Node.id (Option.some.inj h)).symm
  · cases h

theorem pairwise_filterMap {f : Node → Option Node} (hf : ∀ n m, f n = some m → m.id = n.id) :
    ∀ l : List Node, l.Pairwise (fun a b => a.id < b.id) → (l.filterMap f).Pairwise (fun a b => a.id < b.id) := by
  intro l
  induction l with
  | nil => intro _; exact List.Pairwise.nil
  | cons n l ih =>
    intro h
    have h' := List.pairwise_cons.mp h
    simp only [List.filterMap_cons]
    cases hn : f n with
    | none => exact ih h'.2
    | some m =>
      refine List.pairwise_cons.mpr ⟨?_, ih h'.2⟩
      intro k hk
      obtain ⟨q, hq, hqk⟩ := List.mem_filterMap.mp hk
      rw [hf n m hn, hf q k hqk]
      exact h'.1 q hq

theorem ok_step {w : World} {s : St} (h : Ok s) (o : Op) : Ok (nstep w s o) := by
  have p := pairwise_filterMap (fun n m => stepNode_id (w := w) (o := o) (n := n) (m := m)) s.nodes h.sorted
  have q : ∀ n ∈ s.nodes.filterMap (stepNode w o), n.id < s.fresh := by
    intro n hn
    obtain ⟨k, hk, e⟩ := List.mem_filterMap.mp hn
    rw [stepNode_id e]; exact h.old k hk
  unfold nstep
  cases added o with
  | nil => exact ⟨p, q⟩
  | cons r l =>
    refine ⟨List.pairwise_append.mpr ⟨p, List.pairwise_singleton .., ?_⟩, ?_⟩
    · intro a ha b hb
      rw [List.mem_singleton.mp hb]; exact q a ha
    · intro n hn
      rcases List.mem_append.mp hn with hn | hn
      · exact Nat.lt_succ_of_lt (q n hn)
      · rw [List.mem_singleton.mp hn]; exact Nat.lt_succ_self _

theorem ok_exec {w : World} : ∀ (ops : List Op) {s : St}, Ok s → Ok (nexec w s ops) := by
  intro ops
  induction ops with
  | nil => intro s h; exact h
  | cons o ops ih => intro s h; exact ih (ok_step h o)

theorem ok_init : Ok ⟨[], 0⟩ := ⟨List.Pairwise.nil, fun _ h => by cases h⟩

theorem fresh_mono {w : World} : ∀ (ops : List Op) (s : St), s.fresh ≤ (nexec w s ops).fresh := by
  intro ops
  induction ops with
  | nil => intro s; exact Nat.le_refl _
  | cons o ops ih =>
    intro s
    refine Nat.le_trans ?_ (ih (nstep w s o))
    unfold nstep
    cases added o with
    | nil => exact Nat.le_refl _
    | cons r l => exact Nat.le_succ _

/-! ## Where the walk goes -/

theorem after_some {i : Nat} : ∀ {l : List Node} {p : Option Nat}, after i l = some p →
    ∃ a n b, l = a ++ n :: b ∧ n.id = i ∧ (∀ m ∈ a, m.id ≠ i) ∧ p = b.head?.map Node.id := by
  intro l
  induction l with
  | nil => intro p h; cases h
  | cons n l ih =>
    intro p h
    unfold after at h
    by_cases e : n.id = i
    · rw [if_pos e] at h
      exact ⟨[], n, l, rfl, e, fun _ h => (by cases h), (Option.some.inj h).symm⟩
    · rw [if_neg e] at h
      obtain ⟨a, m, b, h1, h2, h3, h4⟩ := ih h
      refine ⟨n :: a, m, b, by rw [h1]; rfl, h2, ?_, h4⟩
      intro k hk
      rcases List.mem_cons.mp hk with rfl | hk
      · exact e
      · exact h3 k hk

theorem after_mem {i : Nat} : ∀ {l : List Node}, (∃ n ∈ l, n.id = i) → after i l ≠ none := by
  intro l
  induction l with
  | nil => intro ⟨n, hn, _⟩; cases hn
  | cons n l ih =>
    intro ⟨m, hm, e⟩
    unfold after
    by_cases q : n.id = i
    · rw [if_pos q]; exact Option.some_ne_none _
    · rw [if_neg q]
      apply ih
      rcases List.mem_cons.mp hm with rfl | hm
      · exact absurd e q
      · exact ⟨m, hm, e⟩

/-- The next node comes later, and every node after `i` is the next one or comes after it. -/
theorem after_next {s : St} (h : Ok s) {i j : Nat} (e : after i s.nodes = some (some j)) :
    (∃ m ∈ s.nodes, m.id = j) ∧ i < j ∧ ∀ m ∈ s.nodes, i < m.id → j ≤ m.id := by
  obtain ⟨a, n, b, h1, h2, h3, h4⟩ := after_some e
  cases b with
  | nil => cases h4
  | cons k b =>
    have hj : j = k.id := Option.some.inj h4
    have hs := h.sorted
    rw [h1] at hs
    have hs2 := List.pairwise_append.mp hs
    have hc := List.pairwise_cons.mp hs2.2.1
    have hd := List.pairwise_cons.mp hc.2
    refine ⟨⟨k, by rw [h1]; simp, hj.symm⟩, ?_, ?_⟩
    · rw [← h2, hj]; exact hc.1 k (List.mem_cons_self ..)
    · intro m hm him
      rw [h1] at hm
      rcases List.mem_append.mp hm with hm | hm
      · have := hs2.2.2 m hm n (List.mem_cons_self ..)
        rw [h2] at this; omega
      · rcases List.mem_cons.mp hm with rfl | hm
        · omega
        · rcases List.mem_cons.mp hm with rfl | hm
          · exact Nat.le_of_eq hj
          · have := hd.1 m hm; omega

/-- The last node: none comes later. -/
theorem after_last {s : St} (h : Ok s) {i : Nat} (e : after i s.nodes = some none) :
    ∀ m ∈ s.nodes, m.id ≤ i := by
  obtain ⟨a, n, b, h1, h2, h3, h4⟩ := after_some e
  cases b with
  | cons k b => cases h4
  | nil =>
    have hs := h.sorted
    rw [h1] at hs
    have hs2 := List.pairwise_append.mp hs
    intro m hm
    rw [h1] at hm
    rcases List.mem_append.mp hm with hm | hm
    · have := hs2.2.2 m hm n (List.mem_cons_self ..)
      omega
    · rw [List.mem_singleton.mp hm]; omega

/-! ## C22 with handlers that change the registrations -/

/-- The calls come in the order of registration, no registration is called twice, and each call is made
for a registration that is live, enabled and for this event at that very moment. -/
theorem walk_calls {w : World} {b : Beh} {t e : Nat} : ∀ (fuel : Nat) (s : St) (p : Option Nat), Ok s →
    ((walk w b t e fuel s p).1.map Call.id).Pairwise (· < ·) ∧
    (∀ c ∈ (walk w b t e fuel s p).1, (∀ i, p = some i → i ≤ c.id) ∧
      ∃ n ∈ c.st.nodes, n.id = c.id ∧ n.reg.trigger = t ∧ n.reg.event = e % 65536 ∧ n.reg.enabled = true ∧
        n.reg.client = some c.client ∧ n.reg.action = c.action) := by
  intro fuel
  induction fuel with
  | zero =>
    intro s p h
    cases p <;> exact ⟨List.Pairwise.nil, fun _ h => by cases h⟩
  | succ fuel ih =>
    intro s p h
    cases p with
    | none => exact ⟨List.Pairwise.nil, fun _ h => by cases h⟩
    | some i =>
      unfold walk
      cases hf : s.nodes.find? (fun n => n.id == i) with
      | none => exact ⟨List.Pairwise.nil, fun _ h => by cases h⟩
      | some n =>
        have hn := List.mem_of_find?_eq_some hf
        have hi : n.id = i := by simpa using List.find?_some hf
        dsimp only
        cases hw : wants t e n with
        | none =>
          dsimp only
          cases ha : after i s.nodes with
          | none => exact ⟨List.Pairwise.nil, fun _ h => by cases h⟩
          | some p =>
            dsimp only
            obtain ⟨q1, q2⟩ := ih s p h
            refine ⟨q1, fun c hc => ?_⟩
            obtain ⟨r1, r2⟩ := q2 c hc
            refine ⟨?_, r2⟩
            intro i' hi'
            rw [← Option.some.inj hi']
            cases p with
            | none =>
              exfalso
              cases fuel <;> cases hc
            | some j =>
              have := (after_next h ha).2.1
              have := r1 j rfl
              omega
        | some ca =>
          obtain ⟨c, a⟩ := ca
          dsimp only
          have call : ∃ n ∈ s.nodes, n.id = i ∧ n.reg.trigger = t ∧ n.reg.event = e % 65536 ∧ n.reg.enabled = true ∧
              n.reg.client = some c ∧ n.reg.action = a := by
            refine ⟨n, hn, hi, ?_⟩
            unfold wants callOf at hw
            cases hc : n.reg.client with
            | none => rw [hc] at hw; cases hw
            | some c' =>
              rw [hc] at hw
              dsimp only at hw
              split at hw
              · rename_i g
                have e1 := Option.some.inj hw
                have e2 : c' = c := congrArg Prod.fst e1
                have e3 : n.reg.action = a := congrArg Prod.snd e1
                exact ⟨g.1, g.2.1, g.2.2, by rw [e2], e3⟩
              · cases hw
          have h' : Ok (nexec w s (b s c a)) := ok_exec _ h
          cases ha : after i (nexec w s (b s c a)).nodes with
          | none =>
            refine ⟨List.pairwise_singleton .., fun k hk => ?_⟩
            rw [List.mem_singleton.mp hk]
            exact ⟨fun i' hi' => Nat.le_of_eq (Option.some.inj hi').symm, call⟩
          | some p =>
            dsimp only
            obtain ⟨q1, q2⟩ := ih (nexec w s (b s c a)) p h'
            have later : ∀ k ∈ (walk w b t e fuel (nexec w s (b s c a)) p).1, i < k.id := by
              intro k hk
              cases p with
              | none =>
                exfalso
                cases fuel <;> cases hk
              | some j =>
                have := (after_next h' ha).2.1
                have := (q2 k hk).1 j rfl
                omega
            refine ⟨?_, ?_⟩
            · rw [List.map_cons]
              refine List.pairwise_cons.mpr ⟨?_, q1⟩
              intro x hx
              obtain ⟨k, hk, e⟩ := List.mem_map.mp hx
              rw [← e]; exact later k hk
            · intro k hk
              rcases List.mem_cons.mp hk with rfl | hk
              · exact ⟨fun i' hi' => Nat.le_of_eq (Option.some.inj hi').symm, call⟩
              · refine ⟨?_, (q2 k hk).2⟩
                intro i' hi'
                have := later k hk
                have := Option.some.inj hi'
                omega

/-- **C22 (order, once, live).** Whatever the handlers do to the registrations: the calls of one event
come in the order of registration, no registration is called twice, and at the moment of each call the
registration called exists, is for this event of this object, and is enabled. -/
theorem reentrant_calls (w : World) (b : Beh) (t e fuel : Nat) (s : St) (h : Ok s) :
    ((dispatch w b t e fuel s).1.map Call.id).Pairwise (· < ·) ∧
    (∀ c ∈ (dispatch w b t e fuel s).1,
      ∃ n ∈ c.st.nodes, n.id = c.id ∧ n.reg.trigger = t ∧ n.reg.event = e % 65536 ∧ n.reg.enabled = true ∧
        n.reg.client = some c.client ∧ n.reg.action = c.action) := by
  have := walk_calls (w := w) (b := b) (t := t) (e := e) fuel s (s.nodes.head?.map Node.id) h
  exact ⟨this.1, fun c hc => (this.2 c hc).2⟩

/-- The states the calls of a dispatch are made in: the first in `s`, each next one in the state its
predecessor left.  Specification, no code of its own. -/
def Linked (w : World) (b : Beh) (fin : End) : St → List Call → Prop
  | s, [] => ∀ s', fin = .done s' → s' = s
  | s, c :: cs => c.st = s ∧ Linked w b fin (nexec w s (b s c.client c.action)) cs

/-- **C22 (what a handler does is seen).** The states in which `reentrant_calls` says the registrations
are enabled are those left by the handlers already called: a registration switched off, or deleted, by an
earlier handler of the same event is not called; one switched on is. -/
theorem reentrant_linked (w : World) (b : Beh) (t e : Nat) : ∀ (fuel : Nat) (s : St) (p : Option Nat),
    Linked w b (walk w b t e fuel s p).2 s (walk w b t e fuel s p).1 := by
  intro fuel
  induction fuel with
  | zero =>
    intro s p
    cases p with
    | none => intro s' h; cases h; rfl
    | some i => intro s' h; cases h
  | succ fuel ih =>
    intro s p
    cases p with
    | none => intro s' h; cases h; rfl
    | some i =>
      unfold walk
      cases hf : s.nodes.find? (fun n => n.id == i) with
      | none => intro s' h; cases h
      | some n =>
        dsimp only
        cases hw : wants t e n with
        | none =>
          dsimp only
          cases ha : after i s.nodes with
          | none => intro s' h; cases h
          | some p => exact ih s p
        | some ca =>
          obtain ⟨c, a⟩ := ca
          dsimp only
          cases ha : after i (nexec w s (b s c a)).nodes with
          | none => exact ⟨rfl, fun s' h => by cases h⟩
          | some p => exact ⟨rfl, ih _ p⟩

/-! ### No deleted node is read -/

theorem stepReg_keeps {w : World} {r q : Reg} {o : Op} (h : stepReg w r o = some q) :
    q.trigger = r.trigger ∧ q.event = r.event ∧ q.action = r.action ∧ (q.client = none ∨ q.client = r.client) := by
  cases o <;> simp only [stepReg, Option.some.injEq] at h
  case deleteHandledBy c => split at h <;> simp_all
  case deleteTriggeredBy c => split at h <;> simp_all
  case add => subst h; exact ⟨rfl, rfl, rfl, .inr rfl⟩
  case destroyHandler c =>
    subst h
    cases hc : r.client with
    | none => simp [hc]
    | some x =>
      simp only
      split
      · exact ⟨rfl, rfl, rfl, .inl rfl⟩
      · exact ⟨rfl, rfl, rfl, .inr hc⟩
  all_goals
    subst h
    try unfold Reg.disable
    try unfold Reg.enable
    repeat' split
    all_goals exact ⟨rfl, rfl, rfl, .inr rfl⟩

/-- Only two calls remove a registration. -/
theorem stepReg_some {w : World} {r : Reg} {o : Op} (h1 : o ≠ .deleteTriggeredBy r.trigger)
    (h2 : ∀ c, r.client = some c → o ≠ .deleteHandledBy (w.real c)) : ∃ q, stepReg w r o = some q := by
  cases o <;> simp only [stepReg, Option.some.injEq, exists_eq']
  case deleteHandledBy c =>
    split
    · rename_i h
      exfalso
      unfold handledBy at h
      cases hc : r.client with
      | none => rw [hc] at h; cases h
      | some x =>
        rw [hc] at h
        have : w.real x = c := by simpa using h
        exact h2 x hc (by rw [this])
    · exact ⟨_, rfl⟩
  case deleteTriggeredBy c =>
    split
    · rename_i h
      have : r.trigger = c := by simpa using h
      exact absurd (by rw [this]) h1
    · exact ⟨_, rfl⟩

theorem mem_step {w : World} {s : St} {o : Op} {n m : Node} (hn : n ∈ s.nodes) (h : stepNode w o n = some m) :
    m ∈ (nstep w s o).nodes := by
  have : m ∈ s.nodes.filterMap (stepNode w o) := List.mem_filterMap.mpr ⟨n, hn, h⟩
  unfold nstep
  cases added o with
  | nil => exact this
  | cons r l => exact List.mem_append_left _ this

theorem own_kept {w : World} {t c : Nat} : ∀ (ops : List Op) (s : St) (n : Node), n ∈ s.nodes →
    n.reg.trigger = t → (n.reg.client = none ∨ n.reg.client = some c) →
    (∀ o ∈ ops, o ≠ .deleteTriggeredBy t ∧ o ≠ .deleteHandledBy (w.real c)) →
    ∃ m ∈ (nexec w s ops).nodes, m.id = n.id := by
  intro ops
  induction ops with
  | nil => intro s n hn _ _ _; exact ⟨n, hn, rfl⟩
  | cons o ops ih =>
    intro s n hn ht hc ho
    obtain ⟨o1, o2⟩ := ho o (List.mem_cons_self ..)
    obtain ⟨q, hq⟩ := stepReg_some (w := w) (r := n.reg) (o := o) (by rw [ht]; exact o1) (by
      intro x hx
      rcases hc with hc | hc
      · rw [hc] at hx; cases hx
      · rw [hc] at hx; rw [← Option.some.inj hx]; exact o2)
    have hs : stepNode w o n = some ⟨n.id, q⟩ := by unfold stepNode; rw [hq]
    obtain ⟨k1, _, _, k4⟩ := stepReg_keeps hq
    obtain ⟨m, hm, e⟩ := ih (nstep w s o) ⟨n.id, q⟩ (mem_step hn hs) (by rw [← ht]; exact k1) (by
      dsimp only
      rcases k4 with k4 | k4
      · exact .inl k4
      · rw [k4]; exact hc) (fun x hx => ho x (List.mem_cons_of_mem _ hx))
    exact ⟨m, hm, e⟩

theorem wants_spec {t e : Nat} {n : Node} {c a : Nat} (hw : wants t e n = some (c, a)) :
    n.reg.trigger = t ∧ n.reg.event = e % 65536 ∧ n.reg.enabled = true ∧ n.reg.client = some c ∧ n.reg.action = a := by
  unfold wants callOf at hw
  cases hc : n.reg.client with
  | none => rw [hc] at hw; cases hw
  | some c' =>
    rw [hc] at hw
    dsimp only at hw
    split at hw
    · rename_i g
      have e1 := Option.some.inj hw
      have e2 : c' = c := congrArg Prod.fst e1
      have e3 : n.reg.action = a := congrArg Prod.snd e1
      exact ⟨g.1, g.2.1, g.2.2, by rw [e2], e3⟩
    · cases hw

/-- **C22 (safe).** If no handler deletes the registrations of the object whose event it handles, nor its
own registrations, then no deleted registration is ever read, whatever else the handlers do: they may
delete other handlers' registrations (the one to be called next too), destroy handlers (themselves too),
add registrations, switch them on and off. -/
theorem reentrant_safe (w : World) (b : Beh) (t e fuel : Nat) (s : St) (h : Ok s)
    (hb : ∀ s c a, ∀ o ∈ b s c a, o ≠ .deleteTriggeredBy t ∧ o ≠ .deleteHandledBy (w.real c)) :
    (dispatch w b t e fuel s).2 ≠ .undefined := by
  have key : ∀ (fuel : Nat) (s : St) (p : Option Nat), Ok s → (∀ i, p = some i → ∃ m ∈ s.nodes, m.id = i) →
      (walk w b t e fuel s p).2 ≠ .undefined := by
    intro fuel
    induction fuel with
    | zero => intro s p _ _; cases p <;> exact fun h => by cases h
    | succ fuel ih =>
      intro s p h hp
      cases p with
      | none => exact fun h => by cases h
      | some i =>
        obtain ⟨m0, hm0, e0⟩ := hp i rfl
        unfold walk
        cases hf : s.nodes.find? (fun n => n.id == i) with
        | none =>
          have := List.find?_eq_none.mp hf m0 hm0
          exact absurd (by simpa using e0) this
        | some n =>
          have hn := List.mem_of_find?_eq_some hf
          have hi : n.id = i := by simpa using List.find?_some hf
          dsimp only
          cases hw : wants t e n with
          | none =>
            dsimp only
            cases ha : after i s.nodes with
            | none => exact absurd ha (after_mem ⟨n, hn, hi⟩)
            | some p =>
              exact ih s p h (fun j hj => by subst hj; exact (after_next h ha).1)
          | some ca =>
            obtain ⟨c, a⟩ := ca
            dsimp only
            have h' : Ok (nexec w s (b s c a)) := ok_exec _ h
            obtain ⟨g1, _, _, g4, _⟩ := wants_spec hw
            cases ha : after i (nexec w s (b s c a)).nodes with
            | none =>
              obtain ⟨m, hm, e⟩ := own_kept (b s c a) s n hn g1 (.inr g4) (hb s c a)
              exact absurd ha (after_mem ⟨m, hm, by omega⟩)
            | some p =>
              exact ih _ p h' (fun j hj => by subst hj; exact (after_next h' ha).1)
  refine key fuel s _ h ?_
  intro i hi
  cases hh : s.nodes with
  | nil => rw [hh] at hi; cases hi
  | cons n l =>
    rw [hh] at hi
    exact ⟨n, List.mem_cons_self .., Option.some.inj hi⟩

/-! ### It ends -/

/-- Registrations for this event, from node `i` on. -/
def due (t e i : Nat) (l : List Node) : Nat :=
  l.countP (fun n => decide (i ≤ n.id) && (n.reg.trigger == t && n.reg.event == e % 65536))

theorem countP_filterMap {f : Node → Option Node} {P Q : Node → Bool} (h : ∀ n m, f n = some m → P m = true → Q n = true) :
    ∀ l : List Node, (l.filterMap f).countP P ≤ l.countP Q := by
  intro l
  induction l with
  | nil => exact Nat.le_refl _
  | cons n l ih =>
    simp only [List.filterMap_cons]
    rw [List.countP_cons]
    cases hn : f n with
    | none => dsimp only; omega
    | some m =>
      dsimp only
      rw [List.countP_cons]
      by_cases hp : P m = true
      · rw [if_pos hp, if_pos (h n m hn hp)]; omega
      · rw [if_neg hp]; omega

theorem due_step {w : World} {t e i : Nat} {s : St} {o : Op}
    (ho : ∀ t' c' e' a' al, o = .add t' c' e' a' al → ¬ (t' = t ∧ e' % 65536 = e % 65536)) :
    due t e i (nstep w s o).nodes ≤ due t e i s.nodes := by
  have base : due t e i (s.nodes.filterMap (stepNode w o)) ≤ due t e i s.nodes := by
    apply countP_filterMap
    intro n m hm hp
    have hid := stepNode_id hm
    unfold stepNode at hm
    split at hm
    · rename_i r hr
      obtain ⟨k1, k2, _⟩ := stepReg_keeps hr
      have : m.reg = r := (congrArg Node.reg (Option.some.inj hm)).symm
      rw [this, k1, k2, hid] at hp
      exact hp
    · cases hm
  unfold nstep
  cases o with
  | add t' c' e' a' al =>
    have := ho t' c' e' a' al rfl
    simp only [added]
    have ext : due t e i (s.nodes.filterMap (stepNode w (.add t' c' e' a' al)) ++
        [⟨s.fresh, { trigger := t', client := some c', event := e' % 65536, action := a' % 65536, enabled := true, always := al }⟩])
        = due t e i (s.nodes.filterMap (stepNode w (.add t' c' e' a' al))) := by
      unfold due
      rw [List.countP_append, List.countP_cons, List.countP_nil, if_neg (fun h => by
        rw [Bool.and_eq_true, Bool.and_eq_true, beq_iff_eq, beq_iff_eq] at h
        exact this h.2), Nat.add_zero]
    exact Nat.le_trans (Nat.le_of_eq ext) base
  | _ => exact base

theorem due_exec {w : World} {t e i : Nat} : ∀ (ops : List Op) (s : St),
    (∀ o ∈ ops, ∀ t' c' e' a' al, o = .add t' c' e' a' al → ¬ (t' = t ∧ e' % 65536 = e % 65536)) →
    due t e i (nexec w s ops).nodes ≤ due t e i s.nodes := by
  intro ops
  induction ops with
  | nil => intro s _; exact Nat.le_refl _
  | cons o ops ih =>
    intro s h
    exact Nat.le_trans (ih (nstep w s o) (fun x hx => h x (List.mem_cons_of_mem _ hx)))
      (due_step (h o (List.mem_cons_self ..)))

/-- Counting from a later node gives no more; strictly less if the node passed counted. -/
theorem countP_later {P : Node → Bool} {i j : Nat} (hij : i < j) : ∀ l : List Node,
    l.countP (fun n => decide (j ≤ n.id) && P n) ≤ l.countP (fun n => decide (i ≤ n.id) && P n) ∧
    ((∃ n ∈ l, n.id = i ∧ P n = true) →
      l.countP (fun n => decide (j ≤ n.id) && P n) < l.countP (fun n => decide (i ≤ n.id) && P n)) := by
  intro l
  induction l with
  | nil => exact ⟨Nat.le_refl _, fun ⟨n, hn, _⟩ => by cases hn⟩
  | cons n l ih =>
    rw [List.countP_cons, List.countP_cons]
    have one : (if (decide (j ≤ n.id) && P n) = true then 1 else 0) ≤
        (if (decide (i ≤ n.id) && P n) = true then 1 else 0) := by
      by_cases q : (decide (j ≤ n.id) && P n) = true
      · have q' : (decide (i ≤ n.id) && P n) = true := by
          rw [Bool.and_eq_true, decide_eq_true_eq] at q ⊢
          exact ⟨by omega, q.2⟩
        rw [if_pos q, if_pos q']; exact Nat.le_refl 1
      · rw [if_neg q]; exact Nat.zero_le _
    refine ⟨by omega, ?_⟩
    intro ⟨m, hm, e, hp⟩
    rcases List.mem_cons.mp hm with rfl | hm
    · have q1 : ¬ (decide (j ≤ m.id) && P m) = true := by
        rw [Bool.and_eq_true, decide_eq_true_eq]; omega
      have q2 : (decide (i ≤ m.id) && P m) = true := by
        rw [Bool.and_eq_true, decide_eq_true_eq]; exact ⟨by omega, hp⟩
      rw [if_neg q1, if_pos q2]
      omega
    · have := ih.2 ⟨m, hm, e, hp⟩
      omega

/-- The walk from node `i` ends, by induction on the registrations due and then on the nodes left. -/
theorem walk_ends {w : World} {b : Beh} {t e : Nat}
    (hb : ∀ s c a, ∀ o ∈ b s c a, ∀ t' c' e' a' al, o = .add t' c' e' a' al → ¬ (t' = t ∧ e' % 65536 = e % 65536)) :
    ∀ (k l : Nat) (s : St) (i : Nat), Ok s → due t e i s.nodes = k →
      s.nodes.countP (fun n => decide (i ≤ n.id) && true) = l →
      ∃ fuel, (walk w b t e fuel s (some i)).2 ≠ .more := by
  intro k
  induction k using Nat.strongRecOn with
  | _ k ihk =>
  intro l
  induction l using Nat.strongRecOn with
  | _ l ihl =>
  intro s i h hk hl
  cases hf : s.nodes.find? (fun n => n.id == i) with
  | none => exact ⟨1, by simp only [walk, hf]; exact fun h => by cases h⟩
  | some n =>
    have hn := List.mem_of_find?_eq_some hf
    have hi : n.id = i := by simpa using List.find?_some hf
    cases hw : wants t e n with
    | none =>
      cases ha : after i s.nodes with
      | none => exact ⟨1, by simp only [walk, hf, hw, ha]; exact fun h => by cases h⟩
      | some p =>
        cases p with
        | none => exact ⟨1, by simp only [walk, hf, hw, ha]; exact fun h => by cases h⟩
        | some j =>
          have hij := (after_next h ha).2.1
          have d := (countP_later (P := fun n => n.reg.trigger == t && n.reg.event == e % 65536) hij s.nodes).1
          have c := (countP_later (P := fun _ => true) hij s.nodes).2 ⟨n, hn, hi, rfl⟩
          change due t e j s.nodes ≤ due t e i s.nodes at d
          have : ∃ fuel, (walk w b t e fuel s (some j)).2 ≠ .more := by
            by_cases q : due t e j s.nodes < k
            · exact ihk _ q _ s j h rfl rfl
            · exact ihl _ (by rw [← hl]; exact c) s j h (by omega) rfl
          obtain ⟨fuel, hfu⟩ := this
          exact ⟨fuel + 1, by simp only [walk, hf, hw, ha]; exact hfu⟩
    | some ca =>
      obtain ⟨c, a⟩ := ca
      have h' : Ok (nexec w s (b s c a)) := ok_exec _ h
      cases ha : after i (nexec w s (b s c a)).nodes with
      | none => exact ⟨1, by simp only [walk, hf, hw, ha]; exact fun h => by cases h⟩
      | some p =>
        cases p with
        | none => exact ⟨1, by simp only [walk, hf, hw, ha]; exact fun h => by cases h⟩
        | some j =>
          have hij := (after_next h' ha).2.1
          obtain ⟨g1, g2, _⟩ := wants_spec hw
          have d := (countP_later (P := fun n => n.reg.trigger == t && n.reg.event == e % 65536) hij s.nodes).2
            ⟨n, hn, hi, by simp [g1, g2]⟩
          change due t e j s.nodes < due t e i s.nodes at d
          have d' := due_exec (w := w) (t := t) (e := e) (i := j) (b s c a) s (hb s c a)
          obtain ⟨fuel, hfu⟩ := ihk _ (show due t e j (nexec w s (b s c a)).nodes < k by omega) _ _ j h' rfl rfl
          exact ⟨fuel + 1, by simp only [walk, hf, hw, ha]; exact hfu⟩

/-- **C22 (it ends).** If no handler adds a registration for the very event it handles, the event is over
after finitely many calls, whatever else the handlers do. -/
theorem reentrant_ends (w : World) (b : Beh) (t e : Nat) (s : St) (h : Ok s)
    (hb : ∀ s c a, ∀ o ∈ b s c a, ∀ t' c' e' a' al, o = .add t' c' e' a' al → ¬ (t' = t ∧ e' % 65536 = e % 65536)) :
    ∃ fuel, (dispatch w b t e fuel s).2 ≠ .more := by
  unfold dispatch
  cases hh : s.nodes.head? with
  | none => exact ⟨0, fun h => by cases h⟩
  | some n => exact walk_ends hb _ _ s n.id h rfl rfl

/-! ### Nothing is left out -/

theorem keep_one {w : World} {a : Add} {o : Op} (ho : InRange o) (hk : kills w a o = false)
    (hs : switches a o ≠ some false) : stepReg w (a.reg true) o = some (a.reg true) := by
  rcases stepReg_add w a true (fun _ => rfl) o ho with ⟨k, _⟩ | ⟨_, k⟩
  · rw [hk] at k; cases k
  · rw [k]
    have : (if a.always = true then true else (switches a o).getD true) = true := by
      cases hq : switches a o with
      | none => simp
      | some v =>
        cases v with
        | false => exact absurd hq hs
        | true => simp
    rw [this]

theorem keep_all {w : World} {a : Add} {i : Nat} : ∀ (ops : List Op) (s : St), (⟨i, a.reg true⟩ : Node) ∈ s.nodes →
    (∀ o ∈ ops, InRange o ∧ kills w a o = false ∧ switches a o ≠ some false) →
    (⟨i, a.reg true⟩ : Node) ∈ (nexec w s ops).nodes := by
  intro ops
  induction ops with
  | nil => intro s h _; exact h
  | cons o ops ih =>
    intro s h ho
    obtain ⟨o1, o2, o3⟩ := ho o (List.mem_cons_self ..)
    refine ih (nstep w s o) (mem_step h ?_) (fun x hx => ho x (List.mem_cons_of_mem _ hx))
    unfold stepNode
    rw [keep_one o1 o2 o3]

theorem node_unique {s : St} (h : Ok s) {m n : Node} (hm : m ∈ s.nodes) (hn : n ∈ s.nodes) (e : m.id = n.id) : m = n := by
  have hs := h.sorted
  generalize s.nodes = l at *
  induction l with
  | nil => cases hm
  | cons k l ih =>
    have hs' := List.pairwise_cons.mp hs
    rcases List.mem_cons.mp hm with h1 | h1 <;> rcases List.mem_cons.mp hn with h2 | h2
    · rw [h1, h2]
    · have := hs'.1 n h2; rw [h1] at e; omega
    · have := hs'.1 m h1; rw [h2] at e; omega
    · exact ih h1 h2 hs'.2

/-- **C22 (nothing left out).** A registration that is live and enabled when the event comes, and that no
handler removes or switches off meanwhile, is called before the event is over, also if handlers add,
remove or switch other registrations. -/
theorem reentrant_complete (w : World) (b : Beh) (t e fuel : Nat) (s s' : St) (h : Ok s) (a : Add) (i : Nat)
    (ht : a.trigger = t) (he : a.event = e % 65536) (hi : (⟨i, a.reg true⟩ : Node) ∈ s.nodes)
    (hb : ∀ s c x, ∀ o ∈ b s c x, InRange o ∧ kills w a o = false ∧ switches a o ≠ some false)
    (hd : (dispatch w b t e fuel s).2 = .done s') :
    ∃ k ∈ (dispatch w b t e fuel s).1, k.id = i ∧ k.client = a.client ∧ k.action = a.action := by
  have want : wants t e ⟨i, a.reg true⟩ = some (a.client, a.action) := by
    unfold wants callOf Add.reg
    dsimp only
    rw [if_pos ⟨ht, he, rfl⟩]
  have key : ∀ (fuel : Nat) (s : St) (p : Option Nat), Ok s → (⟨i, a.reg true⟩ : Node) ∈ s.nodes →
      (∃ j, p = some j ∧ j ≤ i) → (walk w b t e fuel s p).2 = .done s' →
      ∃ k ∈ (walk w b t e fuel s p).1, k.id = i ∧ k.client = a.client ∧ k.action = a.action := by
    intro fuel
    induction fuel with
    | zero => intro s p _ _ ⟨j, hj, _⟩ hd; subst hj; cases hd
    | succ fuel ih =>
      intro s p h hm ⟨j, hj, hji⟩ hd
      subst hj
      cases hf : s.nodes.find? (fun n => n.id == j) with
      | none => simp only [walk, hf] at hd; cases hd
      | some n =>
        have hn := List.mem_of_find?_eq_some hf
        have hnj : n.id = j := by simpa using List.find?_some hf
        cases hw : wants t e n with
        | none =>
          have hne : j ≠ i := fun q => by
            have := node_unique h hn hm (by dsimp only; omega)
            rw [this, want] at hw; cases hw
          cases ha : after j s.nodes with
          | none => simp only [walk, hf, hw, ha] at hd; cases hd
          | some p =>
            simp only [walk, hf, hw, ha] at hd ⊢
            refine ih s p h hm ?_ hd
            cases p with
            | none =>
              have : i ≤ j := after_last h ha _ hm
              omega
            | some q => exact ⟨q, rfl, (after_next h ha).2.2 _ hm (by dsimp only; omega)⟩
        | some ca =>
          obtain ⟨c, x⟩ := ca
          have h' : Ok (nexec w s (b s c x)) := ok_exec _ h
          have hm' := keep_all (b s c x) s hm (hb s c x)
          cases ha : after j (nexec w s (b s c x)).nodes with
          | none => simp only [walk, hf, hw, ha] at hd; cases hd
          | some p =>
            simp only [walk, hf, hw, ha] at hd ⊢
            by_cases q : j = i
            · have := node_unique h hn hm (by dsimp only; omega)
              rw [this, want] at hw
              have e1 := Option.some.inj hw
              exact ⟨_, List.mem_cons_self .., q, (congrArg Prod.fst e1).symm, (congrArg Prod.snd e1).symm⟩
            · have : ∃ j, p = some j ∧ j ≤ i := by
                cases p with
                | none =>
                  have : i ≤ j := after_last h' ha _ hm'
                  omega
                | some r => exact ⟨r, rfl, (after_next h' ha).2.2 _ hm' (by dsimp only; omega)⟩
              obtain ⟨k, hk, hk2⟩ := ih _ p h' hm' this hd
              exact ⟨k, List.mem_cons_of_mem _ hk, hk2⟩
  refine key fuel s _ h hi ?_ hd
  have hs := h.sorted
  cases hh : s.nodes with
  | nil => rw [hh] at hi; cases hi
  | cons n l =>
    rw [hh] at hi hs
    refine ⟨n.id, rfl, ?_⟩
    rcases List.mem_cons.mp hi with q | q
    · rw [← q]; exact Nat.le_refl _
    · exact Nat.le_of_lt ((List.pairwise_cons.mp hs).1 _ q)

/-! ### What goes wrong -/

/-- An event always comes to an end in a defined way, whatever the handlers do through the API. -/
def ReentrantSafe : Prop :=
  ∀ (w : World) (b : Beh) (t e : Nat) (s : St), Ok s →
    ∃ fuel s', (dispatch w b t e fuel s).2 = .done s'

/-- Handlers without conditions. -/
def plainWorld : World := { isCond := fun _ => false, real := fun c => c }

/-- One registration: object 1, handler 2, event 0, action 3. -/
def oneReg : St := ⟨[⟨0, { trigger := 1, client := some 2, event := 0, action := 3, enabled := true, always := false }⟩], 1⟩

theorem oneReg_ok : Ok oneReg :=
  ⟨List.pairwise_singleton .., fun n hn => by rw [List.mem_singleton.mp hn]; exact Nat.lt_succ_self 0⟩

/-- **C22 (violation).** A handler that unregisters itself (`DeleteActionsHandledBy`) when it is called
frees the node `runAction` stands on: `ptr->next` is then read from freed memory. -/
theorem self_delete_violation : ¬ ReentrantSafe ∧
    ∀ fuel, (dispatch plainWorld (fun _ _ _ => [.deleteHandledBy 2]) 1 0 (fuel + 1) oneReg).2 = .undefined := by
  have key : ∀ fuel, (dispatch plainWorld (fun _ _ _ => [.deleteHandledBy 2]) 1 0 (fuel + 1) oneReg).2 = .undefined :=
    fun fuel => rfl
  refine ⟨fun h => ?_, key⟩
  obtain ⟨fuel, s', hd⟩ := h plainWorld (fun _ _ _ => [.deleteHandledBy 2]) 1 0 oneReg oneReg_ok
  cases fuel with
  | zero => cases hd
  | succ fuel => rw [key fuel] at hd; cases hd

/-- **C22 (violation).** A handler that registers itself once more for the event it handles is called
again for the new registration, in the same dispatch, and so on without end. -/
theorem self_add_violation :
    ∀ fuel, (dispatch plainWorld (fun _ _ _ => [.add 1 2 0 3 false]) 1 0 fuel oneReg).2 = .more := by
  have key : ∀ (fuel : Nat) (s : St) (i : Nat), Ok s → (∃ m ∈ s.nodes, m.id = i) →
      (∀ n ∈ s.nodes, n.reg = (⟨1, some 2, 0, 3, true, false⟩ : Reg)) →
      (walk plainWorld (fun _ _ _ => [.add 1 2 0 3 false]) 1 0 fuel s (some i)).2 = .more := by
    intro fuel
    induction fuel with
    | zero => intro s i _ _ _; rfl
    | succ fuel ih =>
      intro s i h ⟨m0, hm0, e0⟩ hall
      cases hf : s.nodes.find? (fun n => n.id == i) with
      | none => exact absurd (by simpa using e0) (List.find?_eq_none.mp hf m0 hm0)
      | some n =>
        have hn := List.mem_of_find?_eq_some hf
        have hi : n.id = i := by simpa using List.find?_some hf
        have hw : wants 1 0 n = some (2, 3) := by unfold wants; rw [hall n hn]; rfl
        have hnodes : (nexec plainWorld s [.add 1 2 0 3 false]).nodes =
            s.nodes ++ [⟨s.fresh, ⟨1, some 2, 0, 3, true, false⟩⟩] := by
          have : ∀ l : List Node, l.filterMap (stepNode plainWorld (.add 1 2 0 3 false)) = l := by
            intro l
            induction l with
            | nil => rfl
            | cons k l ih => simp only [List.filterMap_cons, stepNode, stepReg, ih]
          simp only [nexec, List.foldl_cons, List.foldl_nil, nstep, added, this]
        have h' : Ok (nexec plainWorld s [.add 1 2 0 3 false]) := ok_exec _ h
        have hall' : ∀ n ∈ (nexec plainWorld s [.add 1 2 0 3 false]).nodes, n.reg = (⟨1, some 2, 0, 3, true, false⟩ : Reg) := by
          intro k hk
          rw [hnodes] at hk
          rcases List.mem_append.mp hk with hk | hk
          · exact hall k hk
          · rw [List.mem_singleton.mp hk]
        cases ha : after i (nexec plainWorld s [.add 1 2 0 3 false]).nodes with
        | none =>
          exact absurd ha (after_mem ⟨n, by rw [hnodes]; exact List.mem_append_left _ hn, hi⟩)
        | some p =>
          simp only [walk, hf, hw, ha]
          cases p with
          | none =>
            exfalso
            have := after_last h' ha ⟨s.fresh, ⟨1, some 2, 0, 3, true, false⟩⟩ (by rw [hnodes]; simp)
            have := h.old n hn
            dsimp only at *
            omega
          | some j => exact ih _ j h' (after_next h' ha).1 hall'
  intro fuel
  exact key fuel oneReg 0 oneReg_ok ⟨_, List.mem_singleton.mpr rfl, rfl⟩ (fun n hn => by rw [List.mem_singleton.mp hn])

/-- The hypotheses are met: three handlers; the first switches the second off and registers the third
for another event: only the first and third are called, and it ends. -/
example :
    let s := nexec plainWorld ⟨[], 0⟩ [.add 1 2 0 10 false, .add 1 3 0 11 false, .add 1 4 0 12 false]
    let b : Beh := fun _ c _ => if c = 2 then [.disable 1 (-1) 3 (-1), .add 1 4 7 13 false] else []
    (dispatch plainWorld b 1 0 10 s).1.map (fun k => (k.client, k.action)) = [(2, 10), (4, 12)] ∧
    (∃ s', (dispatch plainWorld b 1 0 10 s).2 = .done s') := by
  refine ⟨by decide +kernel, ⟨_, rfl⟩⟩

end Verif.Actions
