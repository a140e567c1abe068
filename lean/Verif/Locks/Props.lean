import Verif.Locks.Model

/-!
# C154: guarded data is used by one task at a time and no task waits for ever
-/

namespace Verif.Locks

/-- A sequence of events that is in order for a task that has the mutex or not
at its beginning: taken only when the task does not have it, given back and the
data used only when it does, and free at the end. -/
def Orderly : Bool → List Ev → Prop
  | have_, [] => have_ = false
  | have_, .take :: es => have_ = false ∧ Orderly true es
  | have_, .give :: es => have_ = true ∧ Orderly false es
  | have_, .touch :: es => have_ = true ∧ Orderly have_ es

/-- The full claim for a method: in order from a free mutex. -/
def Guards (es : List Ev) : Prop := Orderly false es

theorem orderly_append (b : Bool) (es fs : List Ev) (h : Orderly b es) (hf : Orderly false fs) :
    Orderly b (es ++ fs) := by
  induction es generalizing b with
  | nil => cases (show b = false from h); exact hf
  | cons e es ih =>
    cases e with
    | take => exact ⟨h.1, ih true h.2⟩
    | give => exact ⟨h.1, ih false h.2⟩
    | touch => exact ⟨h.1, ih b h.2⟩

/-! ## AutoLock -/

/-- Whatever calls of `lock` and `unlock` are made on it, a scope that touches
nothing takes and gives the mutex in turn and leaves it free. -/
theorem autolock_balanced (as : List Act) (h : ∀ a ∈ as, a = .lock ∨ a = .unlock) :
    Guards (scope as) := by
  have key : ∀ (as : List Act) (b : Bool), (∀ a ∈ as, a = .lock ∨ a = .unlock) →
      Orderly b (body b as) := by
    intro as
    induction as with
    | nil => intro b _; cases b <;> simp [body, doUnlock, Orderly]
    | cons a as ih =>
      intro b hb
      have ht : ∀ a ∈ as, a = .lock ∨ a = .unlock := fun x hx => hb x (List.mem_cons_of_mem _ hx)
      rcases hb a List.mem_cons_self with e | e
      · subst e
        cases b
        · exact ⟨rfl, ih true ht⟩
        · exact ih true ht
      · subst e
        cases b
        · exact ih false ht
        · exact ⟨rfl, ih false ht⟩
  exact ⟨rfl, key as true h⟩

example : Guards (scope [.lock, .unlock, .unlock, .lock, .lock]) :=
  autolock_balanced _ (by simp)

/-! ## The client -/

theorem stop_guards : Guards stop := by simp [Guards, stop, scope, body, doLock, doUnlock, Orderly]

theorem connect_guards (present memory : Bool) : Guards (connectImp present memory) := by
  cases present <;> cases memory <;>
    simp [Guards, connectImp, scope, body, doLock, doUnlock, Orderly]

theorem write_guards (present : Bool) : Guards (writeImp present) := by
  cases present <;> simp [Guards, writeImp, scope, body, doLock, doUnlock, Orderly]

theorem available_guards (first err again : Bool) (size : Int) :
    Guards (available first err again size) := by
  unfold available availableActs
  by_cases h : size < 0
  · rw [if_pos h]
    cases first <;> cases err <;> cases again <;>
      simp [Guards, stop, scope, body, doLock, doUnlock, Orderly]
  · rw [if_neg h]
    cases first <;> cases err <;> cases again <;>
      simp [Guards, stop, scope, body, doLock, doUnlock, Orderly]

theorem readLoop_orderly (rs : List Round) (b : Bool) : Orderly b (body b (readLoop rs)) := by
  induction rs generalizing b with
  | nil => cases b <;> simp [readLoop, body, doUnlock, Orderly]
  | cons r rs ih =>
    cases r with
    | again =>
      have := ih false
      cases b <;> simp only [readLoop, List.cons_append, List.nil_append, body, doLock, doUnlock] <;>
        simpa [Orderly] using this
    | gone => cases b <;> simp [readLoop, body, doLock, doUnlock, Orderly]
    | failed => cases b <;> simp [readLoop, body, doLock, doUnlock, Orderly]
    | closed => cases b <;> simp [readLoop, body, doLock, doUnlock, Orderly, stop, scope]
    | data => cases b <;> simp [readLoop, body, doLock, doUnlock, Orderly]

/-- Reading, with any number of rounds of its loop. -/
theorem read_guards (first err again : Bool) (size : Int) (rs : List Round) :
    Guards (readImp first err again size rs) := by
  refine orderly_append false _ _ (available_guards first err again size) ?_
  split
  · exact ⟨rfl, readLoop_orderly rs true⟩
  · rfl

example : Guards (readImp true false true 5 [.again, .again, .closed]) :=
  read_guards true false true 5 _

/-! ## The LEDs -/

theorem simple_guards : Guards simple := by
  simp [Guards, simple, scope, body, doLock, doUnlock, Orderly]

theorem ledIterate_guards (ended : Bool) : Guards (ledIterate ended) := by
  cases ended <;> simp [Guards, ledIterate, simple, scope, body, doLock, doUnlock, Orderly]

/-- A custom sequence shows its first state on the pin after the lock is
released: the data is used without the mutex. -/
theorem custom_unguarded_violation : ¬ Guards customSequence := by
  simp [Guards, customSequence, scope, body, doLock, doUnlock, Orderly]

/-! ## All tasks together -/

/-- The methods that keep the order.  The client and the LED have a mutex each; what follows is said of
one mutex, so for either of them. -/
inductive Method : List Ev → Prop where
  | stop : Method stop
  | connect (p m : Bool) : Method (connectImp p m)
  | write (p : Bool) : Method (writeImp p)
  | available (f e a : Bool) (n : Int) : Method (available f e a n)
  | read (f e a : Bool) (n : Int) (rs : List Round) : Method (readImp f e a n rs)
  | simple : Method simple
  | iterate (e : Bool) : Method (ledIterate e)

theorem method_guards (es : List Ev) (h : Method es) : Guards es := by
  cases h with
  | stop => exact stop_guards
  | connect p m => exact connect_guards p m
  | write p => exact write_guards p
  | available f e a n => exact available_guards f e a n
  | read f e a n rs => exact read_guards f e a n rs
  | simple => exact simple_guards
  | iterate e => exact ledIterate_guards e

/-- Any methods one after another. -/
theorem methods_guard (ms : List (List Ev)) (h : ∀ m ∈ ms, Method m) : Guards ms.flatten := by
  induction ms with
  | nil => rfl
  | cons m ms ih =>
    rw [List.flatten_cons]
    exact orderly_append false _ _ (method_guards m (h m List.mem_cons_self))
      (ih fun x hx => h x (List.mem_cons_of_mem _ hx))

/-- Every task is in order, given whether it has the mutex. -/
def Good (w : World) : Prop := ∀ t, Orderly (decide (w.holder = some t)) (w.todo t)

theorem step_good (w w' : World) (t : Nat) (hg : Good w) (hs : step w t = some w') : Good w' := by
  have ht := hg t
  unfold step at hs
  cases he : w.todo t with
  | nil => rw [he] at hs; cases hs
  | cons e es =>
    rw [he] at hs ht
    cases e with
    | take =>
      cases hh : w.holder with
      | some o => rw [hh] at hs; cases hs
      | none =>
        rw [hh] at hs
        dsimp only at hs
        cases hs
        intro u
        dsimp only
        by_cases hu : u = t
        · rw [if_pos hu, hu, decide_eq_true rfl]
          exact ht.2
        · rw [if_neg hu, decide_eq_false (fun e => hu (Option.some.inj e).symm)]
          have := hg u
          rw [hh] at this
          simpa using this
    | give =>
      dsimp only at hs
      cases hs
      have hme : w.holder = some t := of_decide_eq_true ht.1
      intro u
      dsimp only
      rw [if_pos hme]
      by_cases hu : u = t
      · rw [if_pos hu]
        simpa using ht.2
      · rw [if_neg hu]
        have := hg u
        rw [hme, decide_eq_false (fun e => hu (Option.some.inj e).symm)] at this
        simpa using this
    | touch =>
      dsimp only at hs
      cases hs
      intro u
      dsimp only
      by_cases hu : u = t
      · rw [if_pos hu, hu]
        exact ht.2
      · rw [if_neg hu]
        exact hg u

theorem run_good (ts : List Nat) (w : World) (hg : Good w) : Good (run w ts) := by
  induction ts generalizing w with
  | nil => exact hg
  | cons t ts ih =>
    apply ih
    cases hs : step w t with
    | none => exact hg
    | some w' => exact step_good w w' t hg hs

theorem begins_good (todo : Nat → List Ev) (h : ∀ t, Guards (todo t)) : Good (begins todo) :=
  fun t => by simpa [begins, Guards] using h t

/-- Any number of tasks, each calling any of the methods in any order: under
every schedule a task about to use the data has the mutex. -/
theorem exclusive (calls : Nat → List (List Ev)) (h : ∀ t, ∀ m ∈ calls t, Method m)
    (ts : List Nat) (t : Nat) (es : List Ev)
    (he : (run (begins fun u => (calls u).flatten) ts).todo t = .touch :: es) :
    (run (begins fun u => (calls u).flatten) ts).holder = some t := by
  have hg := run_good ts _ (begins_good _ fun u => methods_guard (calls u) (h u)) t
  rw [he] at hg
  exact of_decide_eq_true hg.1

/-- Under every schedule two tasks are never both about to use the data. -/
theorem one_at_a_time (calls : Nat → List (List Ev)) (h : ∀ t, ∀ m ∈ calls t, Method m)
    (ts : List Nat) (t u : Nat) (es fs : List Ev)
    (he : (run (begins fun u => (calls u).flatten) ts).todo t = .touch :: es)
    (hf : (run (begins fun u => (calls u).flatten) ts).todo u = .touch :: fs) : t = u := by
  have h1 := exclusive calls h ts t es he
  have h2 := exclusive calls h ts u fs hf
  rw [h1] at h2
  exact Option.some.inj h2

/-- Under every schedule, while any task has something left to do, some task can
go on. -/
theorem no_deadlock (calls : Nat → List (List Ev)) (h : ∀ t, ∀ m ∈ calls t, Method m)
    (ts : List Nat) (t : Nat)
    (he : (run (begins fun u => (calls u).flatten) ts).todo t ≠ []) :
    ∃ u w', step (run (begins fun u => (calls u).flatten) ts) u = some w' := by
  have hg := run_good ts _ (begins_good _ fun u => methods_guard (calls u) (h u))
  generalize run (begins fun u => (calls u).flatten) ts = w at he hg
  cases hh : w.holder with
  | some o =>
    have ho := hg o
    rw [hh, decide_eq_true rfl] at ho
    cases hd : w.todo o with
    | nil => rw [hd] at ho; cases (show true = false from ho)
    | cons e es =>
      rw [hd] at ho
      refine ⟨o, ?_⟩
      cases e with
      | take => cases ho.1
      | give => unfold step; rw [hd]; exact ⟨_, rfl⟩
      | touch => unfold step; rw [hd]; exact ⟨_, rfl⟩
  | none =>
    have ht := hg t
    rw [hh] at ht
    cases hd : w.todo t with
    | nil => exact absurd hd he
    | cons e es =>
      rw [hd] at ht
      refine ⟨t, ?_⟩
      cases e with
      | take => unfold step; rw [hd, hh]; exact ⟨_, rfl⟩
      | give => cases (show decide ((none : Option Nat) = some t) = true from ht.1)
      | touch => cases (show decide ((none : Option Nat) = some t) = true from ht.1)

/-- With a custom sequence set by one task while the timer of the LED runs in
another, there is a schedule after which both are about to use the pin. -/
theorem custom_race_violation :
    ∃ ts es fs,
      (run (begins fun t => if t = 0 then customSequence else if t = 1 then simple else []) ts).todo 0
        = .touch :: es ∧
      (run (begins fun t => if t = 0 then customSequence else if t = 1 then simple else []) ts).todo 1
        = .touch :: fs := by
  refine ⟨[0, 0, 0, 1], [], [.give], ?_, ?_⟩ <;> decide

/-- A scope that calls a method of the same object without releasing its lock
never ends: why `available` and `readImp` release theirs before `stop`. -/
theorem nested_waits (ts : List Nat) (t : Nat)
    (w : World) (hw : w.holder = some t) (es : List Ev) (he : w.todo t = .take :: es)
    (ho : ∀ u, u ≠ t → Orderly false (w.todo u)) :
    (run w ts).holder = some t ∧ (run w ts).todo t = .take :: es := by
  have key : ∀ (ts : List Nat) (w : World), w.holder = some t → w.todo t = .take :: es →
      (∀ u, u ≠ t → Orderly false (w.todo u)) →
      (run w ts).holder = some t ∧ (run w ts).todo t = .take :: es := by
    intro ts
    induction ts with
    | nil => intro w hw he _; exact ⟨hw, he⟩
    | cons u ts ih =>
      intro w hw he ho
      have hs : step w u = none := by
        unfold step
        by_cases hu : u = t
        · rw [hu, he, hw]
        · have := ho u hu
          cases hd : w.todo u with
          | nil => rfl
          | cons e fs =>
            rw [hd] at this
            cases e with
            | take => rw [hw]
            | give => cases this.1
            | touch => cases this.1
      have e : run w (u :: ts) = run w ts := by
        show run ((step w u).getD w) ts = run w ts
        rw [hs]
        rfl
      rw [e]
      exact ih w hw he ho
  exact key ts w hw he ho

end Verif.Locks
