import Verif.Trigger.Props

/-!
# Action trigger: examples, findings, the queue
-/

namespace Verif.Trigger

open Verif.Actions (Reg runAction)

/-! ## Examples -/

instance : Inhabited At := ⟨{}⟩

/-- A push button (1) that toggles (3) a relay (5) when pressed, with a trigger (9). -/
def push1 : List Reg := [{ trigger := 1, client := some 5, event := onPress, action := 3, enabled := true, always := false }]

/-- After the start nothing is sent and the relay follows the press. When the server uses the double click, a click
toggles the relay, two clicks send the trigger. When it uses the click, the relay is left alone. -/
example : ∃ x, init .monostable 1 9 0 {} push1 = some x ∧ Fresh 9 {} push1 ∧ x.1.off = some 0 ∧
    runAction 1 onPress x.2 = [(5, 3)] ∧ runAction 1 onClick1 x.2 = [] ∧ pushed 1 9 x 5 = [] ∧
    runAction 1 onPress (configs 1 9 x [1#32 <<< 12]).2 = [] ∧ runAction 1 onClick1 (configs 1 9 x [1#32 <<< 12]).2 = [(5, 3)] ∧
    pushed 1 9 (configs 1 9 x [1#32 <<< 12]) 5 = [1#32 <<< 12] ∧
    runAction 1 onPress (configs 1 9 x [1#32 <<< 11]).2 = [] ∧ pushed 1 9 (configs 1 9 x [1#32 <<< 11]) onClick1 = [1#32 <<< 11] ∧
    runAction 1 onClick1 (configs 1 9 x [1#32 <<< 11]).2 = [(9, 57)] ∧
    11 ∈ x.1.disables ∧ runAction 1 onPress (configs 1 9 x [1#32 <<< 11, 0]).2 = [(5, 3)] := by
  refine ⟨(init .monostable 1 9 0 {} push1).get!, by decide +kernel, ⟨rfl, rfl, by decide, by decide⟩, ?_⟩
  decide +kernel

/-! ## Findings -/

/-- The claim that the moved operation is done once per click, by the press or by the click. -/
def Once : Prop := ∀ (k : Kind) (b t : Nat) (dc : BitVec 32) (a : At) (regs : List Reg) (as : List (BitVec 32)) (x0 : At × List Reg),
  Fresh t a regs → init k b t dc a regs = some x0 → ∀ (i : Nat) (r : Reg) (cl : Nat), x0.1.off = some i → regs[i]? = some r → r.client = some cl →
  (∀ r' ∈ regs, r'.event = onClick1 → r'.action ≠ r.action) →
  ¬ ((cl, r.action) ∈ runAction b r.event (configs b t x0 as).2 ∧ (cl, r.action) ∈ runAction b onClick1 (configs b t x0 as).2)

/-- The relay is toggled by the press and switched off (2) by the click. -/
def push2 : List Reg := push1 ++ [{ trigger := 1, client := some 5, event := onClick1, action := 2, enabled := true, always := false }]

/-- With an operation of its own for the click of the same element, the wrong registration is switched: the relay is
toggled by the press and again by the click, and its own operation for the click is never done. -/
theorem second_click_violation : ¬ Once ∧ ∀ as : List (BitVec 32), (∀ m ∈ as, m = 0) → ∃ x, init .monostable 1 9 0 {} push2 = some x ∧
    runAction 1 onPress (configs 1 9 x as).2 = [(5, 3)] ∧ runAction 1 onClick1 (configs 1 9 x as).2 = [(5, 3)] := by
  refine ⟨fun h => ?_, fun as has => ?_⟩
  · have := h .monostable 1 9 0 {} push2 [] (init .monostable 1 9 0 {} push2).get! ⟨rfl, rfl, by decide, by decide⟩ (by decide +kernel) 0
      { trigger := 1, client := some 5, event := onPress, action := 3, enabled := true, always := false } 5 (by decide +kernel) rfl rfl (by decide)
    revert this
    decide +kernel
  · refine ⟨(init .monostable 1 9 0 {} push2).get!, by decide +kernel, ?_⟩
    have hfix : config 1 9 (init .monostable 1 9 0 {} push2).get! 0 = (init .monostable 1 9 0 {} push2).get! := by decide +kernel
    have : configs 1 9 (init .monostable 1 9 0 {} push2).get! as = (init .monostable 1 9 0 {} push2).get! := by
      induction as with
      | nil => rfl
      | cons m as ih =>
        show configs 1 9 (config 1 9 _ m) as = _
        rw [has m List.mem_cons_self, hfix]
        exact ih fun q hq => has q (List.mem_cons_of_mem _ hq)
    rw [this]
    decide +kernel

/-- An always-enabled operation on the press. -/
def push3 : List Reg := [{ trigger := 1, client := some 5, event := onPress, action := 3, enabled := true, always := true }]

/-- An always-enabled operation is moved as well, but stays where it was: it is done twice. -/
theorem always_twice_violation : ∃ x, init .monostable 1 9 0 {} push3 = some x ∧
    runAction 1 onPress (configs 1 9 x [1#32 <<< 12]).2 = [(5, 3)] ∧ runAction 1 onClick1 (configs 1 9 x [1#32 <<< 12]).2 = [(5, 3)] := by
  refine ⟨(init .monostable 1 9 0 {} push3).get!, by decide +kernel, by decide +kernel, by decide +kernel⟩

/-- The claim that `onInit` works with every list of registrations. -/
def InitDefined : Prop := ∀ (k : Kind) (b t : Nat) (dc : BitVec 32) (a : At) (regs : List Reg), Fresh t a regs → (init k b t dc a regs).isSome

/-- When the element for the press was destroyed before, its registration is still counted, and a method of a null
pointer is called. -/
theorem null_handler_violation : ¬ InitDefined := by
  intro h
  have := h .monostable 1 9 0 {} [{ trigger := 1, client := none, event := onPress, action := 3, enabled := true, always := false }] ⟨rfl, rfl, by decide, by decide⟩
  revert this
  decide +kernel

/-- The claim that a registration that the program has disabled stays disabled. -/
def DisabledStays : Prop := ∀ (k : Kind) (b t : Nat) (dc : BitVec 32) (a : At) (regs : List Reg) (as : List (BitVec 32)) (x0 : At × List Reg),
  Fresh t a regs → init k b t dc a regs = some x0 → ∀ (i : Nat) (r : Reg), regs[i]? = some r → r.enabled = false → x0.1.off ≠ some i → x0.1.on ≠ some i →
  (configs b t x0 as).2[i]? = some r

/-- An operation for the double click that the program had disabled is enabled by `onInit`. -/
theorem enabled_again_violation : ¬ DisabledStays := by
  intro h
  have := h .monostable 1 9 0 {} [{ trigger := 1, client := some 5, event := 5, action := 3, enabled := false, always := false }] []
    (init .monostable 1 9 0 {} [{ trigger := 1, client := some 5, event := 5, action := 3, enabled := false, always := false }]).get!
    ⟨rfl, rfl, by decide, by decide⟩ (by decide +kernel) 0 _ rfl rfl (by decide +kernel) (by decide +kernel)
  revert this
  decide +kernel

/-! ## The queue -/

/-- The actions of a mask, lowest first. -/
def bits (m : BitVec 32) : List Nat := (List.range 32).filter fun i => m.getLsbD i

theorem lowest_head (m : BitVec 32) : lowest m = (bits m).head? := by
  unfold lowest bits
  rw [List.head?_filter]

theorem bits_nil {m : BitVec 32} (h : bits m = []) : m = 0 := by
  unfold bits at h
  rw [List.filter_eq_nil_iff] at h
  apply BitVec.eq_of_getLsbD_eq
  intro i hi
  have := h i (List.mem_range.mpr hi)
  simpa using this

theorem bits_zero : bits 0 = [] := by decide

theorem xor_bit (m : BitVec 32) (i j : Nat) (hj : j < 32) :
    (m ^^^ (1#32 <<< i)).getLsbD j = (m.getLsbD j ^^ decide (i = j)) := by
  rw [BitVec.getLsbD_xor, BitVec.getLsbD_shiftLeft]
  by_cases hij : j = i
  · subst hij
    simp [hj]
  · have : ¬ i = j := fun x => hij x.symm
    by_cases hlt : j < i
    · simp [hlt, this]
    · have h0 : ¬ (j - i = 0) := by omega
      simp [BitVec.getLsbD_one, h0, this]

theorem bits_pop {m : BitVec 32} {i : Nat} {rest : List Nat} (h : bits m = i :: rest) : bits (m ^^^ (1#32 <<< i)) = rest := by
  have hm : i ∈ bits m := by rw [h]; exact List.mem_cons_self
  have hi := List.mem_filter.mp hm
  have hnd : (bits m).Nodup := List.Pairwise.filter _ List.nodup_range
  have h1 : bits (m ^^^ (1#32 <<< i)) = (bits m).filter (fun j => decide (j ≠ i)) := by
    unfold bits
    rw [List.filter_filter]
    apply List.filter_congr
    intro j hj
    rw [xor_bit m i j (List.mem_range.mp hj)]
    by_cases hij : i = j
    · subst hij
      simp [hi.2]
    · have : ¬ j = i := fun x => hij x.symm
      simp [hij, this]
  rw [h1, h, List.filter_cons, if_neg (by simp)]
  rw [h, List.nodup_cons] at hnd
  apply List.filter_eq_self.mpr
  intro j hj
  have : j ≠ i := fun x => hnd.1 (x ▸ hj)
  simpa using this

/-- The flag says whether something is in the queue. -/
def Queue.Sound (q : Queue) : Prop := q.changed = decide (q.acts ≠ 0)

theorem pop_cons {q : Queue} {i : Nat} {rest : List Nat} (h : bits q.acts = i :: rest) :
    q.pop = ({ q with acts := q.acts ^^^ (1#32 <<< i), changed := if q.acts ^^^ (1#32 <<< i) = 0 then false else q.changed }, some i) := by
  unfold Queue.pop
  rw [lowest_head, h]
  rfl

theorem pop_nil {q : Queue} (h : bits q.acts = []) : q.pop = (q, none) := by
  unfold Queue.pop
  rw [lowest_head, h]
  rfl

/-- Pushing a real action keeps the queue sound. -/
theorem push_sound {q : Queue} (m : BitVec 32) (hm : m ≠ 0) : (q.push m).Sound := by
  unfold Queue.Sound Queue.push
  symm
  apply decide_eq_true
  intro h
  apply hm
  apply BitVec.eq_of_getLsbD_eq
  intro i hi
  have : (q.acts ||| m).getLsbD i = false := by
    show _ = _
    rw [show q.acts ||| m = 0 from h]
    simp
  rw [BitVec.getLsbD_or] at this
  simp at this
  simpa using this.2

/-- Everything in the queue is sent, once, the lowest action first, then the configuration is asked for if that was
wanted. -/
theorem drained (q : Queue) (hs : q.Sound) : ∀ n, (bits q.acts).length + 1 ≤ n →
    q.passes n = ({ acts := 0, changed := false, request := false }, (bits q.acts).map .trigger ++ if q.request then [.getConfig] else []) := by
  generalize hb : bits q.acts = l
  induction l generalizing q with
  | nil =>
    intro n hn
    have h0 := bits_nil hb
    have hc : q.changed = false := by unfold Queue.Sound at hs; rw [hs, h0]; rfl
    obtain ⟨acts, changed, request⟩ := q
    have hc : changed = false := hc
    have h0 : acts = 0 := h0
    subst hc h0
    cases n with
    | zero => simp at hn
    | succ n =>
      cases request with
      | false => rfl
      | true =>
        cases n with
        | zero => rfl
        | succ n => rfl
  | cons i l ih =>
    intro n hn
    cases n with
    | zero => simp at hn
    | succ n =>
      have hne : q.acts ≠ 0 := by
        intro h0
        rw [h0, bits_zero] at hb
        cases hb
      have hc : q.changed = true := by unfold Queue.Sound at hs; rw [hs]; exact decide_eq_true hne
      have hsend : q.send = ({ q with acts := q.acts ^^^ (1#32 <<< i), changed := if q.acts ^^^ (1#32 <<< i) = 0 then false else q.changed }, [.trigger i]) := by
        unfold Queue.send
        rw [if_pos hc, pop_cons hb]
      have hpass : q.passes (n + 1) = ((Queue.passes n q.send.1).1, q.send.2 ++ (Queue.passes n q.send.1).2) := by
        show (if q.changed || q.request then _ else _) = _
        rw [hc]
        rfl
      rw [hpass, hsend]
      dsimp only
      rw [ih { q with acts := q.acts ^^^ (1#32 <<< i), changed := if q.acts ^^^ (1#32 <<< i) = 0 then false else q.changed } ?_ (bits_pop hb) n (by
        rw [List.length_cons] at hn; omega)]
      · rfl
      · unfold Queue.Sound
        dsimp only
        by_cases hz : q.acts ^^^ (1#32 <<< i) = 0
        · rw [if_pos hz]
          simp [hz]
        · rw [if_neg hz, hc]
          exact (decide_eq_true hz).symm

example : (({ request := true } : Queue).push (1#32 <<< 12)).passes 5 = ({}, [.trigger 12, .getConfig]) ∧
    ((({} : Queue).push (1#32 <<< 12)).push (1#32 <<< 1)).passes 5 = ({}, [.trigger 1, .trigger 12]) := by decide +kernel

theorem bits_length (m : BitVec 32) : (bits m).length ≤ 32 := by
  unfold bits
  have := List.length_filter_le (fun i => m.getLsbD i) (List.range 32)
  rwa [List.length_range] at this

/-- Nothing that was queued before the registration is sent after it. -/
theorem registered_empty (q : Queue) : q.registered.acts = 0 := by
  have key : ∀ (n : Nat) (q : Queue), (bits q.acts).length ≤ n → (Nat.repeat (fun q => (Queue.pop q).1) n q).acts = 0 := by
    intro n
    induction n with
    | zero =>
      intro q h
      exact bits_nil (List.eq_nil_of_length_eq_zero (Nat.le_zero.mp h))
    | succ n ih =>
      intro q h
      have comm : ∀ (k : Nat) (q : Queue), Nat.repeat (fun q => (Queue.pop q).1) (k + 1) q = Nat.repeat (fun q => (Queue.pop q).1) k (Queue.pop q).1 := by
        intro k
        induction k with
        | zero => intro q; rfl
        | succ k ihk =>
          intro q
          show (Queue.pop (Nat.repeat (fun q => (Queue.pop q).1) (k + 1) q)).1 = _
          rw [ihk]
          rfl
      rw [comm]
      cases hb : bits q.acts with
      | nil =>
        rw [pop_nil hb]
        exact ih q (by rw [hb]; simp)
      | cons i l =>
        rw [pop_cons hb]
        refine ih _ ?_
        show (bits (q.acts ^^^ (1#32 <<< i))).length ≤ n
        rw [bits_pop hb]
        rw [hb, List.length_cons] at h
        omega
  exact key 32 q (bits_length q.acts)

/-- The claim that the configuration that was asked for is requested from the server. -/
def Requested : Prop := ∀ (a : At) (action : Nat) (m : BitVec 32) (q : Queue), push a action = some m → q.Sound → q.request = true →
  ∃ n, .getConfig ∈ ((q.push m).passes n).2

/-- When all triggers are published, an action that is not a trigger blocks the queue: the configuration is never
asked for. -/
theorem stuck_violation : ¬ Requested ∧ push { handling := .publishAll } 3 = some 0 := by
  refine ⟨fun h => ?_, by decide +kernel⟩
  obtain ⟨n, hn⟩ := h { handling := .publishAll } 3 0 { request := true } (by decide +kernel) (by unfold Queue.Sound; decide) rfl
  have key : ∀ n, (Queue.passes n { acts := 0, changed := true, request := true }).2 = [] := by
    intro n
    induction n with
    | zero => rfl
    | succ n ih =>
      have : Queue.send { acts := 0, changed := true, request := true } = ({ acts := 0, changed := true, request := true }, []) := by decide +kernel
      show (if true || true then _ else _ : Queue × List Msg).2 = []
      rw [Bool.or_self, if_pos rfl, this]
      exact ih
  have hx : (({ request := true } : Queue).push 0) = { acts := 0, changed := true, request := true } := by decide
  rw [hx, key n] at hn
  cases hn

/-- With the server in charge only real triggers get into the queue. -/
theorem push_real (a : At) (action : Nat) (m : BitVec 32) (ha : a.handling = .server) (h : push a action = some m) : m ≠ 0 := by
  unfold push at h
  split at h
  · rename_i hc
    injection h with h
    rcases hc with hc | hc
    · intro hm
      rw [h, hm] at hc
      simp at hc
    · exact absurd ha hc
  · cases h

end Verif.Trigger
