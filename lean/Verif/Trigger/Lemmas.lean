import Verif.Trigger.Model
import Verif.Actions.Props

/-!
# Action trigger: lemmas

Everything that the configuration does to the list of registrations, it does to each registration by itself.
-/

namespace Verif.Trigger

open Verif.Actions (Reg addAction enableAction disableAction enableOthers disableOthers isEventUsed runAction matchesAction toCheck)

/-- What `enableOthers`/`disableOthers` for several events do to one registration. -/
def oneOthers (b t : Nat) (v : Bool) (es : List Nat) (r : Reg) : Reg :=
  es.foldl (fun r e => if r.trigger == b && r.event == e % 65536 && r.client != some t then (if v then r.enable else r.disable) else r) r

/-- What `switchSelf` does to one registration. -/
def oneSelf (b t : Nat) (a : At) (c : Cap) (r : Reg) : Reg :=
  if matchesAction r b c.action t c.event then (if a.active.getLsbD c.bit ∨ a.handling = .publishAll then r.enable else r.disable) else r

/-- What `disableAt` does to the registration at position `k`. -/
def oneAt (go : Bool) (i : Option Nat) (k : Nat) (r : Reg) : Reg := if go = true ∧ i = some k then r.disable else r

/-- What one pass does to the registration at position `k`. -/
def oneStep (b t : Nat) (a : At) (noClick noPress : Bool) (k : Nat) (c : Cap) (r : Reg) : Reg :=
  if c.bit ∈ a.disables then
    if a.active.getLsbD c.bit then oneOthers b t false (covered c.event) (oneSelf b t a c r)
    else if c.event = onClick1 then
      oneAt noPress a.off k (oneAt noClick a.on k (oneOthers b t true (covered c.event) (oneSelf b t a c r)))
    else oneOthers b t true (covered c.event) (oneSelf b t a c r)
  else oneSelf b t a c r

/-- The two flags after a pass. -/
def oneFlag (a : At) (f : Bool) (c : Cap) : Bool :=
  if c.bit ∈ a.disables ∧ a.active.getLsbD c.bit = false ∧ c.event = onClick1 then false else f

/-- The whole loop for one registration. -/
def oneLoop (b t : Nat) (a : At) (k : Nat) : List Cap → Bool → Bool → Reg → Reg
  | [], _, _, r => r
  | c :: cs, f, g, r => oneLoop b t a k cs (oneFlag a f c) (oneFlag a g c) (oneStep b t a f g k c r)

theorem switchOthers_one (b t : Nat) (v : Bool) (es : List Nat) (k : Nat) : ∀ (regs : List Reg),
    (switchOthers b t v es regs)[k]? = regs[k]?.map (oneOthers b t v es) := by
  induction es with
  | nil =>
    intro regs
    have : oneOthers b t v [] = id := rfl
    rw [this, Option.map_id]
    rfl
  | cons e es ih =>
    intro regs
    show (switchOthers b t v es _)[k]? = _
    rw [ih]
    cases v
    · simp only [Bool.false_eq_true, if_false, disableOthers, List.getElem?_map, Option.map_map]
      rfl
    · simp only [if_true, enableOthers, List.getElem?_map, Option.map_map]
      rfl

theorem switchSelf_one (b t : Nat) (a : At) (c : Cap) (k : Nat) (regs : List Reg) :
    (switchSelf b t a c regs)[k]? = regs[k]?.map (oneSelf b t a c) := by
  unfold switchSelf
  split
  · rename_i h
    unfold enableAction
    rw [List.getElem?_map]
    congr 1
    funext r
    unfold oneSelf
    rw [if_pos h]
  · rename_i h
    unfold disableAction
    rw [List.getElem?_map]
    congr 1
    funext r
    unfold oneSelf
    rw [if_neg h]

theorem modify_one (f : Reg → Reg) (i k : Nat) (regs : List Reg) :
    (regs.modify i f)[k]? = regs[k]?.map (fun r => if i = k then f r else r) := by
  rw [List.getElem?_modify]
  rfl

theorem disableAt_one (go : Bool) (i : Option Nat) (k : Nat) (regs : List Reg) :
    (disableAt go i regs)[k]? = regs[k]?.map (oneAt go i k) := by
  unfold disableAt
  cases i with
  | none =>
    have : oneAt go none k = id := by funext r; simp [oneAt]
    rw [this, Option.map_id, id]
  | some i =>
    cases go with
    | false =>
      have : oneAt false (some i) k = id := by funext r; simp [oneAt]
      rw [this, Option.map_id, id]
      rfl
    | true =>
      show (regs.modify i Reg.disable)[k]? = _
      rw [modify_one]
      congr 1
      funext r
      simp [oneAt]

theorem stepCap_one (b t : Nat) (a : At) (p : P) (c : Cap) (k : Nat) :
    (stepCap b t a p c).regs[k]? = p.regs[k]?.map (oneStep b t a p.noClick p.noPress k c) := by
  unfold stepCap oneStep
  by_cases h1 : c.bit ∈ a.disables
  · simp only [if_pos h1]
    by_cases h2 : a.active.getLsbD c.bit = true
    · simp only [if_pos h2, switchOthers_one, switchSelf_one, Option.map_map]
      rfl
    · simp only [if_neg h2]
      by_cases h3 : c.event = onClick1
      · simp only [if_pos h3, disableAt_one, switchOthers_one, switchSelf_one, Option.map_map]
        rfl
      · simp only [if_neg h3, switchOthers_one, switchSelf_one, Option.map_map]
        rfl
  · simp only [if_neg h1, switchSelf_one]

theorem stepCap_flags (b t : Nat) (a : At) (p : P) (c : Cap) :
    (stepCap b t a p c).noClick = oneFlag a p.noClick c ∧ (stepCap b t a p c).noPress = oneFlag a p.noPress c := by
  unfold stepCap oneFlag
  by_cases h1 : c.bit ∈ a.disables
  · simp only [if_pos h1]
    by_cases h2 : a.active.getLsbD c.bit = true
    · simp [h2]
    · simp only [if_neg h2]
      by_cases h3 : c.event = onClick1
      · simp [h1, h2, h3]
      · simp [h3]
  · simp [h1]

theorem loop_one (b t : Nat) (a : At) (k : Nat) (cs : List Cap) : ∀ (p : P),
    (cs.foldl (stepCap b t a) p).regs[k]? = p.regs[k]?.map (oneLoop b t a k cs p.noClick p.noPress) := by
  induction cs with
  | nil => intro p; simp [oneLoop]
  | cons c cs ih =>
    intro p
    rw [List.foldl_cons, ih, stepCap_one, Option.map_map, (stepCap_flags b t a p c).1, (stepCap_flags b t a p c).2]
    rfl

/-- What `move` does to the registration at position `k`. -/
def oneMove (a : At) (k : Nat) (r : Reg) : Reg :=
  match a.off, a.on with
  | some i, some j =>
    if a.active ≠ 0 ∨ a.handling = .publishAll then
      (if j = k then (if i = k then r.disable else r).enable else if i = k then r.disable else r)
    else (if j = k then (if i = k then r.enable else r).disable else if i = k then r.enable else r)
  | _, _ => r

/-- The flags that `move` sets. -/
def moved (a : At) : Bool := a.off.isSome && a.on.isSome

/-- The triggers are in use. -/
def inUse (a : At) : Bool := decide (a.active ≠ 0 ∨ a.handling = .publishAll)

theorem move_one (a : At) (k : Nat) (regs : List Reg) :
    (move a regs).regs[k]? = regs[k]?.map (oneMove a k) ∧ (move a regs).noPress = (moved a && inUse a) ∧
    (move a regs).noClick = (moved a && !inUse a) := by
  unfold move moved inUse
  cases h1 : a.off with
  | none =>
    have : oneMove a k = id := by funext r; simp [oneMove, h1]
    rw [this, Option.map_id]
    exact ⟨rfl, rfl, rfl⟩
  | some i =>
    cases h2 : a.on with
    | none =>
      have : oneMove a k = id := by funext r; simp [oneMove, h1, h2]
      rw [this, Option.map_id]
      exact ⟨rfl, rfl, rfl⟩
    | some j =>
      dsimp only
      by_cases h : a.active ≠ 0 ∨ a.handling = .publishAll
      · have : oneMove a k = fun r => if j = k then (if i = k then r.disable else r).enable else if i = k then r.disable else r := by
          funext r; simp only [oneMove, h1, h2]; rw [if_pos h]
        rw [if_pos h, this]
        refine ⟨?_, by rw [decide_eq_true h]; rfl, by rw [decide_eq_true h]; rfl⟩
        rw [modify_one, modify_one, Option.map_map]
        congr 1
      · have : oneMove a k = fun r => if j = k then (if i = k then r.enable else r).disable else if i = k then r.enable else r := by
          funext r; simp only [oneMove, h1, h2]; rw [if_neg h]
        rw [if_neg h, this]
        refine ⟨?_, by rw [decide_eq_false h]; rfl, by rw [decide_eq_false h]; rfl⟩
        rw [modify_one, modify_one, Option.map_map]
        congr 1

/-- The whole configuration for one registration. -/
def one (b t : Nat) (a : At) (k : Nat) (r : Reg) : Reg :=
  oneLoop b t (fix a) k caps (moved (fix a) && !inUse (fix a)) (moved (fix a) && inUse (fix a)) (oneMove (fix a) k r)

theorem parse_one (b t : Nat) (a : At) (regs : List Reg) (k : Nat) :
    (parse b t a regs).2[k]? = regs[k]?.map (one b t a k) := by
  obtain ⟨m1, m2, m3⟩ := move_one (fix a) k regs
  show (caps.foldl (stepCap b t (fix a)) (move (fix a) regs)).regs[k]? = _
  rw [loop_one, m1, m2, m3, Option.map_map]
  rfl

/-! ## Only `enabled` changes -/

/-- The same registration, up to `enabled`. -/
def Alike (r r' : Reg) : Prop :=
  r'.trigger = r.trigger ∧ r'.client = r.client ∧ r'.event = r.event ∧ r'.action = r.action ∧ r'.always = r.always

theorem Alike.refl (r : Reg) : Alike r r := ⟨rfl, rfl, rfl, rfl, rfl⟩

theorem Alike.trans {r s t : Reg} (h : Alike r s) (k : Alike s t) : Alike r t :=
  ⟨k.1.trans h.1, k.2.1.trans h.2.1, k.2.2.1.trans h.2.2.1, k.2.2.2.1.trans h.2.2.2.1, k.2.2.2.2.trans h.2.2.2.2⟩

theorem alike_enable (r : Reg) : Alike r r.enable := ⟨rfl, rfl, rfl, rfl, rfl⟩

theorem alike_disable (r : Reg) : Alike r r.disable := by
  unfold Reg.disable
  split
  · exact Alike.refl r
  · exact ⟨rfl, rfl, rfl, rfl, rfl⟩

theorem oneOthers_alike (b t : Nat) (v : Bool) (es : List Nat) : ∀ r : Reg, Alike r (oneOthers b t v es r) := by
  induction es with
  | nil => intro r; exact Alike.refl r
  | cons e es ih =>
    intro r
    refine Alike.trans ?_ (ih _)
    dsimp only
    split
    · split
      · exact alike_enable r
      · exact alike_disable r
    · exact Alike.refl r

theorem oneSelf_alike (b t : Nat) (a : At) (c : Cap) (r : Reg) : Alike r (oneSelf b t a c r) := by
  unfold oneSelf
  split
  · split
    · exact alike_enable r
    · exact alike_disable r
  · exact Alike.refl r

theorem oneAt_alike (go : Bool) (i : Option Nat) (k : Nat) (r : Reg) : Alike r (oneAt go i k r) := by
  unfold oneAt
  split
  · exact alike_disable r
  · exact Alike.refl r

theorem oneStep_alike (b t : Nat) (a : At) (f g : Bool) (k : Nat) (c : Cap) (r : Reg) : Alike r (oneStep b t a f g k c r) := by
  have h0 := oneSelf_alike b t a c r
  unfold oneStep
  split
  · split
    · exact h0.trans (oneOthers_alike ..)
    · split
      · exact ((h0.trans (oneOthers_alike ..)).trans (oneAt_alike ..)).trans (oneAt_alike ..)
      · exact h0.trans (oneOthers_alike ..)
  · exact h0

theorem oneLoop_alike (b t : Nat) (a : At) (k : Nat) (cs : List Cap) : ∀ (f g : Bool) (r : Reg), Alike r (oneLoop b t a k cs f g r) := by
  induction cs with
  | nil => intro f g r; exact Alike.refl r
  | cons c cs ih => intro f g r; exact (oneStep_alike ..).trans (ih _ _ _)

theorem oneMove_alike (a : At) (k : Nat) (r : Reg) : Alike r (oneMove a k r) := by
  have h1 := alike_enable r
  have h2 := alike_disable r
  unfold oneMove
  split
  · split
    · split
      · split
        · exact h2.trans (alike_enable _)
        · exact h1
      · split
        · exact h2
        · exact Alike.refl r
    · split
      · split
        · exact h1.trans (alike_disable _)
        · exact h2
      · split
        · exact h1
        · exact Alike.refl r
  · exact Alike.refl r

theorem one_alike (b t : Nat) (a : At) (k : Nat) (r : Reg) : Alike r (one b t a k r) :=
  (oneMove_alike ..).trans (oneLoop_alike ..)

/-! ## Steps that do nothing, and those that do -/

theorem covered_lt : ∀ c ∈ caps, ∀ e ∈ covered c.event, e < 65536 := by decide

theorem caps_nodup : caps.Nodup := by decide

theorem caps_action : ∀ c ∈ caps, ∀ d ∈ caps, c.action = d.action → c = d := by decide

theorem oneOthers_self {b t : Nat} {v : Bool} (es : List Nat) {r : Reg} (h : r.client = some t) : oneOthers b t v es r = r := by
  induction es with
  | nil => rfl
  | cons e es ih =>
    show oneOthers b t v es (if r.trigger == b && r.event == e % 65536 && r.client != some t then _ else r) = r
    rw [if_neg (by simp [h])]
    exact ih

theorem oneOthers_trigger {b t : Nat} {v : Bool} (es : List Nat) {r : Reg} (h : r.trigger ≠ b) : oneOthers b t v es r = r := by
  induction es with
  | nil => rfl
  | cons e es ih =>
    show oneOthers b t v es (if r.trigger == b && r.event == e % 65536 && r.client != some t then _ else r) = r
    rw [if_neg (by simp [h])]
    exact ih

theorem oneOthers_skip {b t : Nat} {v : Bool} (es : List Nat) {r : Reg} (hl : ∀ e ∈ es, e < 65536) (h : r.event ∉ es) :
    oneOthers b t v es r = r := by
  induction es with
  | nil => rfl
  | cons e es ih =>
    have he : ¬ r.event = e := fun a => h (by rw [a]; exact List.mem_cons_self)
    show oneOthers b t v es (if r.trigger == b && r.event == e % 65536 && r.client != some t then _ else r) = r
    rw [Nat.mod_eq_of_lt (hl e List.mem_cons_self), if_neg (by simp [he])]
    exact ih (fun x hx => hl x (List.mem_cons_of_mem _ hx)) fun a => h (List.mem_cons_of_mem _ a)

/-- Switched on or off. -/
def Reg.set (r : Reg) (v : Bool) : Reg := if v then r.enable else r.disable

theorem set_enabled {r : Reg} (v : Bool) (h : r.always = false) : (Reg.set r v).enabled = v := by
  cases v
  · unfold Reg.set
    rw [if_neg (by decide)]
    unfold Reg.disable
    rw [h]
    rfl
  · rfl

theorem set_set {r : Reg} (v w : Bool) (h : r.always = false) : Reg.set (Reg.set r v) w = Reg.set r w := by
  obtain ⟨a, c, e, x, n, al⟩ := r
  have h : al = false := h
  subst h
  cases v <;> cases w <;> rfl

theorem set_alike (r : Reg) (v : Bool) : Alike r (Reg.set r v) := by
  cases v
  · exact alike_disable r
  · exact alike_enable r

theorem oneOthers_hit {b t : Nat} {v : Bool} (es : List Nat) {r : Reg} (hl : ∀ e ∈ es, e < 65536) (h : r.event ∈ es)
    (hb : r.trigger = b) (hc : r.client ≠ some t) (ha : r.always = false) : oneOthers b t v es r = Reg.set r v := by
  induction es generalizing r with
  | nil => cases h
  | cons e es ih =>
    have hlt := hl e List.mem_cons_self
    show oneOthers b t v es (if r.trigger == b && r.event == e % 65536 && r.client != some t then Reg.set r v else r) = _
    rw [Nat.mod_eq_of_lt hlt]
    by_cases he : r.event = e
    · rw [if_pos (by simp [he, hb, hc])]
      by_cases hm : e ∈ es
      · have hk := set_alike r v
        rw [ih (r := Reg.set r v) (fun x hx => hl x (List.mem_cons_of_mem _ hx)) (by rw [hk.2.2.1, he]; exact hm) (hk.1.trans hb)
          (by rw [hk.2.1]; exact hc) (hk.2.2.2.2.trans ha), set_set v v ha]
      · exact oneOthers_skip es (fun x hx => hl x (List.mem_cons_of_mem _ hx)) (by rw [(set_alike r v).2.2.1, he]; exact hm)
    · rw [if_neg (by simp [he])]
      refine ih (fun x hx => hl x (List.mem_cons_of_mem _ hx)) ?_ hb hc ha
      rcases List.mem_cons.mp h with h | h
      · exact absurd h he
      · exact h

theorem oneSelf_other {b t : Nat} {a : At} {c : Cap} {r : Reg} (h : r.client ≠ some t ∨ r.trigger ≠ b) : oneSelf b t a c r = r := by
  unfold oneSelf
  rw [if_neg]
  unfold matchesAction
  rcases h with h | h
  · simp [h]
  · simp [h]

theorem oneSelf_action {b t : Nat} {a : At} {c : Cap} {r : Reg} (h : r.action ≠ c.action) (hc : c ∈ caps) : oneSelf b t a c r = r := by
  unfold oneSelf
  rw [if_neg]
  have h1 : toCheck (c.action : Int) = c.action := by
    clear h
    revert c
    decide
  have h2 : (c.action : Int) ≠ -1 := by omega
  unfold matchesAction
  rw [h1]
  simp [h, h2]

theorem oneSelf_hit {b t : Nat} {a : At} {c : Cap} {r : Reg} (hc : c ∈ caps) (hb : r.trigger = b) (ht : r.client = some t)
    (he : r.event = c.event) (ha : r.action = c.action) :
    oneSelf b t a c r = Reg.set r (a.active.getLsbD c.bit || decide (a.handling = .publishAll)) := by
  have h1 : toCheck (c.action : Int) = c.action ∧ toCheck (c.event : Int) = c.event := by
    clear he ha
    revert c
    decide
  unfold oneSelf
  rw [if_pos (by unfold matchesAction; simp [h1.1, h1.2, hb, ht, he, ha])]
  unfold Reg.set
  by_cases h : a.active.getLsbD c.bit = true ∨ a.handling = .publishAll
  · rw [if_pos h, if_pos (by simpa using h)]
  · rw [if_neg h, if_neg (by simpa using h)]

/-- What a pass does to a registration that is not one of the two moved ones. -/
def plain (b t : Nat) (a : At) (r : Reg) (c : Cap) : Reg :=
  if c.bit ∈ a.disables then oneOthers b t (!a.active.getLsbD c.bit) (covered c.event) (oneSelf b t a c r) else oneSelf b t a c r

theorem oneStep_plain {b t : Nat} {a : At} {f g : Bool} {k : Nat} {c : Cap} {r : Reg} (h1 : a.off ≠ some k) (h2 : a.on ≠ some k) :
    oneStep b t a f g k c r = plain b t a r c := by
  unfold oneStep plain oneAt
  split
  · split
    · rename_i h
      rw [h]
      rfl
    · rename_i h
      have h : a.active.getLsbD c.bit = false := by simpa using h
      rw [h]
      split
      · rw [if_neg (fun x => h1 x.2), if_neg (fun x => h2 x.2)]
        rfl
      · rfl
  · rfl

theorem oneLoop_plain {b t : Nat} {a : At} {k : Nat} (cs : List Cap) (h1 : a.off ≠ some k) (h2 : a.on ≠ some k) :
    ∀ (f g : Bool) (r : Reg), oneLoop b t a k cs f g r = cs.foldl (plain b t a) r := by
  induction cs with
  | nil => intro f g r; rfl
  | cons c cs ih =>
    intro f g r
    show oneLoop b t a k cs _ _ (oneStep b t a f g k c r) = _
    rw [oneStep_plain h1 h2, ih]
    rfl

theorem oneMove_plain {a : At} {k : Nat} (r : Reg) (h1 : a.off ≠ some k) (h2 : a.on ≠ some k) : oneMove a k r = r := by
  unfold oneMove
  split
  · rename_i i j hi hj
    rw [hi] at h1
    rw [hj] at h2
    have h1 : i ≠ k := fun a => h1 (congrArg some a)
    have h2 : j ≠ k := fun a => h2 (congrArg some a)
    rw [if_neg h2, if_neg h2, if_neg h1, if_neg h1]
    split <;> rfl
  · rfl

theorem foldl_fix {α β : Type} (f : β → α → β) (l : List α) (x : β) (h : ∀ y ∈ l, f x y = x) : l.foldl f x = x := by
  induction l with
  | nil => rfl
  | cons y l ih =>
    rw [List.foldl_cons, h y List.mem_cons_self]
    exact ih fun z hz => h z (List.mem_cons_of_mem _ hz)

/-- A fold in which only one element matters. -/
theorem foldl_single {α β : Type} (f : β → α → β) (l : List α) (x : β) (c : α) (hc : c ∈ l) (hn : l.Nodup)
    (h1 : ∀ y ∈ l, y ≠ c → f x y = x) (h2 : ∀ y ∈ l, y ≠ c → f (f x c) y = f x c) : l.foldl f x = f x c := by
  obtain ⟨p, q, rfl⟩ := List.append_of_mem hc
  rw [List.foldl_append, List.foldl_cons]
  rw [List.nodup_append] at hn
  have hp : c ∉ p := fun a => hn.2.2 c a c List.mem_cons_self rfl
  have hq : c ∉ q := (List.nodup_cons.mp hn.2.1).1
  rw [foldl_fix f p x fun y hy => h1 y (List.mem_append_left _ hy) (fun a => hp (a ▸ hy))]
  exact foldl_fix f q _ fun y hy => h2 y (List.mem_append_right _ (List.mem_cons_of_mem _ hy)) (fun a => hq (a ▸ hy))

/-- The registration of a trigger: enabled when the server uses it, or when all are published. -/
theorem one_self {b t : Nat} {a : At} {k : Nat} {c : Cap} {r : Reg} (hc : c ∈ caps) (h1 : a.off ≠ some k) (h2 : a.on ≠ some k)
    (hb : r.trigger = b) (ht : r.client = some t) (he : r.event = c.event) (ha : r.action = c.action) :
    one b t a k r = Reg.set r ((fix a).active.getLsbD c.bit || decide (a.handling = .publishAll)) := by
  have hf : (fix a).off = a.off ∧ (fix a).on = a.on ∧ (fix a).handling = a.handling := by
    unfold fix; split <;> exact ⟨rfl, rfl, rfl⟩
  have hp : ∀ (s : Reg) (d : Cap), s.client = some t → plain b t (fix a) s d = oneSelf b t (fix a) d s := by
    intro s d hs
    unfold plain
    split
    · exact oneOthers_self _ ((oneSelf_alike b t (fix a) d s).2.1.trans hs)
    · rfl
  unfold one
  rw [oneMove_plain r (hf.1 ▸ h1) (hf.2.1 ▸ h2), oneLoop_plain caps (hf.1 ▸ h1) (hf.2.1 ▸ h2)]
  rw [foldl_single (plain b t (fix a)) caps r c hc caps_nodup]
  · rw [hp r c ht, oneSelf_hit hc hb ht he ha, hf.2.2]
  · intro d hd hne
    rw [hp r d ht]
    exact oneSelf_action (fun x => hne (caps_action d hd c hc (x.symm.trans ha))) hd
  · intro d hd hne
    have hk : Alike r (plain b t (fix a) r c) := by rw [hp r c ht]; exact oneSelf_alike ..
    rw [hp _ d (hk.2.1.trans ht)]
    exact oneSelf_action (fun x => hne (caps_action d hd c hc (x.symm.trans (hk.2.2.2.1.trans ha)))) hd

/-- The bits of a kind of button. -/
def tableBits (k : Kind) : List Nat := (disableTable k).map (·.1)

theorem covered_unique : ∀ k : Kind, ∀ c ∈ caps, ∀ d ∈ caps, c.bit ∈ tableBits k → d.bit ∈ tableBits k →
    ∀ e ∈ covered c.event, e ∈ covered d.event → c = d := by
  intro k
  cases k <;> decide

theorem plain_skip {b t : Nat} {a : At} {r : Reg} {d : Cap} (hd : d ∈ caps) (ht : r.client ≠ some t)
    (h : d.bit ∉ a.disables ∨ r.event ∉ covered d.event) : plain b t a r d = r := by
  unfold plain
  rw [oneSelf_other (.inl ht)]
  split
  · rename_i hm
    rcases h with h | h
    · exact absurd hm h
    · exact oneOthers_skip _ (covered_lt d hd) h
  · rfl

/-- A local registration for an event that belongs to a trigger with local operation: on exactly when the server does
not use the trigger. -/
theorem one_local {b t : Nat} {a : At} {k : Nat} {c : Cap} {r : Reg} {K : Kind} (hK : ∀ x ∈ a.disables, x ∈ tableBits K)
    (hc : c ∈ caps) (h1 : a.off ≠ some k) (h2 : a.on ≠ some k)
    (hb : r.trigger = b) (ht : r.client ≠ some t) (he : r.event ∈ covered c.event) (hd : c.bit ∈ a.disables) (ha : r.always = false) :
    one b t a k r = Reg.set r (!(fix a).active.getLsbD c.bit) := by
  have hf : (fix a).off = a.off ∧ (fix a).on = a.on ∧ (fix a).disables = a.disables := by
    unfold fix; split <;> exact ⟨rfl, rfl, rfl⟩
  unfold one
  rw [oneMove_plain r (hf.1 ▸ h1) (hf.2.1 ▸ h2), oneLoop_plain caps (hf.1 ▸ h1) (hf.2.1 ▸ h2)]
  have hhit : plain b t (fix a) r c = Reg.set r (!(fix a).active.getLsbD c.bit) := by
    unfold plain
    rw [hf.2.2, if_pos hd, oneSelf_other (.inl ht)]
    exact oneOthers_hit _ (covered_lt c hc) he hb ht ha
  have hsk : ∀ d ∈ caps, d ≠ c → d.bit ∉ (fix a).disables ∨ r.event ∉ covered d.event := by
    intro d hdm hne
    by_cases hx : d.bit ∈ a.disables
    · right
      intro hev
      exact hne (covered_unique K d hdm c hc (hK _ hx) (hK _ hd) r.event hev he)
    · left
      rw [hf.2.2]
      exact hx
  rw [foldl_single (plain b t (fix a)) caps r c hc caps_nodup, hhit]
  · intro d hdm hne
    exact plain_skip hdm ht (hsk d hdm hne)
  · intro d hdm hne
    rw [hhit]
    have hk := set_alike r (!(fix a).active.getLsbD c.bit)
    refine plain_skip hdm (by rw [hk.2.1]; exact ht) ?_
    rw [hk.2.2.1]
    exact hsk d hdm hne

/-- Other registrations stay as they are. -/
theorem one_untouched {b t : Nat} {a : At} {k : Nat} {r : Reg} (h1 : a.off ≠ some k) (h2 : a.on ≠ some k)
    (h : r.trigger ≠ b ∨ (r.client ≠ some t ∧ ∀ c ∈ caps, c.bit ∈ a.disables → r.event ∉ covered c.event)) : one b t a k r = r := by
  have hf : (fix a).off = a.off ∧ (fix a).on = a.on ∧ (fix a).disables = a.disables := by
    unfold fix; split <;> exact ⟨rfl, rfl, rfl⟩
  unfold one
  rw [oneMove_plain r (hf.1 ▸ h1) (hf.2.1 ▸ h2), oneLoop_plain caps (hf.1 ▸ h1) (hf.2.1 ▸ h2)]
  refine foldl_fix _ _ _ fun d hd => ?_
  rcases h with h | ⟨h, h'⟩
  · unfold plain
    rw [oneSelf_other (.inr h)]
    split
    · exact oneOthers_trigger _ h
    · rfl
  · refine plain_skip hd h ?_
    by_cases hx : d.bit ∈ a.disables
    · exact .inr (h' d hd hx)
    · left
      rw [hf.2.2]
      exact hx

/-! ## The moved registrations -/

/-- The trigger for a single click. -/
def clickCap : Kind → Cap
  | .bistable => ⟨2, 4, 51⟩
  | .monostable => ⟨11, 4, 57⟩
  | .motion => ⟨2, 4, 51⟩

theorem quiet_loop {b t : Nat} {a : At} {k : Nat} (pre cs : List Cap) (hm : ∀ c ∈ pre, c ∈ caps) {r : Reg} (ht : r.client ≠ some t) (f g : Bool)
    (hq : ∀ c ∈ pre, c.bit ∉ a.disables ∨ (r.event ∉ covered c.event ∧ c.event ≠ onClick1)) :
    oneLoop b t a k (pre ++ cs) f g r = oneLoop b t a k cs f g r := by
  induction pre with
  | nil => rfl
  | cons c pre ih =>
    have hc := hq c List.mem_cons_self
    show oneLoop b t a k (pre ++ cs) (oneFlag a f c) (oneFlag a g c) (oneStep b t a f g k c r) = _
    have h1 : ∀ x, oneFlag a x c = x := by
      intro x
      unfold oneFlag
      rw [if_neg]
      rintro ⟨p, _, q⟩
      rcases hc with hc | hc
      · exact hc p
      · exact hc.2 q
    have h2 : oneStep b t a f g k c r = r := by
      unfold oneStep
      rw [oneSelf_other (.inl ht)]
      rcases hc with hc | hc
      · rw [if_neg hc]
      · rw [if_neg hc.2, oneOthers_skip _ (covered_lt c (hm c List.mem_cons_self)) hc.1,
          oneOthers_skip _ (covered_lt c (hm c List.mem_cons_self)) hc.1]
        simp
    rw [h1, h1, h2]
    exact ih (fun d hd => hm d (List.mem_cons_of_mem _ hd)) fun d hd => hq d (List.mem_cons_of_mem _ hd)

/-- The loop has one pass that matters: the one of the click. -/
theorem click_loop {b t : Nat} {a : At} {k : Nat} {K : Kind} (hK : K ≠ .motion) (hd : ∀ x ∈ a.disables, x ∈ tableBits K) {r : Reg}
    (ht : r.client ≠ some t) (f g : Bool)
    (hev : ∀ c ∈ caps, c.bit ∈ tableBits K → c ≠ clickCap K → r.event ∉ covered c.event) :
    oneLoop b t a k caps f g r = oneStep b t a f g k (clickCap K) r := by
  have key : ∀ pre post : List Cap, caps = pre ++ clickCap K :: post → oneLoop b t a k caps f g r = oneStep b t a f g k (clickCap K) r := by
    intro pre post hs
    have hnd := caps_nodup
    have hq : ∀ c ∈ caps, c ≠ clickCap K → c.bit ∉ a.disables ∨ (r.event ∉ covered c.event ∧ c.event ≠ onClick1) := by
      intro c hc hne
      by_cases hx : c.bit ∈ a.disables
      · right
        refine ⟨hev c hc (hd _ hx) hne, ?_⟩
        have := hd _ hx
        clear hev hs hx
        revert c
        cases K
        · decide
        · decide
        · exact absurd rfl hK
      · exact .inl hx
    rw [hs] at hnd hq ⊢
    have hmem : ∀ c, c ∈ pre ++ clickCap K :: post → c ∈ caps := fun c h => hs ▸ h
    rw [List.nodup_append] at hnd
    have hp : clickCap K ∉ pre := fun a => hnd.2.2 _ a _ List.mem_cons_self rfl
    have hqq : clickCap K ∉ post := (List.nodup_cons.mp hnd.2.1).1
    rw [quiet_loop pre _ (fun c hc => hmem c (List.mem_append_left _ hc)) ht f g
      (fun c hc => hq c (List.mem_append_left _ hc) fun x => hp (x ▸ hc))]
    show oneLoop b t a k post _ _ (oneStep b t a f g k (clickCap K) r) = _
    have hk := oneStep_alike b t a f g k (clickCap K) r
    have := quiet_loop (a := a) (b := b) (t := t) (k := k) post [] (fun c hc => hmem c (List.mem_append_right _ (List.mem_cons_of_mem _ hc)))
      (r := oneStep b t a f g k (clickCap K) r) (by rw [hk.2.1]; exact ht) (oneFlag a f (clickCap K)) (oneFlag a g (clickCap K))
      (fun c hc => by
        rw [hk.2.2.1]
        exact hq c (List.mem_append_right _ (List.mem_cons_of_mem _ hc)) fun x => hqq (x ▸ hc))
    rw [List.append_nil] at this
    exact this
  obtain ⟨pre, post, hs⟩ := List.append_of_mem (show clickCap K ∈ caps by cases K <;> decide)
  exact key pre post hs

theorem alike_event {r r' : Reg} (h : Alike r r') : r'.event = r.event := h.2.2.1

/-- The registration for the press: on exactly when no trigger is in use. -/
theorem one_off {b t : Nat} {a : At} {i j : Nat} {r : Reg} {K : Kind} (hK : K ≠ .motion) (hd : ∀ x ∈ a.disables, x ∈ tableBits K)
    (hz : (clickCap K).bit ∈ a.disables) (hi : a.off = some i) (hj : a.on = some j) (hij : i ≠ j)
    (hb : r.trigger = b) (ht : r.client ≠ some t) (ha : r.always = false)
    (hev : ∀ c ∈ caps, c.bit ∈ tableBits K → c ≠ clickCap K → r.event ∉ covered c.event) :
    one b t a i r = Reg.set r (!inUse (fix a)) := by
  have hf : (fix a).off = a.off ∧ (fix a).on = a.on ∧ (fix a).disables = a.disables := by
    unfold fix; split <;> exact ⟨rfl, rfl, rfl⟩
  have hcl : clickCap K ∈ caps := by cases K <;> decide
  have hce : (clickCap K).event = onClick1 := by cases K <;> rfl
  have hmv : oneMove (fix a) i r = Reg.set r (!inUse (fix a)) := by
    unfold oneMove inUse
    rw [hf.1, hf.2.1, hi, hj]
    dsimp only
    have hji : ¬ j = i := fun x => hij x.symm
    simp only [if_neg hji, if_pos]
    by_cases h : (fix a).active ≠ 0 ∨ (fix a).handling = .publishAll
    · rw [if_pos h, decide_eq_true h]; rfl
    · rw [if_neg h, decide_eq_false h]; rfl
  have hmo : moved (fix a) = true := by unfold moved; rw [hf.1, hf.2.1, hi, hj]; rfl
  unfold one
  rw [hmv, hmo, Bool.true_and, Bool.true_and]
  have hk := set_alike r (!inUse (fix a))
  have ht' : (Reg.set r (!inUse (fix a))).client ≠ some t := by rw [hk.2.1]; exact ht
  rw [click_loop hK (hf.2.2.symm ▸ hd) ht' _ _ (by rw [hk.2.2.1]; exact hev)]
  unfold oneStep
  rw [hf.2.2, if_pos hz, oneSelf_other (.inl ht'), hf.1, hf.2.1, hi, hj, hce, if_pos rfl]
  have hall := hk.2.2.2.2.trans ha
  by_cases hact : (fix a).active.getLsbD (clickCap K).bit = true
  · have hu : inUse (fix a) = true := by
      unfold inUse
      refine decide_eq_true (.inl fun x => ?_)
      rw [x] at hact
      simp at hact
    rw [if_pos hact, hu]
    rw [hu] at hk hall ht'
    by_cases hc : r.event ∈ covered onClick1
    · rw [oneOthers_hit _ (hce ▸ covered_lt _ hcl) (by rw [hk.2.2.1]; exact hc) (hk.1.trans hb) ht' hall, set_set _ _ ha]
      rfl
    · exact oneOthers_skip _ (hce ▸ covered_lt _ hcl) (by rw [hk.2.2.1]; exact hc)
  · rw [if_neg hact]
    have hoc : oneAt (!inUse (fix a)) (some j) i (oneOthers b t true (covered onClick1) (Reg.set r (!inUse (fix a)))) =
        oneOthers b t true (covered onClick1) (Reg.set r (!inUse (fix a))) := by
      unfold oneAt
      rw [if_neg]
      rintro ⟨_, x⟩
      injection x with x
      exact hij x.symm
    rw [hoc]
    by_cases hc : r.event ∈ covered onClick1
    · rw [oneOthers_hit _ (hce ▸ covered_lt _ hcl) (by rw [hk.2.2.1]; exact hc) (hk.1.trans hb) ht' hall, set_set _ _ ha]
      unfold oneAt
      cases hu : inUse (fix a) with
      | true =>
        rw [if_pos ⟨rfl, rfl⟩]
        exact set_set true false ha
      | false =>
        rw [if_neg (fun x => Bool.noConfusion x.1)]
        rfl
    · rw [oneOthers_skip _ (hce ▸ covered_lt _ hcl) (by rw [hk.2.2.1]; exact hc)]
      unfold oneAt
      cases hu : inUse (fix a) with
      | true =>
        rw [if_pos ⟨rfl, rfl⟩]
        exact set_set false false ha
      | false =>
        rw [if_neg (fun x => Bool.noConfusion x.1)]

/-- The registration for the click: on exactly when a trigger is in use, but not the one of the click. -/
theorem one_on {b t : Nat} {a : At} {i j : Nat} {r : Reg} {K : Kind} (hK : K ≠ .motion) (hd : ∀ x ∈ a.disables, x ∈ tableBits K)
    (hz : (clickCap K).bit ∈ a.disables) (hi : a.off = some i) (hj : a.on = some j) (hij : i ≠ j)
    (hb : r.trigger = b) (ht : r.client ≠ some t) (ha : r.always = false) (he : r.event = onClick1) :
    one b t a j r = Reg.set r (inUse (fix a) && !(fix a).active.getLsbD (clickCap K).bit) := by
  have hf : (fix a).off = a.off ∧ (fix a).on = a.on ∧ (fix a).disables = a.disables := by
    unfold fix; split <;> exact ⟨rfl, rfl, rfl⟩
  have hcl : clickCap K ∈ caps := by cases K <;> decide
  have hce : (clickCap K).event = onClick1 := by cases K <;> rfl
  have hev : ∀ c ∈ caps, c.bit ∈ tableBits K → c ≠ clickCap K → onClick1 ∉ covered c.event := by
    cases K
    · decide
    · decide
    · exact absurd rfl hK
  have hmv : oneMove (fix a) j r = Reg.set r (inUse (fix a)) := by
    unfold oneMove inUse
    rw [hf.1, hf.2.1, hi, hj]
    dsimp only
    rw [if_pos rfl, if_pos rfl, if_neg hij, if_neg hij]
    by_cases h : (fix a).active ≠ 0 ∨ (fix a).handling = .publishAll
    · rw [if_pos h, decide_eq_true h]; rfl
    · rw [if_neg h, decide_eq_false h]; rfl
  have hmo : moved (fix a) = true := by unfold moved; rw [hf.1, hf.2.1, hi, hj]; rfl
  unfold one
  rw [hmv, hmo, Bool.true_and, Bool.true_and]
  have hk := set_alike r (inUse (fix a))
  have ht' : (Reg.set r (inUse (fix a))).client ≠ some t := by rw [hk.2.1]; exact ht
  rw [click_loop hK (hf.2.2.symm ▸ hd) ht' _ _ (by rw [hk.2.2.1, he]; exact hev)]
  have hall := hk.2.2.2.2.trans ha
  have hin : (Reg.set r (inUse (fix a))).event ∈ covered onClick1 := by rw [hk.2.2.1, he]; decide
  unfold oneStep
  rw [hf.2.2, if_pos hz, oneSelf_other (.inl ht'), hf.1, hf.2.1, hi, hj, hce, if_pos rfl,
    oneOthers_hit _ (hce ▸ covered_lt _ hcl) hin (hk.1.trans hb) ht' hall,
    oneOthers_hit _ (hce ▸ covered_lt _ hcl) hin (hk.1.trans hb) ht' hall, set_set _ _ ha, set_set _ _ ha]
  by_cases hact : (fix a).active.getLsbD (clickCap K).bit = true
  · rw [if_pos hact, hact, Bool.not_true, Bool.and_false]
  · rw [if_neg hact]
    have hact : (fix a).active.getLsbD (clickCap K).bit = false := by simpa using hact
    rw [hact, Bool.not_false, Bool.and_true]
    have hop : ∀ s, oneAt (inUse (fix a)) (some i) j s = s := by
      intro s
      unfold oneAt
      rw [if_neg]
      rintro ⟨_, x⟩
      injection x with x
      exact hij x
    rw [hop]
    unfold oneAt
    cases hu : inUse (fix a) with
    | true =>
      rw [if_neg (fun x => Bool.noConfusion x.1)]
    | false =>
      rw [if_pos ⟨rfl, rfl⟩]
      exact set_set true false ha

end Verif.Trigger
