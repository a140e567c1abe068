/-
The events a colour light raises when its channel value changes.

Models src/supla/channels/channel.cpp lines 439-548
(`Channel::setNewValue(red, green, blue, colorBrightness, brightness)`).
-/

namespace Verif.Channel

/-- The five value bytes of a light channel. -/
structure Light where
  red : Nat
  green : Nat
  blue : Nat
  colorBright : Nat
  bright : Nat
deriving DecidableEq, Repr

/-- Events (src/supla/events.h). -/
inductive LEv where
  | change | secondaryChange
  | dimmerOn | dimmerOff | dimmerBright
  | colorOn | colorOff | colorBright
  | redOn | redOff | greenOn | greenOff | blueOn | blueOff
  | redChange | greenChange | blueChange
  | turnOn | turnOff
deriving DecidableEq, Repr

/-- One conditional `runAction`. -/
def when_ (c : Prop) [Decidable c] (e : LEv) : List LEv := if c then [e] else []

/-- The events of a change from `p` to `n`, in the order they are raised, lines 458-540. -/
def lightEvents (p n : Light) : List LEv :=
  if p = n then [] else
  [.change, .secondaryChange] ++
  when_ (p.bright = 0 ∧ n.bright ≠ 0) .dimmerOn ++
  when_ (p.bright ≠ 0 ∧ n.bright = 0) .dimmerOff ++
  when_ (p.bright ≠ n.bright) .dimmerBright ++
  (if p.colorBright = 0 ∧ n.colorBright ≠ 0 then
    [.colorOn] ++ when_ (n.red ≠ 0) .redOn ++ when_ (n.green ≠ 0) .greenOn ++ when_ (n.blue ≠ 0) .blueOn
   else []) ++
  (if p.colorBright ≠ 0 ∧ n.colorBright = 0 then
    [.colorOff] ++ when_ (p.red ≠ 0) .redOff ++ when_ (p.green ≠ 0) .greenOff ++
      when_ (p.blue ≠ 0) .blueOff
   else []) ++
  when_ (p.colorBright ≠ n.colorBright) .colorBright ++
  when_ (p.red = 0 ∧ n.red ≠ 0 ∧ p.colorBright ≠ 0 ∧ n.colorBright ≠ 0) .redOn ++
  when_ (p.red ≠ 0 ∧ n.red = 0 ∧ p.colorBright ≠ 0 ∧ n.colorBright ≠ 0) .redOff ++
  when_ (p.green = 0 ∧ n.green ≠ 0 ∧ p.colorBright ≠ 0 ∧ n.colorBright ≠ 0) .greenOn ++
  when_ (p.green ≠ 0 ∧ n.green = 0 ∧ p.colorBright ≠ 0 ∧ n.colorBright ≠ 0) .greenOff ++
  when_ (p.blue = 0 ∧ n.blue ≠ 0 ∧ p.colorBright ≠ 0 ∧ n.colorBright ≠ 0) .blueOn ++
  when_ (p.blue ≠ 0 ∧ n.blue = 0 ∧ p.colorBright ≠ 0 ∧ n.colorBright ≠ 0) .blueOff ++
  when_ (p.red ≠ n.red) .redChange ++
  when_ (p.green ≠ n.green) .greenChange ++
  when_ (p.blue ≠ n.blue) .blueChange ++
  when_ ((p.bright = 0 ∧ n.bright ≠ 0) ∨ (p.colorBright = 0 ∧ n.colorBright ≠ 0)) .turnOn ++
  when_ ((p.bright ≠ 0 ∧ n.bright = 0) ∨ (p.colorBright ≠ 0 ∧ n.colorBright = 0)) .turnOff

/-! ### Specification -/

/-- How many times an event is raised. -/
def raised (p n : Light) (e : LEv) : Nat := (lightEvents p n).count e

/-- One for a transition, none otherwise. -/
def one (c : Prop) [Decidable c] : Nat := if c then 1 else 0

/-- A colour component shines when both the component and the colour brightness are not zero. -/
def Light.redLit (l : Light) : Prop := l.red ≠ 0 ∧ l.colorBright ≠ 0
/-- The same for green. -/
def Light.greenLit (l : Light) : Prop := l.green ≠ 0 ∧ l.colorBright ≠ 0
/-- The same for blue. -/
def Light.blueLit (l : Light) : Prop := l.blue ≠ 0 ∧ l.colorBright ≠ 0

instance (l : Light) : Decidable l.redLit := inferInstanceAs (Decidable (_ ∧ _))
instance (l : Light) : Decidable l.greenLit := inferInstanceAs (Decidable (_ ∧ _))
instance (l : Light) : Decidable l.blueLit := inferInstanceAs (Decidable (_ ∧ _))

/-! ### Theorems -/

theorem count_when (c : Prop) [Decidable c] (e f : LEv) :
    (when_ c e).count f = if c ∧ e = f then 1 else 0 := by
  unfold when_
  by_cases h : c <;> by_cases h' : e = f <;> simp [h, h']

theorem light_ext (p n : Light) : p = n ↔ (p.red = n.red ∧ p.green = n.green ∧ p.blue = n.blue ∧
    p.colorBright = n.colorBright ∧ p.bright = n.bright) := by
  cases p; cases n; simp

theorem count_ite (c : Prop) [Decidable c] (a : List LEv) (f : LEv) :
    (if c then a else []).count f = if c then a.count f else 0 := by
  by_cases h : c <;> simp [h]

/-- Each colour component raises its turn-on event exactly once when it starts to shine, its
    turn-off event exactly once when it stops to shine, and neither otherwise; for every pair of old
    and new value. -/
theorem component_events (p n : Light) :
    raised p n .redOn = one (¬ p.redLit ∧ n.redLit) ∧
    raised p n .redOff = one (p.redLit ∧ ¬ n.redLit) ∧
    raised p n .greenOn = one (¬ p.greenLit ∧ n.greenLit) ∧
    raised p n .greenOff = one (p.greenLit ∧ ¬ n.greenLit) ∧
    raised p n .blueOn = one (¬ p.blueLit ∧ n.blueLit) ∧
    raised p n .blueOff = one (p.blueLit ∧ ¬ n.blueLit) := by
  unfold raised lightEvents one
  by_cases h : p = n
  · subst h; simp
  · rw [if_neg h]
    clear h
    simp only [List.count_append, count_when, count_ite, List.count_cons, List.count_nil,
      Light.redLit, Light.greenLit, Light.blueLit, reduceCtorEq, and_false, if_false, and_true,
      beq_iff_eq, Nat.add_zero, Nat.zero_add, ite_self]
    refine ⟨?_, ?_, ?_, ?_, ?_, ?_⟩
    · by_cases h1 : p.colorBright = 0 <;> by_cases h2 : n.colorBright = 0 <;>
        by_cases h3 : p.red = 0 <;> by_cases h4 : n.red = 0 <;> simp [h1, h2, h3, h4]
    · by_cases h1 : p.colorBright = 0 <;> by_cases h2 : n.colorBright = 0 <;>
        by_cases h3 : p.red = 0 <;> by_cases h4 : n.red = 0 <;> simp [h1, h2, h3, h4]
    · by_cases h1 : p.colorBright = 0 <;> by_cases h2 : n.colorBright = 0 <;>
        by_cases h3 : p.green = 0 <;> by_cases h4 : n.green = 0 <;> simp [h1, h2, h3, h4]
    · by_cases h1 : p.colorBright = 0 <;> by_cases h2 : n.colorBright = 0 <;>
        by_cases h3 : p.green = 0 <;> by_cases h4 : n.green = 0 <;> simp [h1, h2, h3, h4]
    · by_cases h1 : p.colorBright = 0 <;> by_cases h2 : n.colorBright = 0 <;>
        by_cases h3 : p.blue = 0 <;> by_cases h4 : n.blue = 0 <;> simp [h1, h2, h3, h4]
    · by_cases h1 : p.colorBright = 0 <;> by_cases h2 : n.colorBright = 0 <;>
        by_cases h3 : p.blue = 0 <;> by_cases h4 : n.blue = 0 <;> simp [h1, h2, h3, h4]

example : raised ⟨255, 0, 9, 0, 5⟩ ⟨255, 0, 0, 40, 5⟩ .redOn = 1 ∧
    raised ⟨255, 0, 9, 0, 5⟩ ⟨255, 0, 0, 40, 5⟩ .blueOff = 0 := by decide +kernel

/-- The change events tell exactly which parts changed; an equal value raises no event at all. -/
theorem change_events (p n : Light) :
    raised p n .change = one (p ≠ n) ∧ raised p n .secondaryChange = one (p ≠ n) ∧
    raised p n .redChange = one (p.red ≠ n.red) ∧ raised p n .greenChange = one (p.green ≠ n.green) ∧
    raised p n .blueChange = one (p.blue ≠ n.blue) ∧
    raised p n .colorBright = one (p.colorBright ≠ n.colorBright) ∧
    raised p n .dimmerBright = one (p.bright ≠ n.bright) ∧ lightEvents p p = [] := by
  unfold raised one
  by_cases h : p = n
  · subst h; simp [lightEvents]
  · refine ⟨?_, ?_, ?_, ?_, ?_, ?_, ?_, by simp [lightEvents]⟩ <;>
    · unfold lightEvents
      rw [if_neg h]
      simp only [List.count_append, count_when, count_ite, List.count_cons, List.count_nil,
        reduceCtorEq, and_false, if_false, and_true, beq_iff_eq, Nat.add_zero, Nat.zero_add,
        ite_self, if_true, ne_eq, h, not_false_eq_true]

example : raised ⟨255, 0, 9, 0, 5⟩ ⟨255, 0, 0, 40, 5⟩ .blueChange = 1 := by decide +kernel

/-- The white part, the colour part and the light as a whole: on and off events match the
    transitions of the two brightness values. -/
theorem turn_events (p n : Light) :
    raised p n .dimmerOn = one (p.bright = 0 ∧ n.bright ≠ 0) ∧
    raised p n .dimmerOff = one (p.bright ≠ 0 ∧ n.bright = 0) ∧
    raised p n .colorOn = one (p.colorBright = 0 ∧ n.colorBright ≠ 0) ∧
    raised p n .colorOff = one (p.colorBright ≠ 0 ∧ n.colorBright = 0) ∧
    raised p n .turnOn = one ((p.bright = 0 ∧ n.bright ≠ 0) ∨ (p.colorBright = 0 ∧ n.colorBright ≠ 0)) ∧
    raised p n .turnOff = one ((p.bright ≠ 0 ∧ n.bright = 0) ∨ (p.colorBright ≠ 0 ∧ n.colorBright = 0)) := by
  unfold raised one
  by_cases h : p = n
  · subst h; simp [lightEvents]
  · refine ⟨?_, ?_, ?_, ?_, ?_, ?_⟩ <;>
    · unfold lightEvents
      rw [if_neg h]
      simp only [List.count_append, count_when, count_ite, List.count_cons, List.count_nil,
        reduceCtorEq, and_false, if_false, and_true, beq_iff_eq, Nat.add_zero, Nat.zero_add,
        ite_self, if_true]

example : raised ⟨255, 0, 0, 40, 0⟩ ⟨255, 0, 0, 0, 0⟩ .turnOff = 1 := by decide +kernel

/-- Is any part of the light on? -/
def Light.on (l : Light) : Prop := l.bright ≠ 0 ∨ l.colorBright ≠ 0

instance (l : Light) : Decidable l.on := inferInstanceAs (Decidable (_ ∨ _))

/-- The claim one would expect of the common event: ON_TURN_OFF means that the light is off now. -/
def TurnOffMeansOff : Prop := ∀ p n : Light, raised p n .turnOff = 1 → ¬ n.on

/-- Violation: the light changes from white to colour; ON_TURN_ON is followed by ON_TURN_OFF although
    the light is on before and after. -/
theorem turn_off_while_on_violation : ¬ TurnOffMeansOff := by
  intro h
  have := h ⟨255, 0, 0, 0, 80⟩ ⟨255, 0, 0, 80, 0⟩
  revert this; decide +kernel

example : (lightEvents ⟨255, 0, 0, 0, 80⟩ ⟨255, 0, 0, 80, 0⟩).getLast? = some .turnOff := by
  decide +kernel

/-- With only one of the two parts in use (a dimmer or an RGB light) the common events mean what they
    say. -/
theorem turn_events_single_partial (p n : Light) :
    (p.colorBright = 0 ∧ n.colorBright = 0 ∨ p.bright = 0 ∧ n.bright = 0) →
    raised p n .turnOn = one (¬ p.on ∧ n.on) ∧ raised p n .turnOff = one (p.on ∧ ¬ n.on) := by
  intro h
  obtain ⟨_, _, _, _, h5, h6⟩ := turn_events p n
  rw [h5, h6]
  unfold one Light.on
  by_cases h1 : p.bright = 0 <;> by_cases h2 : n.bright = 0 <;> by_cases h3 : p.colorBright = 0 <;>
    by_cases h4 : n.colorBright = 0 <;> simp_all

example : raised ⟨0, 0, 0, 0, 80⟩ ⟨0, 0, 0, 0, 0⟩ .turnOff = 1 := by decide +kernel

end Verif.Channel
