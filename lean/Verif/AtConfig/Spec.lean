import Verif.AtConfig.Model

/-!
# What is configured, in the terms of the README

`/repo/extras/examples/linux/README.md` 918-972.
-/

namespace Verif.AtConfig

/-- One line of the configuration. -/
inductive Item
  | onState (state action : Int)
  | onValue (value action : Int)
  | onStateChange (fromState toState action : Int)
  | onValueChange (fromValue toValue action : Int)
  | use (name : String)

/-- The line as an element of the list. -/
def Item.el : Item → El
  | .onState s a => { onState := some [s, a] }
  | .onValue v a => { onValue := some [v, a] }
  | .onStateChange f t a => { onStateChange := some [f, t, a] }
  | .onValueChange f t a => { onValueChange := some [f, t, a] }
  | .use n => { use := some n }

/-- The action this line gives for entering a state. -/
def Item.forState (s : Int) : Item → Option Int
  | .onState k a => if k = s then some a else none
  | _ => none

/-- The action this line gives for a value. -/
def Item.forValue (v : Int) : Item → Option Int
  | .onValue k a => if k = v then some a else none
  | _ => none

/-- The action this line gives for a change of the state. -/
def Item.forStateChange (f t : Int) : Item → Option Int
  | .onStateChange k l a => if k = f ∧ l = t then some a else none
  | _ => none

/-- The action this line gives for a change of the value. -/
def Item.forValueChange (f t : Int) : Item → Option Int
  | .onValueChange k l a => if k = f ∧ l = t then some a else none
  | _ => none

/-- The name this line gives. -/
def Item.forName : Item → Option String
  | .use n => some n
  | _ => none

/-- What the last line that says something says. -/
def lastOf {α : Type} (f : Item → Option α) (items : List Item) : Option α := (items.filterMap f).getLast?

/-- An action some event triggers. -/
def Used (items : List Item) (a : Int) : Prop :=
  (∃ s, lastOf (Item.forState s) items = some a) ∨ (∃ v, lastOf (Item.forValue v) items = some a) ∨
    (∃ f t, lastOf (Item.forStateChange f t) items = some a) ∨ (∃ f t, lastOf (Item.forValueChange f t) items = some a)

end Verif.AtConfig
