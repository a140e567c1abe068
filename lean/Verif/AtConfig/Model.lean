/-!
# Actions of channels of the Linux port

Models `/repo/extras/porting/linux/linux_yaml_config.cpp` (Y), `supla/sensor/sensor_parsed.cpp` (SP) and
`supla/control/action_trigger_parsed.cpp` (AP) of the same directory. When the actions are triggered is modelled in `Verif.Parsed`;
how they are sent to the server in `Verif.Trigger`.
-/

namespace Verif.AtConfig

/-- One element of the list `action_trigger`, Y 1890-1914: the parameters that are present. A parameter that is not a list of
numbers, and `action_trigger` that is not a list, are not modelled. -/
structure El where
  onState : Option (List Int) := none
  onValue : Option (List Int) := none
  onValueChange : Option (List Int) := none
  onStateChange : Option (List Int) := none
  use : Option String := none

/-- `SensorParsedBase`, `supla/sensor/sensor_parsed.h` 91-98. A `std::map` is a list of pairs with different keys; its order
matters nowhere below. `atName` is empty at first. -/
structure Cfg where
  state : List (Int × Int) := []
  value : List (Int × Int) := []
  stateChange : List ((Int × Int) × Int) := []
  valueChange : List ((Int × Int) × Int) := []
  name : String := ""

/-- `map[k] = v`. -/
def put {K : Type} [DecidableEq K] (k : K) (v : Int) (m : List (K × Int)) : List (K × Int) :=
  (k, v) :: m.filter fun p => decide (p.1 ≠ k)

/-- `map.find(k)`. -/
def find {K : Type} [DecidableEq K] (k : K) : List (K × Int) → Option Int
  | [] => none
  | p :: m => if p.1 = k then some p.2 else find k m

/-- `addAtOnState` and `addAtOnValue`, SP 142-160. `none`: `false` is returned. -/
def add2 (m : List (Int × Int)) : List Int → Option (List (Int × Int))
  | [k, v] => some (put k v m)
  | _ => none

/-- `addAtOnStateChange` and `addAtOnValueChange`, SP 162-184. -/
def add3 (m : List ((Int × Int) × Int)) : List Int → Option (List ((Int × Int) × Int))
  | [a, b, v] => some (put (a, b) v m)
  | _ => none

/-- One round of the loop, Y 1890-1915, with `atNameFound`. -/
def element (c : Cfg × Bool) (el : El) : Option (Cfg × Bool) :=
  match el.onState with
  | some l => (add2 c.1.state l).map fun m => ({ c.1 with state := m }, c.2)
  | none =>
    match el.onValue with
    | some l => (add2 c.1.value l).map fun m => ({ c.1 with value := m }, c.2)
    | none =>
      match el.onValueChange with
      | some l => (add3 c.1.valueChange l).map fun m => ({ c.1 with valueChange := m }, c.2)
      | none =>
        match el.onStateChange with
        | some l => (add3 c.1.stateChange l).map fun m => ({ c.1 with stateChange := m }, c.2)
        | none =>
          match el.use with
          | some n => some ({ c.1 with name := n }, true)
          | none => some c

/-- The loop, Y 1890-1915. -/
def elements (c : Cfg × Bool) : List El → Option (Cfg × Bool)
  | [] => some c
  | el :: els => (element c el).bind fun d => elements d els

/-- `addActionTriggerActions`, Y 1877-1924, with `action_trigger` present. `none`: the channel is refused. -/
def configure (els : List El) : Option Cfg :=
  match elements ({}, false) els with
  | some (c, true) => some c
  | _ => none

/-- `1 << action`, AP 31 and 41. `none`: undefined behaviour, the shift is negative or not less than the width. -/
def bit (a : Int) : Option Nat := if 0 ≤ a ∧ a < 32 then some (2 ^ a.toNat) else none

/-- The loops of `registerActions`, SP 235-246, with `activateAction`, AP 39-42 and `/repo/src/supla/at_channel.cpp` 56-58. -/
def activate (caps : Nat) : List Int → Option Nat
  | [] => some caps
  | a :: as => (bit a).bind fun b => activate (caps ||| b) as

/-- The actions in the order of the loops, SP 235-246. -/
def actions (c : Cfg) : List Int :=
  c.state.map (·.2) ++ c.value.map (·.2) ++ c.stateChange.map (·.2) ++ c.valueChange.map (·.2)

/-- `registerActions`, SP 227-250. `known`: the name is found in `atMap`. `none`: undefined behaviour. -/
def register (known : String → Bool) (c : Cfg) (caps : Nat) : Option Nat :=
  if c.name.length = 0 then some caps else if known c.name then activate caps (actions c) else some caps

/-- `sendActionTrigger`, AP 30-37: the actions waiting to be sent afterwards. `active`: `activeActionsFromServer`;
`onServer`: `actionHandlingType` is `ActionHandlingType_RelayOnSuplaServer`. `none`: undefined behaviour. -/
def send (active : Nat) (onServer : Bool) (a : Int) (waiting : Nat) : Option Nat :=
  (bit a).map fun b => if b &&& active ≠ 0 ∨ onServer = false then waiting ||| b else waiting

end Verif.AtConfig
