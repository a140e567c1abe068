import Verif.Actions.Model

/-!
# What a user expects of local actions

Everything is said about the history of API calls itself; the model's list of registrations does not
occur here.
-/

namespace Verif.Actions

/-- A registration as made by the user. -/
structure Add where
  trigger : Nat
  client : Nat
  event : Nat
  action : Nat
  always : Bool

/-- The call removes the registration (or its handler no longer exists). -/
def kills (w : World) (a : Add) : Op → Bool
  | .deleteHandledBy c => w.real a.client == c
  | .deleteTriggeredBy t => a.trigger == t
  | .destroyHandler c => a.client == c || w.real a.client == c
  | _ => false

/-- -1 means all. -/
def wanted (x : Int) (y : Nat) : Bool := x == -1 || x == (y : Int)

/-- The call is an enable (`some true`) or disable (`some false`) that is meant for the registration. -/
def switches (a : Add) : Op → Option Bool
  | .disable t act c e =>
    if a.trigger == t && a.client == c && wanted act a.action && wanted e a.event then some false else none
  | .enable t act c e =>
    if a.trigger == t && a.client == c && wanted act a.action && wanted e a.event then some true else none
  | .disableOthers t c e => if a.trigger == t && a.client != c && a.event == e then some false else none
  | .enableOthers t c e => if a.trigger == t && a.client != c && a.event == e then some true else none
  | _ => none

/-- After the later calls `rest` the registration still exists. -/
def alive (w : World) (a : Add) (rest : List Op) : Bool := rest.all (fun o => !kills w a o)

/-- After the later calls `rest` the registration is enabled: it is an always-enabled one, or the latest
call meant for it was an enable, or there was none. -/
def enabledAfter (a : Add) (rest : List Op) : Bool :=
  a.always || (rest.filterMap (switches a)).getLast?.getD true

/-- What an event `e` of object `t` must run after the history: the live, enabled registrations for it,
once each, in the order in which they were made. -/
def expected (w : World) (t e : Nat) : List Op → List (Nat × Nat)
  | [] => []
  | .add t' c e' act al :: rest =>
    let a : Add := { trigger := t', client := c, event := e', action := act, always := al }
    (if t' = t ∧ e' = e ∧ alive w a rest ∧ enabledAfter a rest then [(c, act)] else [])
      ++ expected w t e rest
  | _ :: rest => expected w t e rest

/-- Events and actions are 16-bit values, or -1 where "all" is allowed. -/
def InRange : Op → Prop
  | .add _ _ e a _ => e < 65536 ∧ a < 65536
  | .disable _ a _ e | .enable _ a _ e => (-1 ≤ a ∧ a < 65536) ∧ (-1 ≤ e ∧ e < 65536)
  | .disableOthers _ _ e | .enableOthers _ _ e => e < 65536
  | _ => True

/-- The condition objects used by the registrations of a history, in order. -/
def condsOf (w : World) : List Op → List Nat
  | [] => []
  | .add _ c _ _ _ :: rest => if w.isCond c then c :: condsOf w rest else condsOf w rest
  | _ :: rest => condsOf w rest

/-- Facts about the handlers of every program: a plain handler is its own real client, a condition's
real client is a plain handler. -/
structure World.Sane (w : World) : Prop where
  plain : ∀ c, w.isCond c = false → w.real c = c
  cond : ∀ c, w.isCond c = true → w.isCond (w.real c) = false

end Verif.Actions
