/-!
# Local actions

Model of `/repo/src/supla/local_action.{h,cpp}` and `/repo/src/supla/action_handler.cpp`.

Objects (triggers and handlers) are natural numbers standing for their addresses. The singly linked
list of `ActionHandlerClient` objects is a `List Reg`; its nodes are allocated by `addAction` only,
appended at the tail by the constructor and unlinked by the destructor (lines 21-50). Handlers are
taken here not to change the registrations while they run; `Reentrant.lean` models `runAction` walking the
list while they do.
-/

namespace Verif.Actions

/-- `ActionHandlerClient`, local_action.h lines 28-51. -/
structure Reg where
  trigger : Nat
  client : Option Nat
  event : Nat
  action : Nat
  enabled : Bool
  always : Bool
deriving DecidableEq, Repr

/-- Which handlers are `Condition` objects (their `deleteClient` returns true), and what
`getRealClient` returns: the condition's client, or the handler itself. -/
structure World where
  isCond : Nat → Bool
  real : Nat → Nat

/-- `ActionHandlerClient::enable`, lines 56-58. -/
def Reg.enable (r : Reg) : Reg := { r with enabled := true }

/-- `ActionHandlerClient::disable`, lines 60-64. -/
def Reg.disable (r : Reg) : Reg := if r.always then r else { r with enabled := false }

/-- `LocalAction::addAction`, lines 81-94, with the constructor (lines 21-31) that appends at the
tail. Parameters are `uint16_t`. -/
def addAction (regs : List Reg) (trigger client event action : Nat) (always : Bool) : List Reg :=
  regs ++ [{ trigger := trigger, client := some client, event := event % 65536,
             action := action % 65536, enabled := true, always := always }]

/-- `LocalAction::runAction`, lines 103-112: the calls `handleAction(event, action)` made, with the
handler. -/
def runAction (trigger event : Nat) : List Reg → List (Nat × Nat)
  | [] => []
  | r :: rest =>
    match r.client with
    | some c =>
      if r.trigger = trigger ∧ r.event = event % 65536 ∧ r.enabled then
        (c, r.action) :: runAction trigger event rest
      else runAction trigger event rest
    | none => runAction trigger event rest

/-- `eventToCheck`/`actionToCheck` of lines 198-205. -/
def toCheck (x : Int) : Nat := if 0 ≤ x ∧ x ≤ 65535 then x.toNat else 0

/-- The test of lines 208-209 and 231-232. -/
def matchesAction (r : Reg) (trigger : Nat) (action : Int) (client : Nat) (event : Int) : Bool :=
  r.trigger == trigger && (r.event == toCheck event || event == -1)
    && r.client == some client && (r.action == toCheck action || action == -1)

/-- `LocalAction::disableAction`, lines 192-214. -/
def disableAction (regs : List Reg) (trigger : Nat) (action : Int) (client : Nat) (event : Int) : List Reg :=
  regs.map (fun r => if matchesAction r trigger action client event then r.disable else r)

/-- `LocalAction::enableAction`, lines 216-237. -/
def enableAction (regs : List Reg) (trigger : Nat) (action : Int) (client : Nat) (event : Int) : List Reg :=
  regs.map (fun r => if matchesAction r trigger action client event then r.enable else r)

/-- `LocalAction::disableOtherClients`, lines 140-150. -/
def disableOthers (regs : List Reg) (trigger client event : Nat) : List Reg :=
  regs.map (fun r =>
    if r.trigger == trigger && r.event == event % 65536 && r.client != some client then r.disable else r)

/-- `LocalAction::enableOtherClients`, lines 152-162. -/
def enableOthers (regs : List Reg) (trigger client event : Nat) : List Reg :=
  regs.map (fun r =>
    if r.trigger == trigger && r.event == event % 65536 && r.client != some client then r.enable else r)

/-- `LocalAction::NullifyActionsHandledBy`, lines 263-271, when handler `c` is destroyed: run from the
destructor of `ActionHandler` (action_handler.cpp lines 20-22). While it runs, `c` itself is already an
`ActionHandler` base object, so `getRealClient` of `c` is `c`. -/
def nullify (w : World) (regs : List Reg) (c : Nat) : List Reg :=
  regs.map (fun r =>
    match r.client with
    | some x => if x = c ∨ w.real x = c then { r with client := none } else r
    | none => r)

/-- `~ActionHandlerClient`, lines 33-50, of the node at the head of `r :: rest` with `before` in front of
it: a condition is destroyed with its registration; then the node is unlinked. -/
def deleteNode (w : World) (before : List Reg) (r : Reg) (rest : List Reg) : List Reg :=
  match r.client with
  | some c => if w.isCond c then nullify w (before ++ rest) c else before ++ rest
  | none => before ++ rest

/-- First node satisfying `p`: what is in front of it, the node, what follows. -/
def splitFirst (p : Reg → Bool) : List Reg → Option (List Reg × Reg × List Reg)
  | [] => none
  | r :: rest =>
    if p r then some ([], r, rest)
    else match splitFirst p rest with
      | some (a, x, b) => some (r :: a, x, b)
      | none => none

/-- The loops of `DeleteActionsHandledBy` and `DeleteActionsTriggeredBy`, lines 239-261: walk from the
head, delete the first match, start again from the head. `fuel` bounds the number of deletions; the
length of the list is enough (`deleteLoop_done`). -/
def deleteLoop (w : World) (p : Reg → Bool) : Nat → List Reg → List Reg
  | 0, regs => regs
  | fuel + 1, regs =>
    match splitFirst p regs with
    | none => regs
    | some (a, x, b) => deleteLoop w p fuel (deleteNode w a x b)

/-- The test of line 243. -/
def handledBy (w : World) (c : Nat) (r : Reg) : Bool :=
  match r.client with
  | some x => w.real x == c
  | none => false

/-- `LocalAction::DeleteActionsHandledBy`, lines 239-249. -/
def deleteHandledBy (w : World) (regs : List Reg) (c : Nat) : List Reg :=
  deleteLoop w (handledBy w c) regs.length regs

/-- `LocalAction::DeleteActionsTriggeredBy`, lines 251-261; also `~LocalAction`, lines 77-79. -/
def deleteTriggeredBy (w : World) (regs : List Reg) (t : Nat) : List Reg :=
  deleteLoop w (fun r => r.trigger == t) regs.length regs

/-- `LocalAction::isEventAlreadyUsed`, lines 118-128. -/
def isEventUsed (regs : List Reg) (t event : Nat) (ignoreAlways : Bool) : Bool :=
  regs.any (fun r => r.trigger == t && r.event == event % 65536 && (!ignoreAlways || !r.always))

/-- `LocalAction::getHandlerForFirstClient`, lines 164-173. -/
def firstHandler (regs : List Reg) (t event : Nat) : Option Reg :=
  regs.find? (fun r => r.trigger == t && r.event == event % 65536)

/-- `LocalAction::getHandlerForClient`, lines 175-186. -/
def handlerFor (regs : List Reg) (t c event : Nat) : Option Reg :=
  regs.find? (fun r => r.trigger == t && r.client == some c && r.event == event % 65536)

/-- The API calls that change registrations. -/
inductive Op
  | add (trigger client event action : Nat) (always : Bool)
  | disable (trigger : Nat) (action : Int) (client : Nat) (event : Int)
  | enable (trigger : Nat) (action : Int) (client : Nat) (event : Int)
  | disableOthers (trigger client event : Nat)
  | enableOthers (trigger client event : Nat)
  | deleteHandledBy (client : Nat)
  | deleteTriggeredBy (trigger : Nat)
  | destroyHandler (client : Nat)
deriving DecidableEq, Repr

/-- One API call. -/
def step (w : World) (regs : List Reg) : Op → List Reg
  | .add t c e a al => addAction regs t c e a al
  | .disable t a c e => disableAction regs t a c e
  | .enable t a c e => enableAction regs t a c e
  | .disableOthers t c e => disableOthers regs t c e
  | .enableOthers t c e => enableOthers regs t c e
  | .deleteHandledBy c => deleteHandledBy w regs c
  | .deleteTriggeredBy t => deleteTriggeredBy w regs t
  | .destroyHandler c => nullify w regs c

/-- A history of API calls. -/
def exec (w : World) (regs : List Reg) (h : List Op) : List Reg := h.foldl (step w) regs

end Verif.Actions
