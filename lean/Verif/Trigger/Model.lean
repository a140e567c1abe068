import Verif.Actions.Model

/-!
# Action trigger

Model of `/repo/src/supla/control/action_trigger.cpp` (cited as A) and of the queue in
`/repo/src/supla/at_channel.cpp` (cited as Q). Registrations of local actions are those of `Verif.Actions`; a pointer
to a registration is its position in the list, which does not change as nothing is removed. The button is attached
(`attachedButton` is not null). Left out: the repetition while the button is held (A 233-237), logging.
-/

namespace Verif.Trigger

open Verif.Actions (Reg addAction enableAction disableAction enableOthers disableOthers isEventUsed runAction)

/-! ## Numbers -/

/-- `Supla::Event` (`events.h` 22-63). -/
def onPress : Nat := 0
/-- `Supla::Event` (`events.h` 22-63). -/
def onRelease : Nat := 1
/-- `Supla::Event` (`events.h` 22-63). -/
def onChange : Nat := 2
/-- `Supla::Event` (`events.h` 22-63). -/
def onHold : Nat := 3
/-- `Supla::Event` (`events.h` 22-63). -/
def onClick1 : Nat := 4
/-- `Supla::Event` (`events.h` 22-63). -/
def condPress : Nat := 31
/-- `Supla::Event` (`events.h` 22-63). -/
def condRelease : Nat := 32
/-- `Supla::Event` (`events.h` 22-63). -/
def condChange : Nat := 33

/-- One kind of trigger: its bit in `SUPLA_ACTION_CAP_*` (`proto.h` 3463-3477), the event of the button
(`actionTriggerCapToButtonEvent`, A 153-191) and the action (`actionTriggerCapToActionId`, A 107-151; numbers from
`actions.h` 25-99). -/
structure Cap where
  bit : Nat
  event : Nat
  action : Nat
deriving DecidableEq, Repr

/-- All of them, in the order of the bits. -/
def caps : List Cap :=
  [⟨0, 0, 49⟩, ⟨1, 1, 50⟩, ⟨2, 4, 51⟩, ⟨3, 5, 52⟩, ⟨4, 6, 53⟩, ⟨5, 7, 54⟩, ⟨6, 8, 55⟩,
   ⟨10, 3, 56⟩, ⟨11, 4, 57⟩, ⟨12, 5, 58⟩, ⟨13, 6, 59⟩, ⟨14, 7, 60⟩, ⟨15, 8, 61⟩]

/-- `getActionTriggerCap` (A 65-105): the mask of an action, 0 when it is not a trigger. -/
def capMask (action : Nat) : BitVec 32 :=
  match caps.find? (fun c => c.action == action) with
  | some c => 1#32 <<< c.bit
  | none => 0

/-- `ActionHandlingType` (`action_trigger.h` 35-39). -/
inductive Handling where
  | server | publishAll | disableAll
deriving DecidableEq, Repr

/-- The three types of buttons (`isMonostable`, `isBistable`, `isMotionSensor`). -/
inductive Kind where
  | monostable | bistable | motion
deriving DecidableEq, Repr

/-- The fields of `ActionTrigger` (`action_trigger.h` 92-103). `disables` are the bits of `disablesLocalOperation`. -/
structure At where
  active : BitVec 32 := 0
  disables : List Nat := []
  handling : Handling := .server
  /-- `localHandlerForDisabledAt` -/
  off : Option Nat := none
  /-- `localHandlerForEnabledAt` -/
  on : Option Nat := none
deriving DecidableEq, Repr

/-! ## Configuration -/

/-- The events whose other clients are switched together with a trigger (A 256-287). -/
def covered (e : Nat) : List Nat :=
  if e = onPress then [onPress, condPress]
  else if e = onRelease then [onRelease, condRelease]
  else if e = onClick1 then [onClick1, onChange, condChange]
  else [e]

/-- Switching the other clients of several events. -/
def switchOthers (b t : Nat) (v : Bool) (es : List Nat) (regs : List Reg) : List Reg :=
  es.foldl (fun rs e => if v then enableOthers rs b t e else disableOthers rs b t e) regs

/-- `handler->disable()` when the flag is set. -/
def disableAt (go : Bool) (i : Option Nat) (regs : List Reg) : List Reg :=
  match i with
  | some i => if go then regs.modify i Reg.disable else regs
  | none => regs

/-- The variables of the loop. -/
structure P where
  regs : List Reg
  /-- `makeSureThatOnClick1IsDisabled` -/
  noClick : Bool := false
  /-- `makeSureThatOnChangePressReleaseIsDisabled` -/
  noPress : Bool := false

/-- Enabling or disabling the trigger itself (A 246-251). -/
def switchSelf (b t : Nat) (a : At) (c : Cap) (regs : List Reg) : List Reg :=
  if a.active.getLsbD c.bit ∨ a.handling = .publishAll then enableAction regs b c.action t c.event
  else disableAction regs b c.action t c.event

/-- One pass of the loop (A 239-299). -/
def stepCap (b t : Nat) (a : At) (p : P) (c : Cap) : P :=
  if c.bit ∈ a.disables then
    if a.active.getLsbD c.bit then { p with regs := switchOthers b t false (covered c.event) (switchSelf b t a c p.regs) }
    else if c.event = onClick1 then
      { regs := disableAt p.noPress a.off (disableAt p.noClick a.on (switchOthers b t true (covered c.event) (switchSelf b t a c p.regs))) }
    else { p with regs := switchOthers b t true (covered c.event) (switchSelf b t a c p.regs) }
  else { p with regs := switchSelf b t a c p.regs }

/-- The local operation is moved from the press to the click, or back (A 211-231). -/
def move (a : At) (regs : List Reg) : P :=
  match a.off, a.on with
  | some i, some j =>
    if a.active ≠ 0 ∨ a.handling = .publishAll then
      { regs := (regs.modify i Reg.disable).modify j Reg.enable, noPress := true }
    else { regs := (regs.modify i Reg.enable).modify j Reg.disable, noClick := true }
  | _, _ => { regs := regs }

/-- `activeActionsFromServer` after A 204-206. -/
def fix (a : At) : At := if a.handling = .disableAll then { a with active := 0xFFFFFFFF } else a

/-- `parseActiveActionsFromServer` (A 203-302). -/
def parse (b t : Nat) (a : At) (regs : List Reg) : At × List Reg :=
  (fix a, (caps.foldl (stepCap b t (fix a)) (move (fix a) regs)).regs)

/-- `handleChannelConfig` (A 304-323) with a message of the right type and size. -/
def config (b t : Nat) (x : At × List Reg) (active : BitVec 32) : At × List Reg :=
  parse b t { x.1 with active := active } x.2

/-! ## Initialisation -/

/-- The event whose handler is moved to the click (A 341-385). -/
def movedEvent (k : Kind) (b : Nat) (regs : List Reg) : Option Nat :=
  match k with
  | .bistable =>
    if isEventUsed regs b onChange false ≠ isEventUsed regs b condChange false then
      some (if isEventUsed regs b onChange false then onChange else condChange)
    else none
  | .monostable =>
    match isEventUsed regs b onPress false, isEventUsed regs b onRelease false,
      isEventUsed regs b condPress false, isEventUsed regs b condRelease false with
    | true, false, false, false => some onPress
    | false, true, false, false => some onRelease
    | false, false, true, false => some condPress
    | false, false, false, true => some condRelease
    | _, _, _, _ => none
  | .motion => none

/-- Position of the first registration for an event (`getHandlerForFirstClient`). -/
def firstAt (b e : Nat) (regs : List Reg) : Option Nat := regs.findIdx? (fun r => r.trigger == b && r.event == e)

/-- Position of the first registration of a client for an event (`getHandlerForClient`). -/
def clientAt (b c e : Nat) (regs : List Reg) : Option Nat :=
  regs.findIdx? (fun r => r.trigger == b && r.client == some c && r.event == e)

/-- The local handler and its second registration (A 386-395). `none`: the handler does not exist any more and
`addAction` calls a method of a null pointer. -/
def addMoved (b : Nat) (a : At) (regs : List Reg) (i : Nat) : Option (At × List Reg) :=
  match regs[i]? with
  | none => none
  | some r =>
    match r.client with
    | none => none
    | some c =>
      let regs' := addAction regs b c onClick1 r.action false
      match clientAt b c onClick1 regs' with
      | none => none
      | some j => some ({ a with off := some i, on := some j }, regs'.modify j Reg.disable)

/-- The bits of `disablesLocalOperation` and the events that set them (A 400-429, 470-487, 511-516). -/
def disableTable : Kind → List (Nat × List Nat)
  | .bistable => [(0, [onPress, condPress]), (1, [onRelease, condRelease]), (2, [onClick1, onChange, condChange]),
      (3, [5]), (4, [6]), (5, [7]), (6, [8])]
  | .monostable => [(10, [onHold]), (11, [onClick1]), (12, [5]), (13, [6]), (14, [7]), (15, [8])]
  | .motion => [(0, [onPress]), (1, [onRelease])]

/-- `disablesLocalOperation`. -/
def disablesOf (k : Kind) (b : Nat) (regs : List Reg) : List Nat :=
  ((disableTable k).filter fun x => x.2.any fun e => isEventUsed regs b e true).map (·.1)

/-- The triggers that a kind of button has (A 431-458, 462-469, 489-509, 517-523). -/
def bitsOf : Kind → List Nat
  | .bistable => [0, 1, 2, 3, 4, 5, 6]
  | .monostable => [0, 1, 10, 11, 12, 13, 14, 15]
  | .motion => [0, 1]

/-- `addActionToButtonAndDisableIt` (A 598-602). -/
def addSelf (b t : Nat) (regs : List Reg) (c : Cap) : List Reg :=
  disableAction (addAction regs b t c.event c.action false) b c.action t c.event

/-- All triggers that are not switched off by `disableATCapability`. -/
def selfCaps (k : Kind) (disabledCaps : BitVec 32) : List Cap :=
  caps.filter fun c => (bitsOf k).contains c.bit && !disabledCaps.getLsbD c.bit

/-- The first part of `onInit` (A 338-395). -/
def initMoved (k : Kind) (b : Nat) (a : At) (regs : List Reg) : Option (At × List Reg) :=
  match (movedEvent k b regs).bind fun e => firstAt b e regs with
  | none => some (a, regs)
  | some i => addMoved b a regs i

/-- `onInit` (A 338-531). -/
def init (k : Kind) (b t : Nat) (disabledCaps : BitVec 32) (a : At) (regs : List Reg) : Option (At × List Reg) :=
  (initMoved k b a regs).map fun x =>
    parse b t { x.1 with disables := disablesOf k b x.2 } ((selfCaps k disabledCaps).foldl (addSelf b t) x.2)

/-- `handleAction` (A 46-54): the mask added to the queue. -/
def push (a : At) (action : Nat) : Option (BitVec 32) :=
  if capMask action &&& a.active ≠ 0 ∨ a.handling ≠ .server then some (capMask action) else none

/-- What an event of the button adds to the queue. -/
def pushed (b t : Nat) (x : At × List Reg) (e : Nat) : List (BitVec 32) :=
  ((runAction b e x.2).filter (fun y => y.1 == t)).filterMap fun y => push x.1 y.2

/-! ## Queue -/

/-- The channel: `actionToSend`, `valueChanged` and `channelConfig` (a request for the configuration). -/
structure Queue where
  acts : BitVec 32 := 0
  changed : Bool := false
  request : Bool := false
deriving DecidableEq, Repr

/-- The lowest bit. -/
def lowest (m : BitVec 32) : Option Nat := (List.range 32).find? fun i => m.getLsbD i

/-- What is sent. -/
inductive Msg where
  | trigger (bit : Nat)
  | getConfig
deriving DecidableEq, Repr

/-- `pushAction` (Q 51-54). -/
def Queue.push (q : Queue) (m : BitVec 32) : Queue := { q with acts := q.acts ||| m, changed := true }

/-- `popAction` (Q 38-49). -/
def Queue.pop (q : Queue) : Queue × Option Nat :=
  match lowest q.acts with
  | none => (q, none)
  | some i => ({ q with acts := q.acts ^^^ (1#32 <<< i), changed := if q.acts ^^^ (1#32 <<< i) = 0 then false else q.changed }, some i)

/-- `AtChannel::sendUpdate` (Q 24-36) with `Channel::sendUpdate` (`channel.cpp` 375-404) when the value has not
changed. -/
def Queue.send (q : Queue) : Queue × List Msg :=
  if q.changed then
    match q.pop with
    | (q', some i) => (q', [.trigger i])
    | (q', none) => (q', [])
  else if q.request then ({ q with request := false }, [.getConfig]) else (q, [])

/-- `onRegistered` (A 193-201): the queue is emptied and the configuration is asked for. At most 32 actions are in
the queue. -/
def Queue.registered (q : Queue) : Queue :=
  { (Nat.repeat (fun q => (Queue.pop q).1) 32 q) with request := true }

/-- `n` passes of `iterateConnected` (`element.cpp` 165-171), each more than 50 ms after the one before. -/
def Queue.passes : Nat → Queue → Queue × List Msg
  | 0, q => (q, [])
  | n + 1, q =>
    if q.changed || q.request then ((Queue.passes n q.send.1).1, q.send.2 ++ (Queue.passes n q.send.1).2)
    else (q, [])

end Verif.Trigger
