/-!
# Exchange of the configuration of a channel

Model of `/repo/src/supla/element_with_channel_actions.cpp` (cited as E): the configuration of one channel is
kept on the device and on the server; a change on one side is sent to the other.

Simplified: one protocol layer; a configuration store is present and what is written to it is not lost at a
restart; the function of the channel is not kept (a message only tells whether the channel is disabled); of the
types of a configuration only DEFAULT and OCR are modelled.
-/

namespace Verif.ChanCfg

/-- `ChannelConfigState` (`element_with_channel_actions.h` 30-38). -/
inductive St where
  | none | pending | send | failed | wait | ocrPending | ocrSend
deriving DecidableEq, Repr

/-- What a class does to the state when it has taken a configuration (`applyChannelConfig`): nothing; marks it
as changed (`general_purpose_channel_base.cpp` 500-501, `therm_hygro_meter.cpp` 231); clears the mark
(`therm_hygro_meter.cpp` 233); asks to send its own (`roller_shutter_interface.cpp` 578); reads the mark back
from the store (`electricity_meter.cpp` 573-577, E 105-121). -/
inductive After where
  | keep | mark | clear | trigger | reload
deriving DecidableEq, Repr

/-- What a class supplies: `fillChannelConfig` (`none` is a size of 0), `applyChannelConfig`, `hasOcrConfig`. -/
structure Elem (α μ : Type) where
  fill : α → Option μ
  apply : μ → α → α × After
  ocr : Bool := false

/-- The state of the element. `unsent` and `unacked` are not in the program: there is a change made on the
device that no message of this connection has carried, that the server has not confirmed. -/
structure S (α : Type) where
  /-- `channelConfigState` -/
  st : St := .none
  /-- `configFinishedReceived` -/
  fin : Bool := false
  /-- the stored flag "changed" -/
  flag : Bool := false
  /-- the settings -/
  val : α
  /-- `isOcrConfigMissing` -/
  ocrMissing : Bool := false
  unsent : Bool := false
  unacked : Bool := false
deriving DecidableEq, Repr

/-- A message from the server. `config` carries a configuration of type DEFAULT, `none` is an empty one;
`ocrConfig` one of type OCR, `good` when the device has nothing to correct in it. -/
inductive In (μ : Type) where
  | config (enabled : Bool) (c : Option μ)
  | ocrConfig (enabled : Bool) (good : Option Bool)
  | finished
  | result (ocr ok : Bool)
deriving DecidableEq, Repr

/-- What the device sends: a configuration, or the OCR configuration. -/
inductive Out (μ : Type) where
  | config (m : μ)
  | ocr
deriving DecidableEq, Repr

/-- What happens. -/
inductive Op (α μ : Type) where
  | change (v : α)
  | registered
  | message (i : In μ)
  | pass (busy ready : Bool)
  | restart
deriving DecidableEq, Repr

variable {α μ : Type} [DecidableEq α]

/-- `saveConfigChangeFlag` (E 123-140). -/
def saveFlag (s : S α) : S α :=
  { s with flag := !(s.st = .none || s.st = .wait) }

/-- `triggerSetChannelConfig` (E 436-441). -/
def trigger (s : S α) : S α :=
  if s.st = .failed then s else { s with st := .pending }

/-- A setter called on the device (`general_purpose_channel_base.cpp` 331-339). -/
def change (v : α) (s : S α) : S α :=
  if v = s.val then s
  else { saveFlag { s with val := v, st := .pending } with unsent := true, unacked := true }

/-- `onRegistered` (E 193-211). -/
def registered (E : Elem α μ) (s : S α) : S α :=
  { s with
    ocrMissing := E.ocr
    fin := false
    unsent := s.unacked
    st := match s.st with
      | .none | .ocrPending | .ocrSend | .wait => .wait
      | _ => .pending }

/-- `handleChannelConfigFinished` (E 213-218). -/
def finished (s : S α) : S α :=
  { s with fin := true, st := if s.st = .wait then .none else s.st }

/-- What follows `applyChannelConfig`. -/
def after (a : After) (s : S α) : S α :=
  match a with
  | .keep => s
  | .mark => saveFlag { s with st := .pending }
  | .clear => saveFlag { s with st := .none }
  | .trigger => trigger s
  | .reload => { s with st := if s.flag then .pending else .none }

/-- `handleChannelConfig` for a configuration of type DEFAULT from the server (E 303-358). -/
def config (E : Elem α μ) (enabled : Bool) (c : Option μ) (s : S α) : S α :=
  if enabled = false then { s with st := .none }
  else if s.st = .pending then s
  else
    match c with
    | none => trigger s
    | some m => after (E.apply m s.val).2 { s with val := (E.apply m s.val).1 }

/-- `handleChannelConfig` for a configuration of type OCR (E 303-358, `ocr_impulse_counter.cpp` 88-140). -/
def ocrConfig (E : Elem α μ) (enabled : Bool) (good : Option Bool) (s : S α) : S α :=
  if enabled = false then { s with st := .none }
  else
    match good with
    | none => trigger s
    | some g =>
      { s with
        st := if s.st = .ocrSend then .none else s.st
        ocrMissing := if E.ocr then !g else s.ocrMissing }

/-- `clearChannelConfigChangedFlag` (E 185-191). -/
def clearChanged (s : S α) : S α :=
  if s.st = .none ∨ s.st = .failed then s else saveFlag { s with st := .none }

/-- `handleSetChannelConfigResult` (E 379-410). -/
def result (ocr ok : Bool) (s : S α) : S α :=
  let s := if ok then s else { s with st := .failed }
  if ocr then s
  else
    let s := clearChanged s
    if ok then { s with unacked := s.unsent } else s

/-- The end of `iterateConnected` (E 294-297). -/
def askOcr (s : S α) : S α :=
  if s.st = .none ∧ s.ocrMissing then { s with st := .ocrPending } else s

/-- `iterateConnected` (E 220-301); `busy`: a value of the channel has just been sent
(`element.cpp` `Element::iterateConnected`), `ready`: the protocol layer takes the message. -/
def pass (E : Elem α μ) (busy ready : Bool) (s : S α) : S α × List (Out μ) :=
  if busy = true ∨ s.fin = false then (s, [])
  else
    match s.st with
    | .pending =>
      match E.fill s.val with
      | some m =>
        if ready then ({ s with st := .send, unsent := false }, [.config m]) else (s, [])
      | none => (askOcr { s with st := .none }, [])
    | .ocrPending =>
      if E.ocr then
        if ready then ({ s with st := .ocrSend }, [.ocr]) else (s, [])
      else (askOcr { s with st := .none }, [])
    | _ => (askOcr s, [])

/-- One step. At a restart the settings and the flag are read back (E 105-121). -/
def step (E : Elem α μ) (s : S α) : Op α μ → S α × List (Out μ)
  | .change v => (change v s, [])
  | .registered => (registered E s, [])
  | .message (.config e c) => (config E e c s, [])
  | .message (.ocrConfig e g) => (ocrConfig E e g s, [])
  | .message .finished => (finished s, [])
  | .message (.result o k) => (result o k s, [])
  | .pass b r => pass E b r s
  | .restart =>
    ({ st := if s.flag then .pending else .none, flag := s.flag, val := s.val, ocrMissing := E.ocr, unsent := s.unacked, unacked := s.unacked }, [])

/-- A history. -/
def run (E : Elem α μ) : List (Op α μ) → S α → S α × List (Out μ)
  | [], s => (s, [])
  | op :: ops, s => ((run E ops (step E s op).1).1, (step E s op).2 ++ (run E ops (step E s op).1).2)

end Verif.ChanCfg
