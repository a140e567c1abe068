import Verif.Common.Clock
/-!
# Model of `Supla::Control::Relay`

Source: `/repo/src/supla/control/relay.cpp`, `/repo/src/supla/control/relay.h`.

Simplifications: the I/O layer is a register (`digitalRead` returns the level last written); the
channel value, logging and the save scheduling are left out; attached buttons appear only as the
list of motion sensor states that `onInit` reads. `_supla_int_t` arguments are reinterpreted as
`uint32_t` by the first assignment of `turnOn`/`turnOff`, so durations are naturals below 2^32.
-/

namespace Verif.Relay

/-- `SUPLA_CHANNELFNC_*` codes used by the relay (`/repo/src/supla-common/proto.h`, lines
430-495). -/
def fnGateway : Nat := 10
/-- `SUPLA_CHANNELFNC_CONTROLLINGTHEGATE`, `/repo/src/supla-common/proto.h`, lines 430-495. -/
def fnGate : Nat := 20
/-- `SUPLA_CHANNELFNC_CONTROLLINGTHEGARAGEDOOR`, `/repo/src/supla-common/proto.h`, lines 430-495. -/
def fnGarage : Nat := 30
/-- `SUPLA_CHANNELFNC_CONTROLLINGTHEDOORLOCK`, `/repo/src/supla-common/proto.h`, lines 430-495. -/
def fnDoor : Nat := 90
/-- `SUPLA_CHANNELFNC_STAIRCASETIMER`, `/repo/src/supla-common/proto.h`, lines 430-495. -/
def fnStaircase : Nat := 300
/-- `SUPLA_CHANNELFNC_PUMPSWITCH`, `/repo/src/supla-common/proto.h`, lines 430-495. -/
def fnPump : Nat := 960
/-- `SUPLA_CHANNELFNC_HEATORCOLDSOURCESWITCH`, `/repo/src/supla-common/proto.h`, lines 430-495. -/
def fnHeatCold : Nat := 970

/-- Member variables of `Relay` (`relay.h`, lines 114-141) and the pin level. -/
structure Relay where
  /-- `channelFunction` -/
  fn : Nat := 0
  /-- `channel.getDefaultFunction()` -/
  defFn : Nat := 0
  durationMs : Nat := 0
  stored : Nat := 0
  /-- `durationTimestamp` -/
  ts : Nat := 0
  /-- `minimumAllowedDurationMs` -/
  minDur : Nat := 0
  highIsOn : Bool := true
  /-- `keepTurnOnDurationMs` -/
  keep : Bool := false
  stateOnInit : Int := 0
  /-- `SUPLA_CHANNEL_FLAG_COUNTDOWN_TIMER_SUPPORTED` -/
  countdown : Bool := true
  /-- level of the output pin -/
  pin : Bool := false
deriving DecidableEq, Repr

/-- `Relay::isStaircaseFunction`, lines 495-497. -/
def Relay.isStair (s : Relay) : Bool := s.fn == fnStaircase

/-- `Relay::isImpulseFunction`, lines 499-504. -/
def Relay.isImpulse (s : Relay) : Bool :=
  s.fn == fnGate || s.fn == fnDoor || s.fn == fnGateway || s.fn == fnGarage

/-- `Relay::isOn`, lines 319-322, with `pinOnValue` (139-141). -/
def Relay.isOn (s : Relay) : Bool := s.pin == s.highIsOn

/-- `Relay::turnOn`, lines 272-298, at the time `t`. -/
def turnOn (t d : Nat) (s : Relay) : Relay :=
  let dur := d % 2 ^ 32
  let stored := if s.minDur > 0 ∧ s.stored = 0 then dur else s.stored
  let dur := if s.keep || s.isStair || s.isImpulse then stored else dur
  { s with
    stored := stored, durationMs := dur, ts := if dur ≠ 0 then clk t else 0, pin := s.highIsOn }

/-- `Relay::turnOff`, lines 300-317. -/
def turnOff (t d : Nat) (s : Relay) : Relay :=
  let dur := d % 2 ^ 32
  { s with durationMs := dur, ts := if dur ≠ 0 then clk t else 0, pin := !s.highIsOn }

/-- `Relay::toggle`, lines 324-334. -/
def toggle (t d : Nat) (s : Relay) : Relay := if s.isOn then turnOff t d s else turnOn t d s

/-- `Relay::iterateAlways`, lines 200-204. -/
def pass (t : Nat) (s : Relay) : Relay :=
  if s.durationMs ≠ 0 ∧ since (clk t) s.ts > s.durationMs then toggle t 0 s else s

/-- The actions `Relay::handleAction` (lines 336-361) reacts to. -/
inductive Action | turnOn | turnOff | toggle | turnOnWithoutTimer
deriving DecidableEq, Repr

/-- `Relay::handleAction`, lines 336-361. -/
def handleAction (t : Nat) (a : Action) (s : Relay) : Relay :=
  match a with
  | .turnOnWithoutTimer => { turnOn t 0 { s with stored := 0 } with stored := s.stored }
  | .turnOn => turnOn t 0 s
  | .turnOff => turnOff t 0 s
  | .toggle => toggle t 0 s

/-- `Relay::handleNewValueFromServer`, lines 215-260; the value byte `v` and `DurationMS`. -/
def server (t : Nat) (v : Int) (d : Nat) (s : Relay) : Relay :=
  if s.defFn = fnPump ∨ s.defFn = fnHeatCold then s
  else if v = 1 then
    let d := if d % 2 ^ 32 < s.minDur then s.minDur else d % 2 ^ 32
    let s1 := if s.isImpulse then { s with stored := d } else s
    let s2 := if s1.isStair ∧ d = 0 then { s1 with stored := 0 } else s1
    { turnOn t d s2 with stored := s1.stored }
  else if v = 0 then
    if s.keep || s.isStair || s.isImpulse then turnOff t 0 s else turnOff t d s
  else s

/-- `Relay::setChannelFunction`, lines 506-523. -/
def setFunction (f : Nat) (s : Relay) : Relay :=
  let s := { s with fn := f }
  if s.isStair || s.isImpulse then { s with keep := true }
  else { s with keep := false, stored := 0 }

/-- `Relay::applyChannelConfig`, lines 84-137; `time` is the staircase time when the configuration
has the right type and size. The aggregator update is left out (see `Verif.Aggregator`). -/
def applyConfig (f : Nat) (time : Option Nat) (s : Relay) : Relay :=
  let s := setFunction f s
  match time with
  | some d => if f = fnStaircase then { s with stored := d % 2 ^ 32 } else s
  | none => s

/-- `Relay::setMinimumAllowedDurationMs`, lines 562-567. -/
def setMin (d : Nat) (s : Relay) : Relay := { s with minDur := if d > 65535 then 65535 else d }

/-- Little-endian bytes of a `uint32_t`. -/
def le32 (x : Nat) : List Nat := [x % 256, x / 256 % 256, x / 65536 % 256, x / 16777216 % 256]

/-- `Relay::onSaveState`, lines 364-382: the duration to be saved. -/
def savedDuration (t : Nat) (s : Relay) : Nat :=
  if s.isStair then s.stored
  else if s.isImpulse then s.stored
  else if s.countdown ∧ s.stateOnInit < 0 then
    if s.durationMs ≠ 0 then
      if since (clk t) s.ts < s.durationMs then s.durationMs - since (clk t) s.ts else 0
    else 0
  else s.stored

/-- `Relay::onSaveState`, lines 365-370 and 387-389: the flags to be saved. -/
def savedFlags (s : Relay) : Nat :=
  (if s.isStair then 2 else if s.isImpulse then 4 else 0) +
    (if s.stateOnInit < 0 then (if s.isOn then 1 else 0) else 0)

/-- `Relay::onSaveState`, lines 363-393: the bytes passed to `Storage::WriteState`. -/
def save (t : Nat) (s : Relay) : List Nat := le32 (savedDuration t s) ++ [savedFlags s]

/-- `Relay::onLoadState`, lines 402-412: the restored on/off state. -/
def loadOn (flags : Nat) (s : Relay) : Relay :=
  if s.stateOnInit < 0 then { s with stateOnInit := if flags % 2 = 1 then -2 else -3 } else s

/-- `Relay::onLoadState`, lines 413-426: the restored kind of function. -/
def loadFunction (flags : Nat) (s : Relay) : Relay :=
  if flags / 2 % 2 = 1 then setFunction fnStaircase s
  else if flags / 4 % 2 = 1 then setFunction fnGate s
  else s

/-- `Relay::onLoadState`, lines 427-439: the restored countdown. -/
def loadTimer (s : Relay) : Relay :=
  if s.isStair || s.isImpulse then s
  else { s with durationMs := if s.stateOnInit < 0 then s.stored else s.durationMs, stored := 0 }

/-- `Relay::onLoadState`, lines 395-440, on the five bytes `Storage::ReadState` delivers. -/
def load (bytes : List Nat) (s : Relay) : Relay :=
  match bytes with
  | [b0, b1, b2, b3, flags] =>
    loadTimer (loadFunction flags (loadOn flags
      { s with stored := (b0 + b1 * 256 + b2 * 65536 + b3 * 16777216) % 2 ^ 32 }))
  | _ => s

/-- `Relay::onInit`, lines 147-198. `motion` lists the states of the attached motion sensors in
attachment order; `soft` is `isLastResetSoft()`. -/
def onInit (t : Nat) (motion : List Bool) (soft : Bool) (s : Relay) : Relay :=
  let stateOn := motion.foldl (fun _ m => m) (s.stateOnInit == 1 || s.stateOnInit == -2)
  let d := s.durationMs
  let set (s : Relay) : Relay := if stateOn then turnOn t d s else turnOff t d s
  set (if soft then s else set s)

/-- What happens to a relay while the device runs. -/
inductive Op
  | turnOn (d : Nat) | turnOff (d : Nat) | toggle (d : Nat)
  | action (a : Action)
  | server (v : Int) (d : Nat)
  | config (f : Nat) (time : Option Nat)
  | defFunction (f : Nat)
  | setMin (d : Nat)
  | setCountdown (b : Bool)
  | pass
deriving Repr

/-- One operation at the time `t`. -/
def step (s : Relay) (e : Nat × Op) : Relay :=
  match e.2 with
  | .turnOn d => turnOn e.1 d s
  | .turnOff d => turnOff e.1 d s
  | .toggle d => toggle e.1 d s
  | .action a => handleAction e.1 a s
  | .server v d => server e.1 v d s
  | .config f time => applyConfig f time s
  | .defFunction f => { s with defFn := f }
  | .setMin d => setMin d s
  | .setCountdown b => { s with countdown := b }
  | .pass => pass e.1 s

/-- The configuration an application gives a relay before `onInit`: polarity, default state
(`setDefaultStateOn/Off/Restore`, lines 442-455), minimum duration, countdown support. -/
structure Config where
  highIsOn : Bool := true
  /-- 1 on, 0 off, -1 restore -/
  default : Int := 0
  minDur : Nat := 0
  countdown : Bool := true
deriving DecidableEq, Repr

/-- A relay as constructed (`relay.h`, lines 114-141) and configured. The pin level before `onInit`
is arbitrary. -/
def fresh (c : Config) (pin : Bool) : Relay :=
  { highIsOn := c.highIsOn, stateOnInit := c.default, minDur := min c.minDur 65535,
    countdown := c.countdown, pin := pin }

/-- Start of the device: `onLoadState` when a state was saved, then `onInit`. -/
def boot (c : Config) (pin : Bool) (saved : Option (List Nat)) (t : Nat) (motion : List Bool)
    (soft : Bool) : Relay :=
  onInit t motion soft (match saved with | some b => load b (fresh c pin) | none => fresh c pin)

/-- The relay after a start and a history of operations. -/
def run (s : Relay) (h : List (Nat × Op)) : Relay := h.foldl step s

end Verif.Relay
