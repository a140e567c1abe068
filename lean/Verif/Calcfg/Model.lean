/-!
# Commands for calibration and service (CALCFG)

Models the case `SUPLA_SD_CALL_DEVICE_CALCFG_REQUEST` and the pending results of
/repo/src/supla/protocol/supla_srpc.cpp (P), `handleCalcfgFromServer` of /repo/src/SuplaDevice.cpp (D) and of
the elements of the library. What is not modelled is what the effects do (see the models of counters,
shutters, restarts).
-/

namespace Verif.Calcfg

/-- `TSD_DeviceCalCfgRequest`, proto.h lines 2210-2219; of the data only the two flags of
`TCalCfg_LightSourceLifespan`. -/
structure Request where
  sender : Int
  channel : Int
  command : Int
  auth : Int
  dataType : Int
  dataSize : Nat
  setTime : Bool
  resetCounter : Bool
deriving DecidableEq, Repr

/-- What a command does. -/
inductive Effect
  | cfgMode | restart | setTime | pairing | identify
  | resetCounters | recalibrate | photo | lifespan | operatingTime
  | custom
deriving DecidableEq, Repr

/-- The elements of the library with a handler, elements without (`Element::handleCalcfgFromServer`,
element.cpp lines 257-260), and elements of the application, with an arbitrary result. -/
inductive Kind
  | counter | meter | gpm | light | shutter | ocr | plain
  | custom (result : Request → Int)

/-- `SUPLA_CALCFG_RESULT_NOT_SUPPORTED`, `_UNAUTHORIZED`, `_DONE`, `_TRUE`, `_FALSE` (proto.h lines 2068-2077). -/
def notSupported : Int := 102
/-- `SUPLA_CALCFG_RESULT_UNAUTHORIZED`, proto.h lines 2068-2077. -/
def unauthorized : Int := 104
/-- `SUPLA_CALCFG_RESULT_DONE`, proto.h lines 2068-2077. -/
def done : Int := 2
/-- `SUPLA_CALCFG_RESULT_TRUE`, proto.h lines 2068-2077. -/
def resTrue : Int := 1
/-- `SUPLA_CALCFG_RESULT_FALSE`, proto.h lines 2068-2077. -/
def resFalse : Int := 0

/-- `SUPLA_SRPC_CALCFG_RESULT_PENDING`, supla_srpc.h line 27. -/
def resPending : Int := -2

/-- `VirtualImpulseCounter::handleCalcfgFromServer` (virtual_impulse_counter.cpp lines 89-103),
`ElectricityMeter` (electricity_meter.cpp lines 806-818) and `GeneralPurposeMeter`
(general_purpose_meter.cpp lines 245-259) are the same. -/
def counterHandle (r : Request) : Int × List Effect :=
  if r.command = 7000 then
    if r.auth = 0 then (unauthorized, []) else (done, [.resetCounters])
  else (notSupported, [])

/-- `OcrImpulseCounter::handleCalcfgFromServer`, ocr_impulse_counter.cpp lines 70-90. -/
def ocrHandle (r : Request) : Int × List Effect :=
  if (counterHandle r).1 ≠ notSupported then counterHandle r
  else if r.command = 9420 then
    if r.auth = 0 then (unauthorized, []) else (done, [.photo])
  else (notSupported, [])

/-- `RollerShutterInterface::handleCalcfgFromServer`, roller_shutter_interface.cpp lines 528-543. -/
def shutterHandle (r : Request) : Int × List Effect :=
  if r.command = 8000 then
    if r.auth = 0 then (unauthorized, []) else (done, [.recalibrate])
  else (notSupported, [])

/-- `LightRelay::handleCalcfgFromServer`, light_relay.cpp lines 51-75; `TCalCfg_LightSourceLifespan` has 4
bytes (proto.h). -/
def lightHandle (r : Request) : Int × List Effect :=
  if r.command = 6000 then
    if r.auth ≠ 1 then (unauthorized, [])
    else if r.dataSize = 4 then
      (done, (if r.setTime then [.lifespan] else []) ++ (if r.resetCounter then [.operatingTime] else []))
    else (notSupported, [])
  else (notSupported, [])

/-- The handler of an element. -/
def elementHandle (k : Kind) (r : Request) : Int × List Effect :=
  match k with
  | .counter => counterHandle r
  | .meter => counterHandle r
  | .gpm => counterHandle r
  | .light => lightHandle r
  | .shutter => shutterHandle r
  | .ocr => ocrHandle r
  | .plain => (notSupported, [])
  | .custom f => (f r, [.custom])

/-- `SuplaDeviceClass::handleCalcfgFromServer`, D lines 833-901; `clock` and `pair` say whether there is a clock
and a pairing handler (enabled). The condition for SET_TIME is `DataType != 0 && DataSize != sizeof`
(63 bytes). -/
def deviceHandle (clock pair : Bool) (r : Request) : Int × List Effect :=
  if r.auth ≠ 1 then (unauthorized, [])
  else if r.command = 9000 then (done, [.cfgMode])
  else if r.command = 9400 then (done, [.restart])
  else if r.command = 9100 then
    if r.dataType ≠ 0 ∧ r.dataSize ≠ 63 then (resFalse, [])
    else if clock then (done, [.setTime]) else (notSupported, [])
  else if r.command = 9200 then
    if pair then (resTrue, [.pairing]) else (notSupported, [])
  else if r.command = 9300 then (done, [.identify])
  else (notSupported, [])

/-! ## Pending results -/

/-- `CalCfgResultPendingItem`, P lines 36-42; the list in its order. Channel numbers are `int16_t`; those of
existing channels fit. -/
structure Item where
  channel : Int
  receiver : Int
  command : Int
deriving DecidableEq, Repr

/-- `CalCfgResultPending::set`, P lines 1373-1398. -/
def setPending : List Item → Int → Int → Int → List Item
  | [], ch, rcv, cmd => [⟨ch, rcv, cmd⟩]
  | i :: l, ch, rcv, cmd => if i.channel = ch then ⟨ch, rcv, cmd⟩ :: l else i :: setPending l ch rcv cmd

/-- `CalCfgResultPending::clear`, P lines 1400-1416. -/
def clearPending : List Item → Int → List Item
  | [], _ => []
  | i :: l, ch => if i.channel = ch then l else i :: clearPending l ch

/-- `CalCfgResultPending::get`, P lines 1429-1440. -/
def getPending : List Item → Int → Option Item
  | [], _ => none
  | i :: l, ch => if i.channel = ch then some i else getPending l ch

/-- A result sent to the server. -/
structure Reply where
  receiver : Int
  channel : Int
  command : Int
  result : Int
deriving DecidableEq, Repr

/-- `sendPendingCalCfgResult`, P lines 1441-1470, with `srpc_ds_async_device_calcfg_result` (srpc.c lines
2430-2440): a size above 128 is refused; a negative size is undefined behaviour in `memcpy` (outer `none`). -/
def sendPending (l : List Item) (ch result command dataSize : Int) : Option (Option Reply) :=
  match getPending l ch with
  | none => some none
  | some i =>
    if dataSize < 0 then none
    else if dataSize > 128 then some none
    else some (some ⟨i.receiver, ch, if command ≥ 0 then command else i.command, result⟩)

/-! ## A request from the server -/

/-- What a request is for. -/
inductive Target
  | device
  | channel (n : Int)
  | owner (id : Nat)
deriving DecidableEq, Repr

/-- A device: the element and subdevice of each channel, the owner of each subdevice. -/
structure Dev where
  channel : Int → Option (Kind × Nat)
  owner : Nat → Option Kind
  clock : Bool
  pair : Bool

/-- What comes of a request: result, effects with their target, and the list of pending results. -/
structure Outcome where
  result : Int
  effects : List (Target × Effect)
  pending : List Item

/-- P lines 319-331: channel -1 is the device itself. -/
def forDevice (d : Dev) (l : List Item) (r : Request) : Outcome :=
  ⟨(deviceHandle d.clock d.pair r).1, (deviceHandle d.clock d.pair r).2.map (Target.device, ·),
    if r.command = 9200 ∧ (deviceHandle d.clock d.pair r).1 = resTrue then setPending l r.channel r.sender r.command else l⟩

/-- P lines 343-356: the owner of the subdevice is asked if the channel does not support the command. -/
def forOwner (d : Dev) (l : List Item) (r : Request) (k : Kind) (sub : Nat) : Outcome :=
  match (if sub > 0 then d.owner sub else none) with
  | none => ⟨(elementHandle k r).1, (elementHandle k r).2.map (Target.channel r.channel, ·), l⟩
  | some o =>
    ⟨(elementHandle o r).1,
      (elementHandle k r).2.map (Target.channel r.channel, ·) ++ (elementHandle o r).2.map (Target.owner sub, ·), l⟩

/-- P lines 332-357. -/
def forElement (d : Dev) (l : List Item) (r : Request) (k : Kind) (sub : Nat) : Outcome :=
  if (elementHandle k r).1 = resPending then
    ⟨(elementHandle k r).1, (elementHandle k r).2.map (Target.channel r.channel, ·), setPending l r.channel r.sender r.command⟩
  else if (elementHandle k r).1 = notSupported then forOwner d l r k sub
  else ⟨(elementHandle k r).1, (elementHandle k r).2.map (Target.channel r.channel, ·), l⟩

/-- P lines 319-363. -/
def outcome (d : Dev) (l : List Item) (r : Request) : Outcome :=
  if r.channel = -1 then forDevice d l r
  else
    match d.channel r.channel with
    | some (k, sub) => forElement d l r k sub
    | none => ⟨notSupported, [], l⟩

/-- P lines 302-308 and 364-369: the reply, sent for results that are not negative. -/
def reply (d : Dev) (l : List Item) (r : Request) : Option Reply :=
  if (outcome d l r).result ≥ 0 then some ⟨r.sender, r.channel, r.command, (outcome d l r).result⟩ else none

end Verif.Calcfg
