/-
What the server says to a device and how it is written: the messages of
/repo/src/supla-common/proto.h (packed structures, little-endian numbers) that a device of protocol
version 25 understands, and what each of them has to lead to.  Nothing here refers to the code that
receives them.
-/
namespace Verif.Message

/-- An octet on the wire. -/
abbrev Byte := UInt8

/-- A number in `w` octets, lowest first. -/
def le : Nat → Nat → List Byte
  | 0, _ => []
  | w + 1, n => UInt8.ofNat (n % 256) :: le w (n / 256)

/-- `TSD_SuplaChannelNewValue` (proto.h:1132-1142).  Numbers of 32 bits with a sign are given by
their bit pattern. -/
structure NewValue where
  sender : Nat
  channel : Nat
  duration : Nat
  value : List Byte
deriving DecidableEq, Repr

/-- `TSD_ChannelConfig` = `TSDS_SetChannelConfig` (proto.h:2865-2877). -/
structure Config where
  channel : Nat
  func : Nat
  kind : Nat
  config : List Byte
deriving DecidableEq, Repr

/-- `TSDC_UserLocalTimeResult` (proto.h:2482-2493). -/
structure LocalTime where
  year : Nat
  month : Nat
  day : Nat
  dayOfWeek : Nat
  hour : Nat
  min : Nat
  sec : Nat
  zone : List Byte
deriving DecidableEq, Repr

/-- `TSD_DeviceCalCfgRequest` (proto.h:2210-2218). -/
structure Service where
  sender : Nat
  channel : Nat
  command : Nat
  auth : Nat
  dataType : Nat
  data : List Byte
deriving DecidableEq, Repr

/-- `TSDS_SetDeviceConfig` (proto.h:2708-2716). -/
structure DevConfig where
  last : Nat
  zero : List Byte
  available : Nat
  fields : Nat
  config : List Byte
deriving DecidableEq, Repr

/-- A message from the server to a device. -/
inductive Msg
  /-- `TSDC_SuplaVersionError` (proto.h:668-672). -/
  | versionError (min ver : Nat)
  /-- `TSD_SuplaRegisterDeviceResult` (proto.h:1073-1080). -/
  | registerResult (code timeout ver min : Nat)
  /-- `TSD_SuplaRegisterDeviceResult_B` (proto.h:1086-1098). -/
  | registerResultB (code timeout ver min : Nat) (report : List Byte)
  | setValue (v : NewValue)
  /-- `TSD_SuplaChannelGroupNewValue` (proto.h:1144-1155). -/
  | setGroupValue (sender group last : Nat) (v : NewValue)
  /-- `TSDC_SuplaSetActivityTimeoutResult` (proto.h:700-705). -/
  | activityTimeout (timeout min max : Nat)
  /-- `TCSD_ChannelStateRequest` (proto.h:2495-2501): of the union of four octets the first is the
  channel. -/
  | stateRequest (sender channel : Nat) (rest : List Byte)
  /-- `TSDC_SuplaPingServerResult` (proto.h:690-693). -/
  | pingResult (now : List Byte)
  | localTime (t : LocalTime)
  | service (s : Service)
  /-- The answer to the request for a configuration, call 690. -/
  | configResult (c : Config)
  /-- A configuration changed on the server, call 682. -/
  | setConfig (c : Config)
  /-- `TSDS_SetChannelConfigResult` (proto.h:2881-2885), call 691. -/
  | setConfigResult (result kind channel : Nat)
  | deviceConfig (d : DevConfig)
  /-- `TSDS_SetDeviceConfigResult` (proto.h:2720-2723), call 694. -/
  | deviceConfigResult (result : Nat) (zero : List Byte)
  /-- `TSD_ChannelConfigFinished` (proto.h:2888-2890), call 683. -/
  | configFinished (channel : Nat)
  /-- `TSCD_SetCaptionResult` (proto.h:2633-2643), call 650. -/
  | captionResult (channel : Nat) (rest : List Byte) (code : Nat) (caption : List Byte)
deriving DecidableEq, Repr

/-- The call number of a message (proto.h:182-295). -/
def Msg.call : Msg → Nat
  | .versionError .. => 30
  | .registerResult .. => 70
  | .registerResultB .. => 71
  | .setValue _ => 110
  | .setGroupValue .. => 115
  | .activityTimeout .. => 220
  | .stateRequest .. => 500
  | .pingResult _ => 50
  | .localTime _ => 490
  | .service _ => 460
  | .configResult _ => 690
  | .setConfig _ => 682
  | .setConfigResult .. => 691
  | .deviceConfig _ => 685
  | .deviceConfigResult .. => 694
  | .configFinished _ => 683
  | .captionResult .. => 650

/-- The octets of a channel configuration. -/
def Config.octets (c : Config) : List Byte :=
  le 1 c.channel ++ (le 4 c.func ++ (le 1 c.kind ++ (le 2 c.config.length ++ c.config)))

/-- The octets of a message. -/
def Msg.octets : Msg → List Byte
  | .versionError min ver => le 1 min ++ le 1 ver
  | .registerResult code timeout ver min =>
    le 4 code ++ (le 1 timeout ++ (le 1 ver ++ le 1 min))
  | .registerResultB code timeout ver min report =>
    le 4 code ++ (le 1 timeout ++ (le 1 ver ++ (le 1 min ++ (le 2 report.length ++ report))))
  | .setValue v => le 4 v.sender ++ (le 1 v.channel ++ (le 4 v.duration ++ v.value))
  | .setGroupValue sender group last v =>
    le 4 sender ++ (le 4 group ++ (le 1 last ++ (le 1 v.channel ++ (le 4 v.duration ++ v.value))))
  | .activityTimeout timeout min max => le 1 timeout ++ (le 1 min ++ le 1 max)
  | .stateRequest sender channel rest => le 4 sender ++ (le 1 channel ++ rest)
  | .pingResult now => now
  | .localTime t =>
    le 2 t.year ++ (le 1 t.month ++ (le 1 t.day ++ (le 1 t.dayOfWeek ++ (le 1 t.hour ++ (le 1 t.min
      ++ (le 1 t.sec ++ (le 4 t.zone.length ++ t.zone)))))))
  | .service s =>
    le 4 s.sender ++ (le 4 s.channel ++ (le 4 s.command ++ (le 1 s.auth ++ (le 4 s.dataType
      ++ (le 4 s.data.length ++ s.data)))))
  | .configResult c => c.octets
  | .setConfig c => c.octets
  | .setConfigResult result kind channel => le 1 result ++ (le 1 kind ++ le 1 channel)
  | .deviceConfig d =>
    le 1 d.last ++ (d.zero ++ (le 8 d.available ++ (le 8 d.fields ++ (le 2 d.config.length
      ++ d.config))))
  | .deviceConfigResult result zero => le 1 result ++ zero
  | .configFinished channel => le 1 channel
  | .captionResult channel rest code caption =>
    le 1 channel ++ (rest ++ (le 1 code ++ (le 4 caption.length ++ caption)))

/-- A value of a channel has eight octets; numbers fit their fields. -/
def NewValue.ok (v : NewValue) : Prop :=
  v.sender < 2 ^ 32 ∧ v.channel < 256 ∧ v.duration < 2 ^ 32 ∧ v.value.length = 8

/-- A channel configuration has at most 512 octets (proto.h:2688). -/
def Config.ok (c : Config) : Prop :=
  c.channel < 256 ∧ c.func < 2 ^ 32 ∧ c.kind < 256 ∧ c.config.length ≤ 512

/-- The name of a time zone has at most 51 octets (proto.h:169). -/
def LocalTime.ok (t : LocalTime) : Prop :=
  t.year < 2 ^ 16 ∧ t.month < 256 ∧ t.day < 256 ∧ t.dayOfWeek < 256 ∧ t.hour < 256 ∧ t.min < 256
    ∧ t.sec < 256 ∧ t.zone.length ≤ 51

/-- The data of a service request have at most 128 octets (proto.h:168). -/
def Service.ok (s : Service) : Prop :=
  s.sender < 2 ^ 32 ∧ s.channel < 2 ^ 32 ∧ s.command < 2 ^ 32 ∧ s.auth < 256
    ∧ s.dataType < 2 ^ 32 ∧ s.data.length ≤ 128

/-- A configuration of the device has at most 512 octets (proto.h:2689). -/
def DevConfig.ok (d : DevConfig) : Prop :=
  d.last < 256 ∧ d.zero.length = 8 ∧ d.available < 2 ^ 64 ∧ d.fields < 2 ^ 64
    ∧ d.config.length ≤ 512

/-- A message the protocol allows. -/
def Msg.ok : Msg → Prop
  | .versionError min ver => min < 256 ∧ ver < 256
  | .registerResult code timeout ver min =>
    code < 2 ^ 32 ∧ timeout < 256 ∧ ver < 256 ∧ min < 256
  | .registerResultB code timeout ver min report =>
    code < 2 ^ 32 ∧ timeout < 256 ∧ ver < 256 ∧ min < 256 ∧ report.length ≤ 256
  | .setValue v => v.ok
  | .setGroupValue sender group last v =>
    sender < 2 ^ 32 ∧ group < 2 ^ 32 ∧ last < 256 ∧ v.sender = 0 ∧ v.ok
  | .activityTimeout timeout min max => timeout < 256 ∧ min < 256 ∧ max < 256
  | .stateRequest sender channel rest => sender < 2 ^ 32 ∧ channel < 256 ∧ rest.length = 3
  | .pingResult now => now.length = 16
  | .localTime t => t.ok
  | .service s => s.ok
  | .configResult c => c.ok
  | .setConfig c => c.ok
  | .setConfigResult result kind channel => result < 256 ∧ kind < 256 ∧ channel < 256
  | .deviceConfig d => d.ok
  | .deviceConfigResult result zero => result < 256 ∧ zero.length = 9
  | .configFinished channel => channel < 256
  | .captionResult channel rest code caption =>
    channel < 256 ∧ rest.length = 3 ∧ code < 256 ∧ caption.length ≤ 401

/-- An element of the program on the device: its channel and its second channel, if any. -/
structure Elem where
  primary : Option Nat
  secondary : Option Nat
deriving DecidableEq, Repr

/-- What the program on the device does when a message arrives. -/
inductive Event
  /-- The protocol version was refused. -/
  | versionError (min ver : Nat)
  /-- The answer to the registration, with the report on the channels. -/
  | registerResult (code timeout ver min : Nat)
  | report (report : List Byte)
  | activityTimeout (timeout : Nat)
  | localTime (t : LocalTime)
  | service (s : Service)
  | deviceConfig (d : DevConfig)
  | deviceConfigResult (result : Nat)
  /-- The element with this index is given a value, a configuration, a schedule, ... -/
  | newValue (elem : Nat) (v : NewValue)
  | config (elem : Nat) (c : Config)
  | weekly (elem : Nat) (c : Config) (alt : Bool)
  | configDone (elem : Nat) (result kind : Nat)
  | configFinished (elem : Nat)
  /-- The state of a channel is sent to whoever asked; `elem` adds what it knows. -/
  | state (receiver channel : Nat) (elem : Option Nat)
  /-- A message to the server. -/
  | sent (call : Nat) (octets : List Byte)
deriving DecidableEq, Repr

/-- The elements of a device and how their handlers answer; the answers are arbitrary. -/
structure Device where
  elems : List Elem
  onValue : Nat → NewValue → Int
  onConfig : Nat → Config → Nat
  onWeekly : Nat → Config → Bool → Nat

/-- The element number `i` has the channel `n`. -/
def Device.hasChannel (d : Device) (i n : Nat) : Prop :=
  ∃ e, d.elems[i]? = some e ∧ e.primary = some n

/-- No two elements have the same channel (that channel numbers stay unique is property C34). -/
def Device.distinct (d : Device) : Prop :=
  ∀ i j n, d.hasChannel i n → d.hasChannel j n → i = j

/-- The number in `w` octets whose value, reduced, is the integer `x`. -/
def octet (x : Int) : List Byte := le 1 (x % 256).toNat

/-- Who a message concerns; `none` if it is not about one channel. -/
def Msg.channel : Msg → Option Nat
  | .setValue v => some v.channel
  | .setGroupValue _ _ _ v => some v.channel
  | .configResult c => some c.channel
  | .setConfig c => some c.channel
  | .setConfigResult _ _ channel => some channel
  | .configFinished channel => some channel
  | _ => none

/-- How a configuration of a channel is handed over: the weekly schedules have kind 2 and 3
(proto.h:2692-2698), everything else is a configuration. -/
def handOver (i : Nat) (c : Config) : Event :=
  if c.kind = 2 then .weekly i c false else if c.kind = 3 then .weekly i c true else .config i c

/-- What the handler of the element says about a configuration. -/
def Device.verdict (d : Device) (i : Nat) (c : Config) : Nat :=
  if c.kind = 2 then d.onWeekly i c false else if c.kind = 3 then d.onWeekly i c true
  else d.onConfig i c

/-- What has to happen when a message that concerns no single channel arrives. -/
def Msg.general : Msg → List Event
  | .versionError min ver => [.versionError min ver]
  | .registerResult code timeout ver min => [.registerResult code timeout ver min]
  | .registerResultB code timeout ver min report =>
    [.registerResult code timeout ver min, .report report]
  | .activityTimeout timeout _ _ => [.activityTimeout timeout]
  | .localTime t => [.localTime t]
  | .service s => [.service s]
  | .deviceConfig d => [.deviceConfig d]
  | .deviceConfigResult result _ => [.deviceConfigResult result]
  | _ => []

end Verif.Message
