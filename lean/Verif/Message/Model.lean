import Verif.Message.Spec
/-
How a device takes a message apart and whom it gives it to: `srpc_getdata`
(/repo/src/supla-common/srpc.c:809-1218 and 1663-1682, device build: SRPC_EXCLUDE_CLIENT,
SRPC_WITHOUT_IN_QUEUE) and `Supla::messageReceived` (/repo/src/supla/protocol/supla_srpc.cpp:239-524).

A received packet is its call number and its octets (framing is property C01).  Memory got from
`calloc` is zero, memory from `malloc` is undefined (`none`); reading an undefined or missing octet,
or copying more than the structure has, is undefined behaviour: the outer `none`.  That an
allocation may fail is not modelled.
-/
namespace Verif.Message

/-- A structure in memory: each octet is known or not. -/
abbrev Mem := List (Option Byte)

/-- The octets at `off`; `none` if one of them does not exist or was never written. -/
def Mem.bytes (s : Mem) (off : Nat) : Nat → Option (List Byte)
  | 0 => some []
  | w + 1 => (s[off]?.join).bind fun b => (Mem.bytes s (off + 1) w).map (b :: ·)

/-- A little-endian number. -/
def value : List Byte → Nat
  | [] => 0
  | b :: bs => b.toNat + 256 * value bs

/-- A field of `w` octets. -/
def Mem.num (s : Mem) (off w : Nat) : Option Nat := (s.bytes off w).map value

/-- What `srpc_getdata` does for a call. -/
inductive Rule
  /-- `call_with_no_data = 1`. -/
  | noData
  /-- `data_size == sizeof(T)`; memory from calloc or malloc. -/
  | fixed (size : Nat) (zeroed : Bool)
  /-- `VALID_SIZE(T, ITEM, FIELD, MAX)` with the place and the width of the field. -/
  | sized (size item max off width : Nat) (zeroed : Bool)
  /-- Two fields of two octets (push notification). -/
  | push
  /-- SUPLA_DCS_CALL_PING_SERVER: 16 octets, or 8 in the old format. -/
  | ping
  /-- SUPLA_SD_CALL_GET_FIRMWARE_UPDATE_URL_RESULT: 208 octets or one. -/
  | url
  | unknown
deriving DecidableEq, Repr

/-- The switch of `srpc_getdata` (/repo/src/supla-common/srpc.c:831-1217); sizes from
/repo/src/supla-common/proto_check.cpp. -/
def rule (call : Nat) : Rule :=
  match call with
  | 10 | 180 | 320 | 480 | 620 => .noData
  | 20 => .fixed 23 true
  | 30 => .fixed 2 true
  | 40 => .ping
  | 50 => .fixed 16 true
  | 210 => .fixed 1 true
  | 220 => .fixed 3 true
  | 330 => .fixed 8 true
  | 490 => .sized 63 1 51 8 4 true
  | 500 => .fixed 8 true
  | 510 => .fixed 50 true
  | 650 => .sized 410 1 401 5 4 true
  | 60 => .sized 1940 13 128 275 1 true
  | 65 => .sized 2964 21 128 275 1 true
  | 67 => .sized 3029 21 128 340 1 true
  | 68 => .sized 3264 21 128 575 1 true
  | 69 => .sized 3784 25 128 583 1 true
  | 75 => .sized 5064 35 128 583 1 true
  | 76 => .sized 5192 36 128 583 1 true
  | 70 => .fixed 7 true
  | 71 => .sized 265 1 256 7 2 true
  | 100 => .fixed 9 true
  | 102 => .fixed 10 true
  | 103 => .fixed 14 true
  | 105 => .sized 262 1 256 2 4 true
  | 110 => .fixed 17 true
  | 115 => .fixed 22 true
  | 120 => .fixed 6 true
  | 300 => .fixed 17 true
  | 310 => .url
  | 460 => .sized 149 1 128 17 4 true
  | 470 => .sized 148 1 128 16 4 true
  | 630 => .sized 513 4 128 0 1 true
  | 680 => .fixed 6 true
  | 690 => .sized 520 1 512 6 2 true
  | 700 => .fixed 15 true
  | 1100 => .fixed 11 true
  | 1110 => .push
  | 681 | 682 => .sized 520 1 512 6 2 false
  | 691 | 692 => .fixed 3 false
  | 683 => .fixed 1 false
  | 684 | 685 => .sized 539 1 512 25 2 false
  | 694 | 695 => .fixed 10 false
  | 1260 => .fixed 325 false
  | _ => .unknown

/-- calloc or malloc and the memcpy of the received octets
(/repo/src/supla-common/srpc.c:1667-1671). -/
def copy (size : Nat) (zeroed : Bool) (data : List Byte) : Option Mem :=
  if data.length ≤ size then
    some (data.map some ++ List.replicate (size - data.length) (if zeroed then some 0 else none))
  else none

/-- What `srpc_getdata` gives: SUPLA_RESULT_DATA_ERROR, or a structure (empty for calls without
data: the pointer is NULL). -/
inductive Got
  | dataError
  | ok (s : Mem)
deriving DecidableEq, Repr

/-- VALID_SIZE (/repo/src/supla-common/srpc.c:809-814); the three conditions are evaluated in this
order.  None of the products exceeds 32 bits. -/
def validSize (size item max off width : Nat) (data : List Byte) : Option Bool :=
  if size - item * max ≤ data.length ∧ data.length ≤ size then
    (Mem.num (data.map some) off width).map fun n =>
      decide (n * item = data.length - (size - item * max))
  else some false

/-- VALID_SIZE for the push notification (/repo/src/supla-common/srpc.c:1152-1155). -/
def validPush (data : List Byte) : Option Bool :=
  if 42 ≤ data.length ∧ data.length ≤ 399 then
    (Mem.num (data.map some) 38 2).bind fun a =>
      (Mem.num (data.map some) 40 2).map fun b => decide (a + b = data.length - 42)
  else some false

/-- `srpc_getdata` (/repo/src/supla-common/srpc.c:816-1682). -/
def getData (call : Nat) (data : List Byte) : Option Got :=
  match rule call with
  | .noData => some (.ok [])
  | .unknown => some .dataError
  | .fixed size zeroed =>
    if data.length = size then (copy size zeroed data).map .ok else some .dataError
  | .sized size item max off width zeroed =>
    (validSize size item max off width data).bind fun v =>
      if v then (copy size zeroed data).map .ok else some .dataError
  | .push =>
    (validPush data).bind fun v => if v then (copy 399 true data).map .ok else some .dataError
  | .ping =>
    if data.length = 16 then (copy 16 true data).map .ok
    else if data.length = 8 then
      -- the fields are converted one by one; nothing reads them on a device
      some (.ok (List.replicate 16 (some 0)))
    else some .dataError
  | .url =>
    if data.length = 208 ∨ data.length = 1 then (copy 208 true data).map .ok else some .dataError

/-- `Element::getElementByChannelNumber` (/repo/src/supla/element.cpp:63-74), for numbers that are
not negative: the first element whose own channel has the number. -/
def lookup : List Elem → Nat → Option Nat
  | [], _ => none
  | e :: es, n => if e.primary = some n then some 0 else (lookup es n).map (· + 1)

/-- `TSD_SuplaChannelNewValue` in memory: 4 + 1 + 4 + 8 octets. -/
def readNewValue (s : Mem) : Option NewValue :=
  (s.num 0 4).bind fun sender => (s.num 4 1).bind fun channel => (s.num 5 4).bind fun duration =>
    (s.bytes 9 8).map fun value => ⟨sender, channel, duration, value⟩

/-- The copy made for a channel group (/repo/src/supla/protocol/supla_srpc.cpp:474-480). -/
def readGroupValue (s : Mem) : Option NewValue :=
  (s.num 9 1).bind fun channel => (s.num 10 4).bind fun duration =>
    (s.bytes 14 8).map fun value => ⟨0, channel, duration, value⟩

/-- `TSD_ChannelConfig` in memory: 1 + 4 + 1 + 2 + ConfigSize octets.  Of the 512 octets of Config
the handlers read the first ConfigSize. -/
def readConfig (s : Mem) : Option Config :=
  (s.num 0 1).bind fun channel => (s.num 1 4).bind fun func => (s.num 5 1).bind fun kind =>
    (s.num 6 2).bind fun n => (s.bytes 8 n).map fun config => ⟨channel, func, kind, config⟩

/-- `TSDC_UserLocalTimeResult` in memory. -/
def readLocalTime (s : Mem) : Option LocalTime :=
  (s.num 0 2).bind fun year => (s.num 2 1).bind fun month => (s.num 3 1).bind fun day =>
    (s.num 4 1).bind fun dow => (s.num 5 1).bind fun hour => (s.num 6 1).bind fun min =>
      (s.num 7 1).bind fun sec => (s.num 8 4).bind fun n => (s.bytes 12 n).map fun zone =>
        ⟨year, month, day, dow, hour, min, sec, zone⟩

/-- `TSD_DeviceCalCfgRequest` in memory. -/
def readService (s : Mem) : Option Service :=
  (s.num 0 4).bind fun sender => (s.num 4 4).bind fun channel => (s.num 8 4).bind fun command =>
    (s.num 12 1).bind fun auth => (s.num 13 4).bind fun dataType => (s.num 17 4).bind fun n =>
      (s.bytes 21 n).map fun data => ⟨sender, channel, command, auth, dataType, data⟩

/-- `TSDS_SetDeviceConfig` in memory. -/
def readDevConfig (s : Mem) : Option DevConfig :=
  (s.num 0 1).bind fun last => (s.bytes 1 8).bind fun zero => (s.num 9 8).bind fun available =>
    (s.num 17 8).bind fun fields => (s.num 25 2).bind fun n => (s.bytes 27 n).map fun config =>
      ⟨last, zero, available, fields, config⟩

/-- `srpc_ds_async_set_channel_result` (/repo/src/supla-common/srpc.c:2341-2352):
`TDS_SuplaChannelNewValueResult` (proto.h:1157-1162). -/
def valueResult (v : NewValue) (r : Int) : Event :=
  .sent 120 (le 1 v.channel ++ (le 4 v.sender ++ octet r))

/-- SUPLA_SD_CALL_CHANNEL_SET_VALUE (/repo/src/supla/protocol/supla_srpc.cpp:266-286). -/
def onSetValue (d : Device) (v : NewValue) : List Event :=
  match lookup d.elems v.channel with
  | some i =>
    .newValue i v :: if d.onValue i v ≠ -1 then [valueResult v (d.onValue i v)] else []
  | none => []

/-- SUPLA_SD_CALL_CHANNELGROUP_SET_VALUE (/repo/src/supla/protocol/supla_srpc.cpp:467-491). -/
def onGroupValue (d : Device) (v : NewValue) : List Event :=
  match lookup d.elems v.channel with
  | some i => [.newValue i v]
  | none => []

/-- The switch on ConfigType (/repo/src/supla/protocol/supla_srpc.cpp:371-385 and 419-436). -/
def deliver (i : Nat) (c : Config) : Event :=
  match c.kind with
  | 2 => .weekly i c false
  | 3 => .weekly i c true
  | _ => .config i c

/-- The value the same switch returns. -/
def delivered (d : Device) (i : Nat) (c : Config) : Nat :=
  match c.kind with
  | 2 => d.onWeekly i c false
  | 3 => d.onWeekly i c true
  | _ => d.onConfig i c

/-- SUPLA_SD_CALL_GET_CHANNEL_CONFIG_RESULT (/repo/src/supla/protocol/supla_srpc.cpp:364-393). -/
def onConfigResult (d : Device) (c : Config) : List Event :=
  match lookup d.elems c.channel with
  | some i => [deliver i c]
  | none => []

/-- SUPLA_SD_CALL_SET_CHANNEL_CONFIG (/repo/src/supla/protocol/supla_srpc.cpp:409-448).  The answer
starts as zeros; its fields Result and ChannelNumber are set.  25 is
SUPLA_RESULTCODE_CHANNELNOTFOUND. -/
def onSetConfig (d : Device) (c : Config) : List Event :=
  match lookup d.elems c.channel with
  | some i => [deliver i c, .sent 692 (le 1 (delivered d i c) ++ (le 1 0 ++ le 1 c.channel))]
  | none => [.sent 692 (le 1 25 ++ (le 1 0 ++ le 1 c.channel))]

/-- The switch of `messageReceived` (/repo/src/supla/protocol/supla_srpc.cpp:254-516). -/
def dispatch (d : Device) (call : Nat) (s : Mem) : Option (List Event) :=
  match call with
  | 30 => (s.num 0 1).bind fun min => (s.num 1 1).map fun ver => [.versionError min ver]
  | 70 =>
    (s.num 0 4).bind fun code => (s.num 4 1).bind fun timeout => (s.num 5 1).bind fun ver =>
      (s.num 6 1).map fun min => [.registerResult code timeout ver min]
  | 71 =>
    (s.num 0 4).bind fun code => (s.num 4 1).bind fun timeout => (s.num 5 1).bind fun ver =>
      (s.num 6 1).bind fun min => (s.num 7 2).bind fun n => (s.bytes 9 n).map fun report =>
        [.registerResult code timeout ver min, .report report]
  | 110 => (readNewValue s).map (onSetValue d)
  | 220 => (s.num 0 1).map fun timeout => [.activityTimeout timeout]
  | 500 =>
    (s.num 0 4).bind fun sender => (s.num 4 1).map fun channel =>
      [.state sender channel (lookup d.elems channel)]
  | 50 => some []
  | 490 => (readLocalTime s).map fun t => [.localTime t]
  | 460 => (readService s).map fun r => [.service r]
  | 690 => (readConfig s).map (onConfigResult d)
  | 691 =>
    (s.num 0 1).bind fun result => (s.num 1 1).bind fun kind => (s.num 2 1).map fun channel =>
      match lookup d.elems channel with
      | some i => [.configDone i result kind]
      | none => []
  | 682 => (readConfig s).map (onSetConfig d)
  | 694 => (s.num 0 1).map fun result => [.deviceConfigResult result]
  | 685 => (readDevConfig s).map fun c => [.deviceConfig c]
  | 115 => (readGroupValue s).map (onGroupValue d)
  | 683 =>
    (s.num 0 1).map fun channel =>
      match lookup d.elems channel with
      | some i => [.configFinished i]
      | none => []
  | 650 => (s.num 0 1).map fun _ => []
  | _ => some []

/-- `Supla::messageReceived` (/repo/src/supla/protocol/supla_srpc.cpp:239-524): what happens when a
packet with this call number and these octets arrives; warnings in the log are not events. -/
def received (d : Device) (call : Nat) (data : List Byte) : Option (List Event) :=
  (getData call data).bind fun g =>
    match g with
    | .dataError => some []
    | .ok s => dispatch d call s

end Verif.Message
