import Mathlib.Algebra.Order.Field.Rat

/-!
# What the MQTT broker holds for a channel

M = /repo/src/supla/protocol/mqtt.cpp, E = /repo/extras/porting/esp-idf/esp_mqtt.cpp,
C = /repo/src/supla/channels/channel.cpp, S = /repo/src/SuplaDevice.cpp.

Modelled: `publishChannelState` (M 386-641), `publishExtendedChannelState` (M 645-786), the sending of
changed values (C 375-394, M 2124-2148, /repo/src/supla/element.cpp lines 154-173, S 423-455), the connection
events and the pass of the MQTT layer (E 293-399), and the retained messages of the broker.

Simplifications: the topic of a message is given by the channel and the part behind ".../state" (C69 shows that
the whole topics are exact); the quality of service is left out: a published message reaches the broker; the 50 ms
between two updates of one channel only decide when a `send` happens. Numbers are exact: the division by a
power of ten and `%f` are taken without the error of `double`.
-/

namespace Verif.Mqtt.State

/-- How `%.*f` rounds: to one of the nearest integers (ties either way). -/
structure Near where
  rnd : Rat → Int
  low : ∀ x, x - 1 / 2 ≤ (rnd x : Rat)
  high : ∀ x, (rnd x : Rat) ≤ x + 1 / 2

/-- A payload: a word, a decimal fraction of `digits` digits behind the point (`m` divided by a power of ten),
a colour, or nothing. -/
inductive Payload
  | word (s : String)
  | num (m : Int) (digits : Nat)
  | colour (r g b : Nat)
  | empty
deriving DecidableEq, Repr

/-- The values of an electricity meter, `none` where its flag says "not measured" (M 677-775): the four totals;
for every phase whether the channel has it (M 704-713), and its twelve values. Energies in 1e-5 kWh, the rest in
the units of the protocol. -/
structure Meter where
  totals : List (Option Int)
  phases : List (Bool × List (Option Int))
deriving DecidableEq, Repr

/-- What a channel says about itself: its type, as far as the function matters for publishing, and its value.
`impulse` are the functions gate, garage door, door lock and gateway lock (M 431-434); `shutter` those of M 416-421,
`blind` those of M 410-411, the byte being the position (-1 for "not known", C 619-629) and the tilt;
`thermometer` in degrees, `climate` temperature and humidity in thousandths (C 569-581); `opening` the functions of
M 624-630. -/
inductive Reading
  | relay (on : Bool)
  | impulse (on : Bool)
  | shutter (position : Int)
  | blind (position tilt : Int)
  | thermometer (t : Rat)
  | climate (t h : Int)
  | dimmer (brightness : Nat)
  | rgb (brightness r g b : Nat)
  | rgbw (brightness colourBrightness r g b : Nat)
  | hvac (heatCool coolSub heating cooling weekly : Bool) (mode : Nat) (heat cool : Int)
  | opening (on : Bool)
  | binary (on : Bool)
  | meter (m : Meter)
  | other
deriving DecidableEq

/-- A message for the broker: topic behind ".../channels/n/state" ("" for the topic itself), payload, and
whether the broker keeps it. -/
structure Msg where
  topic : String
  payload : Payload
  retain : Bool
deriving DecidableEq

/-- A message published with retain 1. -/
def kept (topic : String) (p : Payload) : Msg := ⟨topic, p, true⟩

/-- `publishBool`, M 313-320. -/
def bool (b : Bool) : Payload := .word (if b then "true" else "false")

/-- `publishInt`, M 304-311. -/
def int (n : Int) : Payload := .num n 0

/-- `publishDouble`, M 347-355: `n` divided by 10^`scale` with `digits` digits. -/
def double (near : Near) (x : Rat) (digits : Nat) : Payload := .num (near.rnd (x * 10 ^ digits)) digits

/-- `getValueClosingPercentage`, `getValueTilt`, C 619-629: negative bytes are read as 0. -/
def byte (n : Int) : Int := if n ≥ 0 then n else 0

/-- M 416-428: what a roller shutter publishes. -/
def shutterMsgs (position : Int) : List Msg := [kept "is_calibrating" (bool (position == -1)), kept "shut" (int (byte position))]

/-- M 524-533: what the thermostat does. Modes: 0 not set, 1 off. -/
def hvacAction (heating cooling : Bool) (mode : Nat) : String :=
  if heating then "heating" else if cooling then "cooling" else if mode == 1 || mode == 0 then "off" else "idle"

/-- M 534-557: the mode. Modes: 2 heat, 3 cool, 4 heat and cool. -/
def hvacMode (weekly : Bool) (mode : Nat) : String :=
  if weekly then "auto" else if mode == 2 then "heat" else if mode == 3 then "cool" else if mode == 4 then "heat_cool" else "off"

/-- M 561-580: a set point of the function "heat and cool"; -32768 stands for "not set". -/
def optPoint (near : Near) (t : Int) : Payload := if t > -32768 then double near (t / 100) 2 else .empty

/-- M 558-595: the set points. -/
def hvacPoints (near : Near) (heatCool coolSub : Bool) (heat cool : Int) : List Msg :=
  if heatCool then
    [kept "temperature_setpoint" .empty, kept "temperature_setpoint_heat" (optPoint near heat), kept "temperature_setpoint_cool" (optPoint near cool)]
  else
    [kept "temperature_setpoint_heat" .empty, kept "temperature_setpoint_cool" .empty,
     kept "temperature_setpoint" (double near ((if coolSub then cool else heat) / 100) 2)]

/-- `publishChannelState`, M 386-620. -/
def stateMsgs (near : Near) : Reading → List Msg
  | .relay on => [kept "on" (bool on)]
  | .impulse _ => [kept "on" (.word "closed")]
  | .shutter p => shutterMsgs p
  | .blind p t => kept "tilt" (int (byte t)) :: shutterMsgs p
  | .thermometer t => if t > -273 then [kept "temperature" (double near t 2)] else []
  | .climate t h =>
    (if (t : Rat) / 1000 > -273 then [kept "temperature" (double near (t / 1000) 2)] else []) ++
      (if h ≥ 0 then [kept "humidity" (double near (h / 1000) 2)] else [])
  | .dimmer b => [kept "brightness" (int b), kept "on" (bool (decide (b > 0)))]
  | .rgb cb r g b => [kept "color_brightness" (int cb), kept "on" (bool (decide (cb > 0))), kept "color" (.colour r g b)]
  | .rgbw w cb r g b =>
    [kept "brightness" (int w), kept "color_brightness" (int cb), kept "rgb/on" (bool (decide (cb > 0))),
     kept "dimmer/on" (bool (decide (w > 0))), kept "color" (.colour r g b)]
  | .hvac hc cs heating cooling weekly mode heat cool =>
    kept "action" (.word (hvacAction heating cooling mode)) :: kept "mode" (.word (hvacMode weekly mode)) :: hvacPoints near hc cs heat cool
  | .opening on => [kept "" (.word (if on then "closed" else "open"))]
  | .binary on => [kept "" (.word (if on then "ON" else "OFF"))]
  | .meter _ => []
  | .other => []

/-- M 677-701: topic, decimal digits of the unit and digits published for the totals. -/
def totalFields : List (String × Nat × Nat) :=
  [("total_forward_active_energy", 5, 4), ("total_reverse_active_energy", 5, 4),
   ("total_forward_balanced_active_energy", 5, 4), ("total_reverse_balanced_active_energy", 5, 4)]

/-- M 715-775: the same for one phase. -/
def phaseFields : List (String × Nat × Nat) :=
  [("total_forward_active_energy", 5, 4), ("total_reverse_active_energy", 5, 4), ("total_forward_reactive_energy", 5, 4),
   ("total_reverse_reactive_energy", 5, 4), ("voltage", 2, 2), ("current", 3, 3), ("power_active", 5, 3),
   ("power_reactive", 5, 3), ("power_apparent", 5, 3), ("power_factor", 3, 2), ("phase_angle", 1, 1), ("frequency", 2, 2)]

/-- The messages for measured values along a table; `pre` is put in front of the topics. -/
def fieldMsgs (near : Near) (retain : Bool) (pre : String) : List (String × Nat × Nat) → List (Option Int) → List Msg
  | (t, s, d) :: fs, some v :: vs => ⟨pre ++ t, double near (v / 10 ^ s) d, retain⟩ :: fieldMsgs near retain pre fs vs
  | _ :: fs, none :: vs => fieldMsgs near retain pre fs vs
  | _, _ => []

/-- M 703-776, from phase `k` on. -/
def phaseMsgs (near : Near) (retain : Bool) : Nat → List (Bool × List (Option Int)) → List Msg
  | _, [] => []
  | k, (has, vs) :: ps =>
    (if has then fieldMsgs near retain ("phases/" ++ toString (k + 1) ++ "/") phaseFields vs else []) ++ phaseMsgs near retain (k + 1) ps

/-- `publishExtendedChannelState`, M 645-786; `cfg` is the retain flag of the configuration (M 277-280). -/
def extMsgs (near : Near) (cfg : Bool) : Reading → List Msg
  | .meter m => fieldMsgs near cfg "" totalFields m.totals ++ phaseMsgs near cfg 0 m.phases
  | _ => []

/-! ## Broker and device -/

/-- What the broker keeps for one channel: topic to payload. -/
abbrev Held := String → Option Payload

/-- A retained message replaces the one kept before, one with an empty payload removes it (MQTT 3.1.1, 3.3.1.3);
other messages are not kept. -/
def keep (h : Held) (m : Msg) : Held :=
  if m.retain then fun t => if t = m.topic then (if m.payload = .empty then none else some m.payload) else h t else h

/-- Several messages. -/
def keepAll : Held → List Msg → Held
  | h, [] => h
  | h, m :: ms => keepAll (keep h m) ms

/-- Device and broker. `count` is the number of channels (M 219), `changed` the bits set by `notifyConfigChange`,
`pending` the flag `valueChanged` of the channel, `enter` the flag `enterRegisteredAndReady`, `offline` the
state of the channel (0 online, 1 offline, 2 not available). -/
structure Sys where
  count : Nat
  retain : Bool
  reading : Nat → Reading
  offline : Nat → Nat
  pending : Nat → Bool
  changed : Nat → Bool
  connected : Bool
  enter : Bool
  held : Nat → Held

/-- A device after start: nothing sent, the broker may keep anything from before. -/
def init (count : Nat) (retain : Bool) (reading : Nat → Reading) (held : Nat → Held) : Sys :=
  { count := count, retain := retain, reading := reading, offline := fun _ => 0, pending := fun _ => false, changed := fun _ => false, connected := false, enter := false, held := held }

/-- Update of a function at one place. -/
def upd {α : Type} (f : Nat → α) (n : Nat) (a : α) : Nat → α := fun m => if m = n then a else f m

/-- `publishImp`, E 388-399, for messages of channel `n`: nothing without a connection. -/
def put (s : Sys) (n : Nat) (ms : List Msg) : Sys :=
  if s.connected then { s with held := upd s.held n (keepAll (s.held n) ms) } else s

/-- `publishChannelState` for channel `n`, M 386-391: only channels that exist. -/
def publishState (near : Near) (s : Sys) (n : Nat) : Sys := if n < s.count then put s n (stateMsgs near (s.reading n)) else s

/-- `publishExtendedChannelState`, M 645-650. -/
def publishExt (near : Near) (s : Sys) (n : Nat) : Sys := if n < s.count then put s n (extMsgs near s.retain (s.reading n)) else s

/-- `publishChannelSetup`, E 293-301 (discovery and subscription are in other models). -/
def setup (near : Near) (s : Sys) (n : Nat) : Sys :=
  if n < s.count then { publishState near s n with changed := upd s.changed n false } else s

/-- The loop E 328-330 over the first `k` channels. -/
def setupAll (near : Near) : Sys → Nat → Sys
  | s, 0 => s
  | s, k + 1 => setup near (setupAll near s k) k

/-- The loop E 343-347 over the first `k` channels. -/
def setupChanged (near : Near) : Sys → Nat → Sys
  | s, 0 => s
  | s, k + 1 => if (setupChanged near s k).changed k then setup near (setupChanged near s k) k else setupChanged near s k

/-- `iterate`, E 303-364, of a started client. -/
def pass (near : Near) (s : Sys) : Sys :=
  if !s.connected then s
  else if s.enter then setupChanged near (setupAll near { s with enter := false } s.count) s.count
  else setupChanged near s s.count

/-- What happens: a new value (`setNewValue`, C 300-307), a changed function (element_with_channel_actions.cpp lines
319-328 and the like) which may give the same value another meaning, a changed availability (C 1278-1300), the
element's turn in `iterateConnected` (S 447-454; also when only another protocol is connected), the events of the
client (E 84-109, 366-386), and a pass. -/
inductive Op
  | value (n : Nat) (r : Reading)
  | func (n : Nat) (r : Reading)
  | avail (n : Nat) (o : Nat)
  | send (n : Nat)
  | up
  | down
  | pass
deriving DecidableEq

/-- `sendUpdate`, C 375-394. -/
def sendOne (near : Near) (s : Sys) (n : Nat) : Sys :=
  if s.pending n then publishExt near (publishState near { s with pending := upd s.pending n false } n) n else s

/-- One operation. -/
def step (near : Near) (s : Sys) : Op → Sys
  | .value n r => if r = s.reading n then s else { s with reading := upd s.reading n r, pending := upd s.pending n true }
  | .func n r => { s with reading := upd s.reading n r, changed := upd s.changed n true }
  | .avail n o => if o = s.offline n then s else { s with offline := upd s.offline n o, pending := upd s.pending n true }
  | .send n => sendOne near s n
  | .up => { s with connected := true, enter := true, changed := fun _ => false }
  | .down => { s with connected := false, enter := false }
  | .pass => pass near s

/-- A history. -/
def run (near : Near) (s : Sys) (ops : List Op) : Sys := ops.foldl (step near) s

end Verif.Mqtt.State
