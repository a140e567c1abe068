import Verif.Mqtt.Model

/-!
# Discovery documents

M = /repo/src/supla/protocol/mqtt.cpp. Modelled: the texts the device publishes for automatic discovery by Home
Assistant, `publishHADiscovery*` (M 971-1584, 1594-1666, 1728-1806, 1860-2117, 2212-2373, 2584-2718).

A document is written by `snprintf` from a constant format. The model keeps the formats as they are; what is
inserted is either a constant, or one of fourteen values (`hole`s) that depend on the device: 0 prefix, 1 number of the
channel, 2 host name, 3 manufacturer, 4 name of the device, 5 version, 6 object id, 7 time after which a value expires,
8 and 9 topics of temperature and humidity, 10 and 11 highest and lowest temperature, 12 number of the button, 13 name of
the channel's function. Simplification: texts are lists of code points (the degree sign is one character).
-/

namespace Verif.Mqtt.Discovery

open Verif.Mqtt Verif.Tools

open Lean in
/-- A text constant as the list of its codes; expanded when the file is read, so that the kernel sees numbers. -/
scoped macro "codes" s:str : term => do
  let ns := s.getString.toList.map (fun c => Syntax.mkNumLit (toString c.toNat))
  `([$(ns.toArray),*])

/-- A character of a format, or the place of a value. -/
inductive Piece
  | ch (c : Nat)
  | hole (i : Nat)
deriving DecidableEq, Repr

/-- An argument of `snprintf`. -/
inductive Arg
  | const (s : List Nat)
  | hole (i : Nat)
deriving DecidableEq, Repr

/-- What an argument writes. -/
def argText : Arg → List Piece
  | .const s => s.map .ch
  | .hole i => [.hole i]

/-- `snprintf` on the conversions used: %s, %i, %d, %.2f and %%; `none` if an argument is missing or the conversion is
another one. The first argument bounds the length of the format. -/
def fmt : Nat → List Nat → List Arg → Option (List Piece)
  | 0, _, _ => none
  | _ + 1, [], args => if args = [] then some [] else none
  | n + 1, c :: s, args =>
    if c ≠ 37 then (fmt n s args).map (.ch c :: ·)
    else if s.head? = some 37 then (fmt n (s.drop 1) args).map (.ch 37 :: ·)
    else if s.head? = some 115 ∨ s.head? = some 105 ∨ s.head? = some 100 then
      args.head?.bind (fun a => (fmt n (s.drop 1) (args.drop 1)).map (argText a ++ ·))
    else if s.take 3 = [46, 50, 102] then args.head?.bind (fun a => (fmt n (s.drop 3) (args.drop 1)).map (argText a ++ ·))
    else none

/-! ## The formats -/

/-- Text for binary sensors, M 1094-1114. -/
def cfgBinary : List Nat :=
  [codes "{", codes "\"avty_t\":\"%s/state/connected\",", codes "\"pl_avail\":\"true\",",
    codes "\"pl_not_avail\":\"false\",", codes "\"~\":\"%s/channels/%i\",", codes "\"dev\":{", codes "\"ids\":\"%s\",",
    codes "\"mf\":\"%s\",", codes "\"name\":\"%s\",", codes "\"sw\":\"%s\"", codes "},", codes "\"name\":\"#%i %s\",",
    codes "\"uniq_id\":\"supla_%s\",", codes "\"qos\":0,", codes "\"ret\":false,", codes "\"opt\":false,",
    codes "\"stat_t\":\"~/state\"", codes "%s", codes "%s", codes "}"].flatten

/-- Text for gates and locks, M 1198-1221. -/
def cfgImpulse : List Nat :=
  [codes "{", codes "\"avty_t\":\"%s/state/connected\",", codes "\"pl_avail\":\"true\",",
    codes "\"pl_not_avail\":\"false\",", codes "\"~\":\"%s/channels/%i\",", codes "\"dev\":{", codes "\"ids\":\"%s\",",
    codes "\"mf\":\"%s\",", codes "\"name\":\"%s\",", codes "\"sw\":\"%s\"", codes "},", codes "\"name\":\"#%i %s\",",
    codes "\"uniq_id\":\"supla_%s\",", codes "\"qos\":0,", codes "\"ret\":false,", codes "\"opt\":false,",
    codes "\"stat_t\":\"~/state/on\",", codes "\"cmd_t\":\"~/set/on\",", codes "\"payload_open\":\"true\",",
    codes "\"payload_close\":null,", codes "\"payload_stop\":null", codes "%s", codes "}"].flatten

/-- Text for switches and lights, M 1292-1314. -/
def cfgRelay : List Nat :=
  [codes "{", codes "\"avty_t\":\"%s/state/connected\",", codes "\"pl_avail\":\"true\",",
    codes "\"pl_not_avail\":\"false\",", codes "\"~\":\"%s/channels/%i\",", codes "\"dev\":{", codes "\"ids\":\"%s\",",
    codes "\"mf\":\"%s\",", codes "\"name\":\"%s\",", codes "\"sw\":\"%s\"", codes "},", codes "\"name\":\"#%i %s\",",
    codes "\"uniq_id\":\"supla_%s\",", codes "\"qos\":0,", codes "\"ret\":false,", codes "\"opt\":false,",
    codes "\"stat_t\":\"~/state/on\",", codes "\"cmd_t\":\"~/set/on\",", codes "\"pl_on\":\"true\",",
    codes "\"pl_off\":\"false\"", codes "%s", codes "}"].flatten

/-- Text for shutters, M 1404-1443. -/
def cfgShutter : List Nat :=
  [codes "{", codes "\"avty_t\":\"%s/state/connected\",", codes "\"pl_avail\":\"true\",",
    codes "\"pl_not_avail\":\"false\",", codes "\"~\":\"%s/channels/%i\",", codes "\"dev\":{", codes "\"ids\":\"%s\",",
    codes "\"mf\":\"%s\",", codes "\"name\":\"%s\",", codes "\"sw\":\"%s\"", codes "},", codes "\"name\":\"#%i %s\",",
    codes "\"uniq_id\":\"supla_%s\",", codes "\"qos\":0,", codes "\"ret\":false,", codes "\"opt\":false,",
    codes "\"cmd_t\":\"~/execute_action\",", codes "\"pl_open\":\"REVEAL\",", codes "\"pl_cls\":\"SHUT\",",
    codes "\"pl_stop\":\"STOP\",", codes "\"set_pos_t\":\"~/set/closing_percentage\",",
    codes "\"pos_t\":\"~/state/shut\",", codes "\"pos_open\":0,", codes "\"pos_clsd\":100,", codes "\"pos_tpl\":\"",
    codes "{%% if value is defined %%}", codes "{%% if value | int < 0 %%}", codes "0",
    codes "{%% elif value | int > 100 %%}", codes "100", codes "{%% else %%}", codes "{{value | int}}",
    codes "{%% endif %%}", codes "{%% else %%}", codes "0", codes "{%% endif %%}\"", codes "%s", codes "%s",
    codes "}"].flatten

/-- Text for thermometers, M 1508-1530. -/
def cfgThermometer : List Nat :=
  [codes "{", codes "\"avty_t\":\"%s/state/connected\",", codes "\"pl_avail\":\"true\",",
    codes "\"pl_not_avail\":\"false\",", codes "\"~\":\"%s/channels/%i\",", codes "\"dev\":{", codes "\"ids\":\"%s\",",
    codes "\"mf\":\"%s\",", codes "\"name\":\"%s\",", codes "\"sw\":\"%s\"", codes "},",
    codes "\"name\":\"#%i Temperature\",", codes "\"uniq_id\":\"supla_%s\",", codes "\"dev_cla\":\"temperature\",",
    codes "\"unit_of_meas\":\"°C\",", codes "\"stat_cla\":\"measurement\",", codes "\"expire_after\":%d,",
    codes "\"qos\":0,", codes "\"ret\":false,", codes "\"opt\":false,", codes "\"stat_t\":\"~/state/temperature\"",
    codes "}"].flatten

/-- Text for humidity sensors, M 1610-1632. -/
def cfgHumidity : List Nat :=
  [codes "{", codes "\"avty_t\":\"%s/state/connected\",", codes "\"pl_avail\":\"true\",",
    codes "\"pl_not_avail\":\"false\",", codes "\"~\":\"%s/channels/%i\",", codes "\"dev\":{", codes "\"ids\":\"%s\",",
    codes "\"mf\":\"%s\",", codes "\"name\":\"%s\",", codes "\"sw\":\"%s\"", codes "},",
    codes "\"name\":\"#%i Humidity\",", codes "\"dev_cla\":\"humidity\",", codes "\"stat_cla\":\"measurement\",",
    codes "\"unit_of_meas\":\"%%\",", codes "\"uniq_id\":\"supla_%s\",", codes "\"expire_after\":%d,",
    codes "\"qos\":0,", codes "\"ret\":false,", codes "\"opt\":false,", codes "\"stat_t\":\"~/state/humidity\"",
    codes "}"].flatten

/-- Text for buttons, M 1750-1765. -/
def cfgTrigger : List Nat :=
  [codes "{", codes "\"dev\":{", codes "\"ids\":\"%s\",", codes "\"mf\":\"%s\",", codes "\"name\":\"%s\",",
    codes "\"sw\":\"%s\"", codes "},", codes "\"automation_type\":\"trigger\",",
    codes "\"topic\":\"%s/channels/%i/%s\",", codes "\"type\":\"%s\",", codes "\"subtype\":\"button_%i\",",
    codes "\"payload\":\"%s\",", codes "\"qos\":0,", codes "\"ret\":false", codes "}"].flatten

/-- Text for a value of an electricity meter, M 1899-1917. -/
def cfgMeter : List Nat :=
  [codes "{", codes "\"avty_t\":\"%s/state/connected\",", codes "\"pl_avail\":\"true\",",
    codes "\"pl_not_avail\":\"false\",", codes "\"~\":\"%s/channels/%i\",", codes "\"dev\":{", codes "\"ids\":\"%s\",",
    codes "\"mf\":\"%s\",", codes "\"name\":\"%s\",", codes "\"sw\":\"%s\"", codes "},",
    codes "\"name\":\"#%i Electricity Meter (%s)\",", codes "\"uniq_id\":\"supla_%s\",", codes "\"qos\":0,",
    codes "\"unit_of_meas\": \"%s\",", codes "\"stat_t\":\"~/state/%s%s\"", codes "%s%s", codes "}"].flatten

/-- Text for coloured lights, M 2229-2258. -/
def cfgRgb : List Nat :=
  [codes "{", codes "\"avty_t\":\"%s/state/connected\",", codes "\"pl_avail\":\"true\",",
    codes "\"pl_not_avail\":\"false\",", codes "\"~\":\"%s/channels/%i\",", codes "\"dev\":{", codes "\"ids\":\"%s\",",
    codes "\"mf\":\"%s\",", codes "\"name\":\"%s\",", codes "\"sw\":\"%s\"", codes "},",
    codes "\"name\":\"RGB Lighting\",", codes "\"uniq_id\":\"supla_%s\",", codes "\"qos\":0,", codes "\"ret\":false,",
    codes "\"opt\":false,", codes "\"stat_t\":\"~/state%s/on\",", codes "\"cmd_t\":\"~/execute_action%s\",",
    codes "\"pl_on\":\"TURN_ON\",", codes "\"pl_off\":\"TURN_OFF\",",
    codes "\"stat_val_tpl\":\"{%% if value == \\\"true\\\" %%}TURN_ON{%% else ", codes "%%}TURN_OFF{%% endif %%}\",",
    codes "\"on_cmd_type\":\"last\",", codes "\"bri_cmd_t\":\"~/set/color_brightness\",", codes "\"bri_scl\":100,",
    codes "\"bri_stat_t\":\"~/state/color_brightness\",", codes "\"rgb_stat_t\":\"~/state/color\",",
    codes "\"rgb_cmd_t\":\"~/set/color\"", codes "}"].flatten

/-- Text for dimmers, M 2311-2338. -/
def cfgDimmer : List Nat :=
  [codes "{", codes "\"avty_t\":\"%s/state/connected\",", codes "\"pl_avail\":\"true\",",
    codes "\"pl_not_avail\":\"false\",", codes "\"~\":\"%s/channels/%i\",", codes "\"dev\":{", codes "\"ids\":\"%s\",",
    codes "\"mf\":\"%s\",", codes "\"name\":\"%s\",", codes "\"sw\":\"%s\"", codes "},", codes "\"name\":\"Dimmer\",",
    codes "\"uniq_id\":\"supla_%s\",", codes "\"qos\":0,", codes "\"ret\":false,", codes "\"opt\":false,",
    codes "\"stat_t\":\"~/state%s/on\",", codes "\"cmd_t\":\"~/execute_action%s\",", codes "\"pl_on\":\"TURN_ON\",",
    codes "\"pl_off\":\"TURN_OFF\",", codes "\"stat_val_tpl\":\"{%% if value == \\\"true\\\" %%}TURN_ON{%% else ",
    codes "%%}TURN_OFF{%% endif %%}\",", codes "\"on_cmd_type\":\"last\",", codes "\"bri_cmd_t\":\"~/set/brightness\",",
    codes "\"bri_scl\":100,", codes "\"bri_stat_t\":\"~/state/brightness\"", codes "}"].flatten

/-- Text for thermostats, M 2625-2661. -/
def cfgHvac : List Nat :=
  [codes "{", codes "\"avty_t\":\"%s/state/connected\",", codes "\"pl_avail\":\"true\",",
    codes "\"pl_not_avail\":\"false\",", codes "\"~\":\"%s/channels/%i\",", codes "\"dev\":{", codes "\"ids\":\"%s\",",
    codes "\"mf\":\"%s\",", codes "\"name\":\"%s\",", codes "\"sw\":\"%s\"", codes "},",
    codes "\"name\":\"#%i Thermostat\",", codes "\"uniq_id\":\"supla_%s\",", codes "\"qos\":0,", codes "\"ret\":false,",
    codes "\"opt\":false,", codes "\"action_topic\":\"~/state/action\",", codes "\"current_temperature_topic\":\"%s\",",
    codes "\"current_humidity_topic\":\"%s\",", codes "\"max_temp\":\"%.2f\",", codes "\"min_temp\":\"%.2f\",",
    codes "\"modes\":[", codes "\"off\",", codes "\"auto\",", codes "%s", codes "],",
    codes "\"mode_stat_t\":\"~/state/mode\",", codes "\"mode_command_topic\":\"~/execute_action\",",
    codes "\"power_command_topic\":\"~/execute_action\",", codes "\"payload_off\":\"turn_off\",",
    codes "\"payload_on\":\"turn_on\",", codes "\"temperature_unit\":\"C\",", codes "\"temp_step\":\"0.1\",", codes "%s",
    codes "}"].flatten

/-- Text for the tilt of blinds, M 1465-1473. -/
def tiltText : List Nat :=
  [codes ",\"tilt_cmd_t\":\"~/set/tilt\",", codes "\"tilt_status_t\":\"~/state/tilt\",",
    codes "\"tilt_min\":100,\"tilt_max\":0,", codes "\"tilt_opened_value\":0,", codes "\"tilt_closed_value\":100,",
    codes "\"tilt_status_tpl\":\"", codes "{% if int(value, default=0) <= 0 %}0",
    codes "{% elif value | int > 100 %}100", codes "{% else %}{{value | int}}{% endif %}\""].flatten

/-- Set points of the function "heat and cool", M 2693-2700. -/
def pointsBoth : List Nat :=
  [codes "\"temperature_high_command_topic\":\"", codes "~/set/temperature_setpoint_cool/\",",
    codes "\"temperature_high_state_topic\":\"", codes "~/state/temperature_setpoint_cool/\",",
    codes "\"temperature_low_command_topic\":\"", codes "~/set/temperature_setpoint_heat/\",",
    codes "\"temperature_low_state_topic\":\"", codes "~/state/temperature_setpoint_heat/\""].flatten

/-- Set point of the other functions, M 2701-2704. -/
def pointsOne : List Nat :=
  [codes "\"temperature_command_topic\":\"", codes "~/set/temperature_setpoint\",",
    codes "\"temperature_state_topic\":\"", codes "~/state/temperature_setpoint\""].flatten

/-- `getDeviceClassStr`, M 2165-2210, for the classes of covers and binary sensors. -/
inductive Cla
  | none | door | garage | moisture | window | gate | shutter | awning | curtain | shade
deriving DecidableEq, Repr

/-- M 2184-2209. -/
def claText : Cla → List Nat
  | .none => codes ""
  | .door => codes ",\"dev_cla\":\"door\""
  | .garage => codes ",\"dev_cla\":\"garage\""
  | .moisture => codes ",\"dev_cla\":\"moisture\""
  | .window => codes ",\"dev_cla\":\"window\""
  | .gate => codes ",\"dev_cla\":\"gate\""
  | .shutter => codes ",\"dev_cla\":\"shutter\""
  | .awning => codes ",\"dev_cla\":\"awning\""
  | .curtain => codes ",\"dev_cla\":\"curtain\""
  | .shade => codes ",\"dev_cla\":\"shade\""

/-- The documents. `binary` with its class and whether its words are open and closed, `shutter` with or without tilt,
`trigger` with the index of the action (0 to 7), `meter` with the number of the value (1 to 40), lights with or without
a part of their own for colour and white, `hvac` with the functions "heat and cool" and cooling. -/
inductive Doc
  | binary (c : Cla) (opening : Bool)
  | impulse (c : Cla)
  | relay
  | shutter (c : Cla) (tilt : Bool)
  | thermometer
  | humidity
  | trigger (idx : Nat)
  | meter (id : Nat)
  | rgb (sub : Bool)
  | dimmer (sub : Bool)
  | hvac (both cool : Bool)
deriving DecidableEq, Repr

/-- `getActionTriggerType`, M 1668-1689. -/
def triggerType : Nat → List Nat
  | 0 => codes "button_long_press"
  | 1 => codes "button_short_press"
  | 2 => codes "button_double_press"
  | 3 => codes "button_triple_press"
  | 4 => codes "button_quadruple_press"
  | 5 => codes "button_quintuple_press"
  | 6 => codes "button_turn_on"
  | 7 => codes "button_turn_off"
  | _ => codes "undefined"

/-- M 1976-2006: name, unit, state class and device class of the values 1 to 4. -/
def meterTotals : List (List Nat × List Nat × List Nat × List Nat) :=
  [(codes "total_forward_active_energy", codes "kWh", codes "total_increasing", codes "energy"), (codes "total_reverse_active_energy", codes "kWh", codes "total_increasing", codes "energy"),
   (codes "total_forward_active_energy_balanced", codes "kWh", codes "total_increasing", codes "energy"),
   (codes "total_reverse_active_energy_balanced", codes "kWh", codes "total_increasing", codes "energy")]

/-- M 2021-2115: the twelve values of a phase. -/
def meterPhase : List (List Nat × List Nat × List Nat × List Nat) :=
  [(codes "total_forward_active_energy", codes "kWh", codes "total_increasing", codes "energy"), (codes "total_reverse_active_energy", codes "kWh", codes "total_increasing", codes "energy"),
   (codes "total_forward_reactive_energy", codes "kvarh", codes "total_increasing", codes "energy"), (codes "total_reverse_reactive_energy", codes "kvarh", codes "total_increasing", codes "energy"),
   (codes "frequency", codes "Hz", codes "measurement", codes "frequency"), (codes "voltage", codes "V", codes "measurement", codes "voltage"), (codes "current", codes "A", codes "measurement", codes "current"),
   (codes "power_active", codes "W", codes "measurement", codes "power"), (codes "power_reactive", codes "var", codes "measurement", codes "reactive_power"),
   (codes "power_apparent", codes "VA", codes "measurement", codes "apparent_power"), (codes "power_factor", [], codes "measurement", codes "power_factor"),
   (codes "phase_angle", codes "°", codes "measurement", [])]

/-- Value `id` (1 to 40): M 1976-2116 count the values up, twelve for every phase. -/
def meterRow (id : Nat) : List Nat × List Nat × List Nat × List Nat :=
  if id < 5 then meterTotals.getD (id - 1) ([], [], [], []) else meterPhase.getD ((id - 5) % 12) ([], [], [], [])

/-- M 1872: the phase of a value, 0 for the totals. -/
def phaseOf (id : Nat) : Nat := (id + 12 - 5) / 12

/-- M 1874-1877. -/
def phaseText (p : Nat) : List Nat := if p > 0 ∧ p < 4 then codes " - Phase " ++ decimalText p else []

/-- M 1889-1892. -/
def phasePart (p : Nat) : List Nat := if p > 0 ∧ p < 4 then codes "phases/" ++ decimalText p ++ codes "/" else []

/-- M 1883: subtracts 32 from the first character. -/
def capital : List Nat → List Nat
  | [] => []
  | c :: r => (c - 32) :: r

/-- M 1879-1888: the readable name: first letter in upper case, underscores to blanks. -/
def readable (s : List Nat) : List Nat := (capital s).map (fun c => if c = 95 then 32 else c)

/-- `getStateClassStr`, M 2150-2163. -/
def stateClass (s : List Nat) : List Nat := codes ",\"stat_cla\":\"" ++ s ++ [34]

/-- `getDeviceClassStr`, M 2165-2183 and 2206, for the values of meters. -/
def deviceClass (s : List Nat) : List Nat := if s = [] then [] else codes ",\"dev_cla\":\"" ++ s ++ [34]

/-- The arguments all documents except those of buttons begin with (e.g. M 1125-1131). -/
def common : List Arg := [.hole 0, .hole 0, .hole 1, .hole 2, .hole 3, .hole 4, .hole 5]

/-- Format and arguments of a document: M 1121-1139, 1228-1243, 1321-1336, 1450-1475, 1537-1553, 1639-1653, 1773-1788,
1924-1944, 2265-2280, 2345-2360, 2668-2705. -/
def source : Doc → List Nat × List Arg
  | .binary c o => (cfgBinary, common ++ [.hole 1, .hole 13, .hole 6, .const (claText c),
      .const (if o then codes ",\"payload_on\":\"open\",\"payload_off\":\"closed\"" else [])])
  | .impulse c => (cfgImpulse, common ++ [.hole 1, .hole 13, .hole 6, .const (claText c)])
  | .relay => (cfgRelay, common ++ [.hole 1, .hole 13, .hole 6, .const []])
  | .shutter c t => (cfgShutter, common ++ [.hole 1, .hole 13, .hole 6, .const (if t then tiltText else []), .const (claText c)])
  | .thermometer => (cfgThermometer, common ++ [.hole 1, .hole 6, .hole 7])
  | .humidity => (cfgHumidity, common ++ [.hole 1, .hole 6, .hole 7])
  | .trigger i => (cfgTrigger, [.hole 2, .hole 3, .hole 4, .hole 5, .hole 0, .hole 1, .const (triggerType i), .const (triggerType i), .hole 12, .const (triggerType i)])
  | .meter id => (cfgMeter, common ++ [.hole 1, .const (readable ((meterRow id).1 ++ phaseText (phaseOf id))), .hole 6, .const (meterRow id).2.1,
      .const (phasePart (phaseOf id)), .const (meterRow id).1, .const (stateClass (meterRow id).2.2.1), .const (deviceClass (meterRow id).2.2.2)])
  | .rgb s => (cfgRgb, common ++ [.hole 6, .const (if s then codes "/rgb" else []), .const (if s then codes "/rgb" else [])])
  | .dimmer s => (cfgDimmer, common ++ [.hole 6, .const (if s then codes "/dimmer" else []), .const (if s then codes "/dimmer" else [])])
  | .hvac b c => (cfgHvac, common ++ [.hole 1, .hole 6, .hole 8, .hole 9, .hole 10, .hole 11,
      .const (if b then codes "\"heat\",\"cool\",\"heat_cool\"" else if c then codes "\"cool\"" else codes "\"heat\""), .const (if b then pointsBoth else pointsOne)])

/-- The document with its holes. -/
def template (d : Doc) : List Piece := (fmt ((source d).1).length.succ ((source d).1) (source d).2).getD []

/-- The values in the holes put in. -/
def inst (v : Nat → List Nat) : List Piece → List Nat
  | [] => []
  | .ch c :: l => c :: inst v l
  | .hole i :: l => v i ++ inst v l

/-- The text that is published. -/
def text (d : Doc) (v : Nat → List Nat) : List Nat := inst v (template d)

/-- Every document the device can publish: M 1060-1090, 1168-1196, 1367-1400, 1741, 1976-2116. -/
def docs : List Doc :=
  [.binary .none false, .binary .door true, .binary .garage true, .binary .window true, .binary .moisture false,
   .impulse .gate, .impulse .garage, .impulse .door, .relay,
   .shutter .shutter true, .shutter .shutter false, .shutter .window false, .shutter .awning false, .shutter .garage false,
   .shutter .curtain false, .shutter .shade false, .thermometer, .humidity] ++
  (List.range 8).map .trigger ++ (List.range 40).map (fun i => .meter (i + 1)) ++
  [.rgb false, .rgb true, .dimmer false, .dimmer true, .hvac false false, .hvac false true, .hvac true false, .hvac true true]

/-! ## Which documents a channel gets -/

/-- A channel: its type with what decides about its documents. `relay` and `binary` with the number of the function,
`shutter` is a relay with a shutter function (`isRollerShutterRelayType`), `trigger` with its capabilities. Electricity
meters get the documents of the values they measure. -/
inductive Chan
  | relay (f : Nat)
  | shutter (f : Nat)
  | thermometer
  | climate
  | trigger (caps : Nat)
  | meter (ids : List Nat)
  | dimmer
  | rgb
  | rgbw
  | hvac (both cool : Bool)
  | binary (f : Nat)
  | other
deriving DecidableEq, Repr

/-- M 1062-1090. Functions: 50 gateway, 100 door, 60 gate, 70 garage door, 80 liquid, 120 shutter, 125 roof window,
230 window. -/
def binaryClass (f : Nat) : Cla :=
  if f = 50 ∨ f = 100 then .door else if f = 60 ∨ f = 70 then .garage else if f = 80 then .moisture
  else if f = 120 ∨ f = 125 ∨ f = 230 then .window else .none

/-- `isOpenClosedBinarySensorFunction`, M 622-641. -/
def openClosed (f : Nat) : Bool := f == 50 || f == 60 || f == 70 || f == 100 || f == 120 || f == 125 || f == 230

/-- M 1369-1400. Functions: 110 roller shutter, 115 roof window, 900 facade blind, 910 awning, 920 projector screen,
930 curtain, 940 vertical blind, 950 roller garage door. -/
def shutterClass (f : Nat) : Cla :=
  if f = 115 then .window else if f = 910 then .awning else if f = 950 then .garage else if f = 930 then .curtain
  else if f = 920 then .shade else .shutter

/-- M 1274-1290 and 1170-1196: functions 20 gate, 30 garage door, 90 door lock, 10 gateway lock. -/
def relayDoc (f : Nat) : Doc :=
  if f = 20 then .impulse .gate else if f = 30 then .impulse .garage else if f = 90 ∨ f = 10 then .impulse .door else .relay

/-- M 1274-1290, 1173-1188 and 1402: the type in the topic of the document. Function 130 is the power switch. -/
def relayType (f : Nat) : String :=
  if f = 20 ∨ f = 30 ∨ f = 90 ∨ f = 10 then "cover" else if f = 130 then "switch" else "light"

/-- `isActionTriggerEnabled`, M 1691-1726; bits of /repo/src/supla-common/proto.h lines 3463-3477. -/
def enabled (caps idx : Nat) : Bool :=
  if idx = 0 then caps.testBit 10
  else if idx ≤ 5 then caps.testBit (idx + 1) || caps.testBit (idx + 10)
  else if idx = 6 then caps.testBit 0
  else if idx = 7 then caps.testBit 1
  else false

/-- `publishHADiscovery`, M 971-1045. -/
def docsOf : Chan → List Doc
  | .relay f => [relayDoc f]
  | .shutter f => [.shutter (shutterClass f) (f == 940 || f == 900)]
  | .thermometer => [.thermometer]
  | .climate => [.thermometer, .humidity]
  | .trigger caps => ((List.range 8).filter (enabled caps)).map .trigger
  | .meter ids => ids.map .meter
  | .dimmer => [.dimmer false]
  | .rgb => [.rgb false]
  | .rgbw => [.dimmer true, .rgb true]
  | .hvac b c => [.hvac b c]
  | .binary f => [.binary (binaryClass f) (openClosed f)]
  | .other => []

/-- `sendActionTrigger`, M 1818-1854: the index for an action (one bit). -/
def actionIdx (a : Nat) : Nat :=
  if a = 2 ^ 10 then 0 else if a = 2 ^ 2 ∨ a = 2 ^ 11 then 1 else if a = 2 ^ 3 ∨ a = 2 ^ 12 then 2
  else if a = 2 ^ 4 ∨ a = 2 ^ 13 then 3 else if a = 2 ^ 5 ∨ a = 2 ^ 14 then 4 else if a = 2 ^ 6 ∨ a = 2 ^ 15 then 5
  else if a = 2 ^ 0 then 6 else if a = 2 ^ 1 then 7 else 8

/-- `sendActionTrigger`, M 1855-1857: topic and payload. -/
def actionMessage (pre : List Nat) (n a : Nat) : List Nat × List Nat :=
  (full pre (slash (channelTopic n) (triggerType (actionIdx a))), triggerType (actionIdx a))

/-- M 236 and /repo/extras/porting/esp-idf/esp_mqtt.cpp lines 206-207, 225-227 and 245-247: what is published on connecting, and the
last will with which the broker answers for the device when the connection is lost (both retained). -/
def connectedMessages (pre : List Nat) : (List Nat × List Nat) × (List Nat × List Nat) :=
  ((full pre (txt "state/connected"), txt "true"), (slash (slash (append [] pre) (txt "state")) (txt "connected"), txt "false"))

/-- The topic of the document of a relay, M 1274-1290 and 1173-1188. -/
def relayTopic (f : Nat) (id : List Nat) : List Nat := discoveryTopic (txt (relayType f)) id

/-- Publishing the document of a relay with the retain flag (M 1347 and 1254), as seen by the broker. -/
def announce (held : List Nat → Option (List Nat)) (f : Nat) (id : List Nat) (v : Nat → List Nat) : List Nat → Option (List Nat) :=
  fun t => if t = relayTopic f id then some (text (relayDoc f) v) else held t

/-- M 2600-2618: a topic in a buffer of 100 characters with the terminating zero. -/
def cutTopic (pre : List Nat) (n : Nat) (what : String) : List Nat :=
  (pre ++ txt "/channels/" ++ decimalText n ++ txt "/state/" ++ txt what).take 99

/-- M 223, 1739: numbers given to the buttons on connecting, channel by channel (`true` for an action trigger). -/
def buttons : Nat → List Bool → List (Option Nat)
  | _, [] => []
  | k, true :: l => some (k + 1) :: buttons (k + 1) l
  | k, false :: l => none :: buttons k l

end Verif.Mqtt.Discovery
