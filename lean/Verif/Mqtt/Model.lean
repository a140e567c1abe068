import Verif.Tools.Number

/-!
# MQTT: topics and commands

Models /repo/src/supla/protocol/mqtt.cpp (M), /repo/src/supla/protocol/mqtt_topic.cpp (T) and
`strncmpInsensitive` and `stringToColor` of /repo/src/supla/tools.cpp (L). Texts are lists of character
codes without the terminating zero; characters are bytes.
-/

namespace Verif.Mqtt

open Verif.Tools

/-- The codes of the characters of a text constant. -/
def txt (s : String) : List Nat := s.toList.map Char.toNat

/-- `MAX_TOPIC_LEN`, /repo/src/supla/protocol/mqtt_topic.h. -/
def maxTopic : Nat := 256

/-! ## Building topics -/

/-- `MqttTopic::append`, T lines 30-37. -/
def append (t suffix : List Nat) : List Nat :=
  if t.length + suffix.length < maxTopic then t ++ suffix else t

/-- `MqttTopic::operator/(const char *)`, T lines 39-46. -/
def slash (t suffix : List Nat) : List Nat := append (append t [47]) suffix

/-- `MqttTopic::operator/(int)`, T lines 54-60, for numbers that are not negative. -/
def slashInt (t : List Nat) (n : Nat) : List Nat := slash t (decimalText n)

/-- `onInit`, M lines 172-217: the prefix of all topics, from the custom prefix (at most 48 characters)
and the host name in lower case (at most 31). -/
def devicePrefix (custom host : List Nat) : List Nat :=
  custom ++ (if custom = [] then [] else [47]) ++ txt "supla/devices/" ++ host

/-- `publish` and `subscribe`, M lines 284-290: the prefix, a slash and the topic. -/
def full (pre topic : List Nat) : List Nat := slash (append [] pre) topic

/-- M lines 386-400 and 788-795: topic of a channel. -/
def channelTopic (n : Nat) : List Nat := slashInt (append [] (txt "channels")) n

/-- `generateObjectId`, M lines 1568-1584: an identifier of the channel for discovery; `mac` is the
address in lower-case hexadecimal digits, `[]` the untouched (empty) result. -/
def objectId (mac : List Nat) (n sub : Nat) : List Nat :=
  if n ≥ 100 ∨ sub ≥ 100 then [] else mac ++ 95 :: decimalText n ++ 95 :: decimalText sub

/-- `getHADiscoveryTopic`, M lines 1586-1592. -/
def discoveryTopic (type id : List Nat) : List Nat :=
  slash (slash (slash (slash (append [] (txt "homeassistant")) type) (txt "supla")) id) (txt "config")

/-! ## Reading topics -/

/-- What kind of channel a number stands for: `getChannelType` and `isRollerShutterRelayType`. The flag of
a thermostat is its cooling subfunction. -/
inductive Kind
  | relay | shutter | dimmer | rgb | rgbw | hvac (cool : Bool) | other
deriving DecidableEq, Repr

/-- Result of `processData` before the channel type is looked at: not for this device, undefined
behaviour (characters behind the buffer are read or a number overflows), or a channel and the rest of
the topic. -/
inductive Target
  | none
  | ub
  | channel (n : Int) (part : List Nat)
deriving DecidableEq, Repr

/-- The first `strtok_r` with "/": leading slashes are skipped, the token ends in front of the next slash.
`none` is the null pointer. The second component is what is behind that slash, `none` if the text ended. -/
def token (s : List Nat) : Option (List Nat × Option (List Nat)) :=
  match s.dropWhile (· == 47) with
  | [] => none
  | c :: r =>
    match (c :: r).dropWhile (· != 47) with
    | [] => some ((c :: r).takeWhile (· != 47), none)
    | _ :: rest => some ((c :: r).takeWhile (· != 47), some rest)

/-- `processData`, M lines 892-913, once the text of the number is cut off: looking up the channel, and
the second `strtok_r` with "" (everything left, the null pointer if nothing is). `cut` says that the
buffer has no terminating zero. -/
def lookup (dev : Int → Bool) (cut : Bool) (num : List Nat) (rest : Option (List Nat)) : Target :=
  match stringToInt num with
  | .ub => .ub
  | .val n =>
    if !dev n then .none
    else if cut then .ub
    else
      match rest with
      | some (c :: r) => .channel n (c :: r)
      | _ => .none

/-- `processData`, M lines 884-892, on the copied topic behind ".../channels/". If the copy is not
terminated, a token that reaches its end is not terminated either. -/
def numberPart (dev : Int → Bool) (cut : Bool) (s : List Nat) : Target :=
  match token s with
  | none => if cut then .ub else .none
  | some (num, rest) => if cut ∧ rest = none then .ub else lookup dev cut num rest

/-- `processData`, M lines 858-913: `dev` says which channel numbers exist. `strncpy` with the size of the
buffer copies at most 256 characters, and no terminating zero if the topic is not shorter. -/
def target (dev : Int → Bool) (pre topic : List Nat) : Target :=
  if topic.length ≤ pre.length ∨ topic.take pre.length ≠ pre then .none
  else if topic.length ≤ pre.length + 10 ∨ (topic.drop pre.length).take 10 ≠ txt "/channels/" then .none
  else numberPart dev (decide (topic.length ≥ maxTopic)) ((topic.take maxTopic).drop (pre.length + 10))

/-! ## Commands -/

/-- Upper case as in L lines 272-278. -/
def upper (c : Nat) : Nat := if c ≥ 97 ∧ c ≤ 122 then c - 32 else c

/-- `strncmpInsensitive`, L lines 268-288, on two memory areas: whether the result is 0; `none` if it reads
behind one of them. -/
def sameLoop : Nat → List Nat → List Nat → Option Bool
  | 0, _, _ => some true
  | n + 1, a :: s, b :: t => if upper a = upper b then sameLoop n s t else some false
  | _ + 1, _, _ => none

/-- `strncmpInsensitive(payload, word, strlen(word) + 1) == 0`: the calls in M all have this form. -/
def same (payload word : List Nat) : Option Bool := sameLoop (word.length + 1) (payload ++ [0]) (word ++ [0])

/-- The same as a condition; `same_eq` shows that it never reads outside. -/
def is (payload : List Nat) (word : String) : Bool := same payload (txt word) == some true

/-- `isPayloadOn`, M lines 950-961. -/
def payloadOn (p : List Nat) : Bool := is p "1" || is p "yes" || is p "true"

/-- White space for `strtol` in the C locale. -/
def isSpace (c : Nat) : Bool := c == 32 || (decide (9 ≤ c) && decide (c ≤ 13))

/-- The digits of `strtol`: the number and the rest, `none` if there is no digit. -/
def digitsLoop : Nat → List Nat → Nat × List Nat
  | r, [] => (r, [])
  | r, c :: s => if 48 ≤ c ∧ c ≤ 57 then digitsLoop (r * 10 + (c - 48)) s else (r, c :: s)

/-- `strtol(s, &end, 10)` behind white space and sign: if there is no digit the result is 0 and `end` the
start `s0`. The result saturates at `LONG_MAX` in C; it is only compared with 255 here, so the exact
number does as well (`long` of 32 bits: numbers above saturate above 255 as well). -/
def strtolDigits (minus : Bool) (s0 s : List Nat) : Int × List Nat :=
  match s with
  | [] => (0, s0)
  | c :: r =>
    if 48 ≤ c ∧ c ≤ 57 then
      (if minus then -((digitsLoop 0 (c :: r)).1 : Int) else (digitsLoop 0 (c :: r)).1, (digitsLoop 0 (c :: r)).2)
    else (0, s0)

/-- `strtol(s, &end, 10)`: value and rest. -/
def strtol (s : List Nat) : Int × List Nat :=
  match s.dropWhile isSpace with
  | [] => (0, s)
  | c :: r =>
    if c = 45 then strtolDigits true s r
    else if c = 43 then strtolDigits false s r
    else strtolDigits false s (c :: r)

/-- L lines 417-427: whether a component is a byte. -/
def isByte (n : Int) : Bool := decide (0 ≤ n) && decide (n ≤ 255)

/-- L lines 404-407 and 411-414: the text behind the comma at which a number has to end. -/
def afterComma : List Nat → Option (List Nat)
  | [] => none
  | c :: s => if c = 44 then some s else none

/-- `stringToColor`, L lines 393-437 (not on AVR, where it always fails): red, green, blue. With a `long`
of 64 bits the conversion to `int32_t` keeps the low bits; the model takes a 32-bit `long`. -/
def stringToColor (p : List Nat) : Option (Int × Int × Int) :=
  (afterComma (strtol p).2).bind (fun s =>
    (afterComma (strtol s).2).bind (fun t =>
      if (strtol t).2 = [] ∧ isByte (strtol p).1 ∧ isByte (strtol s).1 ∧ isByte (strtol t).1
      then some ((strtol p).1, (strtol s).1, (strtol t).1) else none))

/-- A call the handlers make on the channel: `handleNewValueFromServer` with the given bytes changed
(the others come from `fillSuplaChannelNewValue`), for thermostats with the given set point or mode, or
the calibration command with the right to do so. -/
inductive Cmd
  | bytes (changes : List (Nat × Int))
  | heat (t : Int)
  | cool (t : Int)
  | mode (m : Nat)
  | recalibrate
deriving DecidableEq, Repr

/-- `processRelayRequest`, M lines 2375-2404; `on` is the value of the channel. -/
def relayRequest (on : Bool) (part p : List Nat) : List Cmd :=
  if part = txt "set/on" then [.bytes [(0, if payloadOn p then 1 else 0)]]
  else if part = txt "execute_action" then
    if is p "turn_on" then [.bytes [(0, 1)]]
    else if is p "turn_off" then [.bytes [(0, 0)]]
    else if is p "toggle" then [.bytes [(0, if on then 0 else 1)]]
    else []
  else []

/-- `none` for undefined behaviour, otherwise `f` of the number. -/
def withInt (r : Res) (f : Int → List Cmd) : Option (List Cmd) :=
  match r with
  | .ub => none
  | .val n => some (f n)

/-- M lines 2416-2419: the position byte. -/
def closing (n : Int) : Int := if 0 ≤ n ∧ n ≤ 100 then n + 10 else -1

/-- M lines 2423-2425: the tilt byte. -/
def tilting (n : Int) : Int := if 0 ≤ n ∧ n ≤ 100 then n else -1

/-- `processRollerShutterRequest`, M lines 2406-2453. -/
def shutterRequest (part p : List Nat) : Option (List Cmd) :=
  if part = txt "set/closing_percentage" then withInt (stringToInt p) (fun n => [.bytes [(0, closing n), (1, -1)]])
  else if part = txt "set/tilt" then withInt (stringToInt p) (fun n => [.bytes [(0, -1), (1, tilting n)]])
  else if part = txt "execute_action" then
    if is p "stop" then some [.bytes [(0, 0), (1, -1)]]
    else if is p "reveal" then some [.bytes [(0, 10), (1, -1)]]
    else if is p "shut" then some [.bytes [(0, 110), (1, -1)]]
    else if is p "calibrate" || is p "recalibrate" then some [.recalibrate]
    else some []
  else some []

/-- M lines 2461-2475 and 2560-2566: a brightness for byte `i` with command `cmd`. -/
def brightness (i : Nat) (cmd : Int) (n : Int) : List Cmd :=
  if 0 ≤ n ∧ n ≤ 100 then [.bytes [(i, n), (6, cmd)]] else []

/-- M lines 2476-2499: an action, with the three commands for on, off and toggle. -/
def action (on off toggle : Int) (p : List Nat) : List Cmd :=
  if is p "turn_on" then [.bytes [(6, on)]]
  else if is p "turn_off" then [.bytes [(6, off)]]
  else if is p "toggle" then [.bytes [(6, toggle)]]
  else []

/-- M lines 2500-2510: a colour. -/
def colour (c : Option (Int × Int × Int)) : List Cmd :=
  match c with
  | some (r, g, b) => [.bytes [(2, b), (3, g), (4, r), (6, 12)]]
  | none => []

/-- `processRGBWRequest`, M lines 2455-2512. -/
def rgbwRequest (part p : List Nat) : Option (List Cmd) :=
  if part = txt "set/color_brightness" then withInt (stringToInt p) (brightness 1 11)
  else if part = txt "set/brightness" then withInt (stringToInt p) (brightness 0 10)
  else if part = txt "execute_action/rgb" then some (action 4 5 6 p)
  else if part = txt "execute_action/dimmer" then some (action 1 2 3 p)
  else if part = txt "set/color" then some (colour (stringToColor p))
  else some []

/-- `processDimmerRequest`, M lines 2567-2581: on and off are handed over in their branch and once more
at the end. -/
def dimmerAction (p : List Nat) : List Cmd :=
  if is p "turn_on" then [.bytes [(6, 1)], .bytes [(6, 1)]]
  else if is p "turn_off" then [.bytes [(6, 2)], .bytes [(6, 2)]]
  else if is p "toggle" then [.bytes [(6, 3)]]
  else []

/-- `processDimmerRequest`, M lines 2554-2582. -/
def dimmerRequest (part p : List Nat) : Option (List Cmd) :=
  if part = txt "set/brightness" then withInt (stringToInt p) (brightness 0 10)
  else if part = txt "execute_action" then some (dimmerAction p)
  else some []

/-- M lines 2728-2731: the range check of a set point. -/
def setpoint (f : Int → Cmd) (n : Int) : List Cmd := if n < -32768 ∨ n > 32767 then [] else [f n]

/-- M lines 2762-2790: the actions of a thermostat; `on` is `getHvacIsOnRaw() != 0`. -/
def hvacAction (on : Bool) (p : List Nat) : List Cmd :=
  if is p "turn_on" then [.mode 8]
  else if is p "turn_off" || is p "off" then [.mode 1]
  else if is p "toggle" then [.mode (if on then 1 else 8)]
  else if is p "auto" then [.mode 9]
  else if is p "heat" then [.mode 2]
  else if is p "cool" then [.mode 3]
  else if is p "heat_cool" then [.mode 4]
  else []

/-- `processHVACRequest`, M lines 2720-2793. -/
def hvacRequest (cool on : Bool) (part p : List Nat) : Option (List Cmd) :=
  if part = txt "set/temperature_setpoint_heat" then withInt (floatStringToInt 2 p) (setpoint .heat)
  else if part = txt "set/temperature_setpoint_cool" then withInt (floatStringToInt 2 p) (setpoint .cool)
  else if part = txt "set/temperature_setpoint" then
    withInt (floatStringToInt 2 p) (setpoint (if cool then .cool else .heat))
  else if part = txt "execute_action" then some (hvacAction on p)
  else some []

/-- `processData`, M lines 914-946: the handler for the type of the channel. -/
def request (k : Kind) (on : Bool) (part p : List Nat) : Option (List Cmd) :=
  match k with
  | .relay => some (relayRequest on part p)
  | .shutter => shutterRequest part p
  | .dimmer => dimmerRequest part p
  | .rgb => rgbwRequest part p
  | .rgbw => rgbwRequest part p
  | .hvac cool => hvacRequest cool on part p
  | .other => some []

/-- `subscribeChannel`, M lines 809-855: what is subscribed behind "channels/n/". -/
def subscriptions : Kind → List (List Nat)
  | .relay => [txt "set/on", txt "execute_action"]
  | .shutter => [txt "set/closing_percentage", txt "set/tilt", txt "execute_action"]
  | .dimmer => [txt "execute_action", txt "set/brightness"]
  | .rgb => [txt "execute_action", txt "set/color_brightness", txt "set/color"]
  | .rgbw => [txt "execute_action/rgb", txt "execute_action/dimmer", txt "set/brightness", txt "set/color_brightness", txt "set/color"]
  | .hvac _ => [txt "execute_action", txt "set/temperature_setpoint", txt "set/temperature_setpoint_heat", txt "set/temperature_setpoint_cool"]
  | .other => []

/-- `processData` as a whole: the channel and the calls made on it; `none` for undefined behaviour.
`kinds` gives the type of every existing channel, `on` its state. -/
def processData (kinds : Int → Option Kind) (on : Int → Bool) (pre topic p : List Nat) : Option (List (Int × Cmd)) :=
  match target (fun n => (kinds n).isSome) pre topic with
  | .ub => none
  | .none => some []
  | .channel n part => (request ((kinds n).getD .other) (on n) part p).map (·.map (fun c => (n, c)))

/-! ## Changed configuration -/

/-- `notifyConfigChange`, M lines 2795-2800: `configChangedBit[8]` (mqtt.h line 215), one bit per channel;
`none` for a write behind the array. -/
def notifyChange (bits : List Nat) (n : Int) : Option (List Nat) :=
  if 0 ≤ n ∧ n < 255 then
    if n.toNat / 8 < bits.length then some (bits.modify (n.toNat / 8) (· ||| 2 ^ (n.toNat % 8))) else none
  else some bits

/-- /repo/extras/porting/esp-idf/esp_mqtt.cpp lines 343-347 and 292-301, from channel `i` on: the setup of
every channel whose bit is set is published and the bit cleared; `count` channels are left. `none` for
an access behind the array. -/
def passLoop : Nat → Nat → List Nat → Option (List Nat × List Nat)
  | _, 0, bits => some ([], bits)
  | i, count + 1, bits =>
    match bits[i / 8]? with
    | none => none
    | some b =>
      if b.testBit (i % 8) then
        (passLoop (i + 1) count (bits.set (i / 8) (b ^^^ 2 ^ (i % 8)))).map (fun r => (i :: r.1, r.2))
      else passLoop (i + 1) count bits

/-- esp_mqtt.cpp lines 333-348: the channels published and the bits left. -/
def pass (bits : List Nat) (count : Nat) : Option (List Nat × List Nat) :=
  if bits.all (· == 0) then some ([], bits) else passLoop 0 count bits

end Verif.Mqtt
