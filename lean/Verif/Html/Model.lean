import Verif.Web.Props
import Verif.Mqtt.Model

/-!
# The configuration page

Models the part of the configuration page with the network, protocol and update server settings, and the
handlers of the fields that come back from it.

Cited as S: `/repo/src/supla/network/web_sender.cpp`; W: `/repo/src/supla/network/html/wifi_parameters.cpp`;
P: `/repo/src/supla/network/html/protocol_parameters.cpp`;
U: `/repo/src/supla/network/html/custom_sw_update.cpp`; G: `/repo/src/supla/network/html_generator.cpp`;
C: `/repo/src/supla/storage/config.cpp`.

Not modelled: the static head of the page (styles, logo, script at its end), the device information above
the form, and the other elements of the form, each of which has its own keys.
-/

namespace Verif.Html
open Verif.Tools Verif.Mqtt

/-! ## Sending text -/

/-- What is sent for a special character, S lines 79-95. -/
def entity (c : Nat) : List Nat :=
  if c = 39 then txt "&apos;"
  else if c = 34 then txt "&quot;"
  else if c = 60 then txt "&lt;"
  else if c = 62 then txt "&gt;"
  else txt "&amp;"

/-- The test of S lines 73-74. -/
def special (c : Nat) : Bool := c == 39 || c == 34 || c == 60 || c == 62 || c == 38

/-- `sendSafe`, S lines 67-103: the list of calls of `send`. `part` are the last `partSize` characters
before the current one. -/
def safeLoop : List Nat → List Nat → List (List Nat)
  | part, [] => if part.length > 0 then [part] else []
  | part, c :: s =>
    if special c then (if part.length > 0 then [part] else []) ++ entity c :: safeLoop [] s
    else safeLoop (part ++ [c]) s

/-- `sendSafe` of a text, S lines 67-71: at most 8000 characters. -/
def sendSafe (s : List Nat) : List (List Nat) := safeLoop [] (s.take 8000)

/-- What arrives at the other side. -/
def safe (s : List Nat) : List Nat := (sendSafe s).flatten

/-- `sendNameAndId`, S lines 53-58: `snprintf` into 100 bytes. -/
def nameAndId (id : List Nat) : List Nat := (txt " name=\"" ++ id ++ txt "\" id=\"" ++ id ++ txt "\" ").take 99

/-- `sendLabelFor`, S lines 60-65: `snprintf` into 300 bytes. -/
def labelFor (id label : List Nat) : List Nat :=
  (txt "<label for=\"" ++ id ++ txt "\">" ++ label ++ txt "</label>").take 299

/-- `HtmlElement::selected`, `/repo/src/supla/network/html_element.cpp` lines 63-65. -/
def selected (b : Bool) : List Nat := if b then txt " selected" else []

/-- `HtmlElement::checked`, `/repo/src/supla/network/html_element.cpp` lines 67-69. -/
def checked (b : Bool) : List Nat := if b then txt " checked" else []

/-- `send(int)`, S lines 28-32, for a number that is not negative. -/
def number (n : Nat) : List Nat := decimalText n

/-! ## The stored configuration -/

/-- The settings in the configuration storage. A text that was never stored is `none`. The switches are
what their getters return for what is stored, including the default (C lines 67-112); `sec` is the stored
`security_level` or 0, `wifiOff` the stored Wi-Fi disable flag or 0. -/
structure Cfg where
  ssid : Option (List Nat)
  wpw : Option (List Nat)
  server : Option (List Nat)
  email : Option (List Nat)
  ca : Option (List Nat)
  mserver : Option (List Nat)
  muser : Option (List Nat)
  mpasswd : Option (List Nat)
  mprefix : Option (List Nat)
  url : Option (List Nat)
  sec : Nat
  wifiOff : Nat
  supla : Bool
  mqtt : Bool
  tls : Bool
  auth : Bool
  retain : Bool
  port : Option Nat
  qos : Option Nat
deriving DecidableEq, Repr

/-- `getMqttServerPort`, C lines 164-175; a stored negative number is like 0. -/
def Cfg.portOf (c : Cfg) : Nat :=
  if c.port.getD 0 = 0 ∨ c.port.getD 0 > 65536 then (if c.tls then 8883 else 1883) else c.port.getD 0

/-- `getMqttQos`, C lines 185-192; a stored negative number is like 0. -/
def Cfg.qosOf (c : Cfg) : Nat := c.qos.getD 0

/-- Which elements the program made: the Wi-Fi element and whether there is more than one interface
(W line 37); `addMqtt` and `concurrent` of the protocol element (P lines 32-37); the update server
element. -/
structure Opts where
  wifi : Bool
  many : Bool
  addMqtt : Bool
  concurrent : Bool
  update : Bool
deriving DecidableEq, Repr

/-! ## The page -/

/-- The beginning of a field. -/
def field : List Nat := txt "<div class=\"form-field\">"

/-- The Wi-Fi switch, W lines 42-57. -/
def wifiSwitch (on : Bool) : List Nat :=
  txt "<div class=\"form-field right-checkbox\">" ++ labelFor (txt "wifi_en") (txt "Enable Wi-Fi") ++ txt "<label>" ++
  txt "<span class=\"switch\">" ++ txt "<input type=\"checkbox\" value=\"on\" " ++ checked on ++
  nameAndId (txt "wifi_en") ++ txt ">" ++ txt "<span class=\"slider\"></span>" ++ txt "</span>" ++ txt "</label>" ++
  txt "</div>"

/-- The name of the network, W lines 62-72: sent as it is. -/
def ssidField (c : Cfg) : List Nat :=
  field ++ labelFor (txt "sid") (txt "Network name") ++ txt "<input " ++ nameAndId (txt "sid") ++
  (match c.ssid with | some v => txt "value=\"" ++ v | none => []) ++ txt "\">" ++ txt "</div>"

/-- The Wi-Fi password, W lines 76-82. -/
def passField : List Nat :=
  field ++ labelFor (txt "wpw") (txt "Password") ++ txt "<input type=\"password\" " ++ nameAndId (txt "wpw") ++ txt ">" ++
  txt "</div>"

/-- `WifiParameters::send`, W lines 34-85. -/
def wifiPart (o : Opts) (c : Cfg) : List Nat :=
  txt "<h3>Wi-Fi Settings</h3>" ++ (if o.many then wifiSwitch (c.wifiOff == 0) else []) ++ ssidField c ++ passField

/-- The choice of the protocol, P lines 45-68. -/
def selector (supla mqtt : Bool) : List Nat :=
  txt "<div class=\"box\">" ++ field ++ labelFor (txt "pro") (txt "Protocol") ++ txt "<div><select " ++ nameAndId (txt "pro") ++
  txt " onchange=\"protocolChanged();\"><option value=\"0\"" ++ selected supla ++ txt ">Supla</option><option value=\"1\"" ++
  selected mqtt ++ txt ">MQTT</option></select></div>" ++ txt "</div>" ++ txt "</div>"

/-- The switch of the Supla protocol, P lines 72-99. -/
def suplaSwitch (supla : Bool) : List Nat :=
  txt "<div class=\"box\">" ++ txt "<h3>Supla Settings</h3>" ++ field ++ labelFor (txt "protocol_supla") (txt "Supla protocol") ++
  txt "<div>" ++ txt "<select " ++ nameAndId (txt "protocol_supla") ++
  txt "onchange=\"protocolChanged();\"><option value=\"0\"" ++ selected (!supla) ++
  txt ">DISABLED</option><option value=\"1\"" ++ selected supla ++ txt ">ENABLED</option></select>" ++ txt "</div>" ++
  txt "</div>" ++ txt "<div id=\"proto_supla\">"

/-- The beginning of the box without that switch, P lines 101-105. -/
def suplaBox : List Nat := txt "<div class=\"box\" id=\"proto_supla\">" ++ txt "<h3>Supla Settings</h3>"

/-- A field with a text: everything before the value, the value, and the end; P lines 109-119, 123-133,
245-254, 321-331 and 345-355. The buffer is sent only if there is a stored text. -/
def textField (before : List Nat) (v : Option (List Nat)) : List Nat :=
  before ++ (match v with | some v => safe v | none => []) ++ txt "\">" ++ txt "</div>"

/-- P lines 109-114. -/
def serverBefore : List Nat :=
  field ++ labelFor (txt "svr") (txt "Server") ++ txt "<input " ++ nameAndId (txt "svr") ++ txt " maxlength=\"64\" value=\""

/-- P lines 123-128. -/
def emailBefore : List Nat :=
  field ++ labelFor (txt "eml") (txt "E-mail") ++ txt "<input " ++ nameAndId (txt "eml") ++ txt " maxlength=\"255\" value=\""

/-- P lines 136-143. -/
def secScript : List Nat :=
  txt "<script>function securityChange(){var e=document.getElementById(\"sec\"),c=document.getElementById(\"custom_ca_input\"),l=\"1\"==e.value?\"block\":\"none\";c.style.display=l;}</script>"

/-- The check of the certificate, P lines 146-180. -/
def secField (s0 s1 s2 : Bool) : List Nat :=
  field ++ labelFor (txt "sec") (txt "Certificate verification") ++ txt "<div>" ++ txt "<select " ++ nameAndId (txt "sec") ++
  txt " onchange=\"securityChange();\"><option value=\"0\"" ++ selected s0 ++ txt ">Supla CA</option><option value=\"1\"" ++
  selected s1 ++ txt ">Custom CA</option><option value=\"2\"" ++ selected s2 ++
  txt ">Skip certificate verification (INSECURE)</option>" ++ txt "</select>" ++ txt "</div>" ++ txt "</div>" ++
  txt "<div id=\"custom_ca_input\" style=\"display:" ++ (if s1 then txt "block" else txt "none") ++ txt "\">"

/-- P lines 183-188. -/
def caBefore : List Nat :=
  field ++ labelFor (txt "custom_ca") (txt "Custom CA (paste here CA certificate in PEM format)") ++ txt "<textarea " ++
  nameAndId (txt "custom_ca") ++ txt "maxlength=\"4000\">"

/-- The certificate, P lines 183-197; a stored text of 4000 bytes or more is not read
(`KeyValueElement::getString`, `/repo/src/supla/storage/key_value.cpp` lines 381-391, with the stored
terminator). -/
def caField (v : Option (List Nat)) : List Nat :=
  caBefore ++ (match v with | some v => (if v.length < 4000 then safe v else []) | none => []) ++ txt "</textarea>" ++
  txt "</div>" ++ txt "</div>"

/-- The beginning of the MQTT box with its switch, P lines 206-232. -/
def mqttSwitch (mqtt : Bool) : List Nat :=
  txt "<div class=\"box\">" ++ txt "<h3>MQTT Settings</h3>" ++ field ++ labelFor (txt "protocol_mqtt") (txt "MQTT protocol") ++
  txt "<div>" ++ txt "<select " ++ nameAndId (txt "protocol_mqtt") ++
  txt " onchange=\"protocolChanged();\"><option value=\"0\"" ++ selected (!mqtt) ++
  txt ">DISABLED</option><option value=\"1\"" ++ selected mqtt ++ txt ">ENABLED</option></select>" ++ txt "</div>" ++
  txt "</div>" ++ txt "<div class=\"mqtt\">"

/-- The beginning of the MQTT box without a switch, P lines 233-239. -/
def mqttBox : List Nat := txt "<div class=\"box mqtt\">" ++ txt "<h3>MQTT Settings</h3>"

/-- P lines 244-249. -/
def mserverBefore : List Nat :=
  field ++ labelFor (txt "mqttserver") (txt "Server") ++ txt "<input " ++ nameAndId (txt "mqttserver") ++
  txt " maxlength=\"64\" value=\""

/-- P lines 257-266. -/
def tlsScript : List Nat :=
  txt "<script>function mqttTlsChange(){var port=document.getElementById(\"mqttport\"),mqtt_tls=document.getElementById(\"mqtttls\");if(mqtt_tls.value==\"0\"){port.value=1883;}else{port.value=8883;}}</script>"

/-- P lines 269-286. -/
def tlsField (tls : Bool) : List Nat :=
  field ++ labelFor (txt "mqtttls") (txt "TLS") ++ txt "<div>" ++ txt "<select " ++ nameAndId (txt "mqtttls") ++
  txt " onchange=\"mqttTlsChange();\"><option value=\"0\" " ++ selected (!tls) ++ txt ">NO</option><option value=\"1\" " ++
  selected tls ++ txt ">YES</option></select>" ++ txt "</div>" ++ txt "</div>"

/-- P lines 289-294. -/
def portBefore : List Nat :=
  field ++ labelFor (txt "mqttport") (txt "Port") ++ txt "<input " ++ nameAndId (txt "mqttport") ++
  txt " min=\"1\" max=\"65535\" type=\"number\" value=\""

/-- P lines 301-318. -/
def authField (auth : Bool) : List Nat :=
  field ++ labelFor (txt "mqttauth") (txt "Auth") ++ txt "<div>" ++ txt "<select " ++ nameAndId (txt "mqttauth") ++
  txt "onchange=\"mAuthChanged();\"><option value=\"0\" " ++ selected (!auth) ++ txt ">NO</option><option value=\"1\" " ++
  selected auth ++ txt ">YES</option></select>" ++ txt "</div>" ++ txt "</div>"

/-- P lines 321-326. -/
def muserBefore : List Nat :=
  txt "<div class=\"form-field\" id=\"mauth_usr\">" ++ labelFor (txt "mqttuser") (txt "Username") ++ txt "<input " ++
  nameAndId (txt "mqttuser") ++ txt "maxlength=\"255\" value=\""

/-- P lines 335-341. -/
def mpasswdField : List Nat :=
  txt "<div class=\"form-field\" id=\"mauth_pwd\">" ++ labelFor (txt "mqttpasswd") (txt "Password (required, max 255)") ++
  txt "<input " ++ nameAndId (txt "mqttpasswd") ++ txt " maxlength=\"255\">" ++ txt "</div>"

/-- P lines 345-350. -/
def mprefixBefore : List Nat :=
  field ++ labelFor (txt "mqttprefix") (txt "Topic prefix") ++ txt "<input " ++ nameAndId (txt "mqttprefix") ++
  txt " maxlength=\"48\" value=\""

/-- P lines 359-365. -/
def qosBefore : List Nat :=
  field ++ labelFor (txt "mqttqos") (txt "QoS") ++ txt "<input " ++ nameAndId (txt "mqttqos") ++
  txt " min=\"0\" max=\"2\" type=\"number\" value=\""

/-- P lines 371-389. -/
def retainField (retain : Bool) : List Nat :=
  field ++ labelFor (txt "mqttretain") (txt "Retain") ++ txt "<div>" ++ txt "<select " ++ nameAndId (txt "mqttretain") ++
  txt "><option value=\"0\" " ++ selected (!retain) ++ txt ">NO</option><option value=\"1\" " ++ selected retain ++
  txt ">YES</option></select>" ++ txt "</div>" ++ txt "</div>"

/-- A field with a number, P lines 289-298 and 359-368. -/
def numField (before : List Nat) (n : Nat) : List Nat := before ++ number n ++ txt "\">" ++ txt "</div>"

/-- The MQTT box, P lines 204-396. -/
def mqttPart (o : Opts) (c : Cfg) : List Nat :=
  (if o.concurrent then mqttSwitch c.mqtt else mqttBox) ++ (textField mserverBefore c.mserver ++ (tlsScript ++ (tlsField c.tls ++
  (numField portBefore c.portOf ++ (authField c.auth ++ (textField muserBefore c.muser ++ (mpasswdField ++
  (textField mprefixBefore c.mprefix ++ (numField qosBefore c.qosOf ++ (retainField c.retain ++
  (txt "</div>" ++ (if o.concurrent then txt "</div>" else []))))))))))))

/-- `ProtocolParameters::send`, P lines 42-398. -/
def protocolPart (o : Opts) (c : Cfg) : List Nat :=
  (if !o.concurrent && o.addMqtt then selector c.supla c.mqtt else []) ++
  ((if o.concurrent then suplaSwitch c.supla else suplaBox) ++ (textField serverBefore c.server ++ (textField emailBefore c.email ++
  (secScript ++ (secField (c.sec == 0) (c.sec == 1) (c.sec == 2) ++ (caField c.ca ++ (txt "</div>" ++
  ((if o.concurrent then txt "</div>" else []) ++ (if o.addMqtt then mqttPart o c else [])))))))))

/-- `CustomSwUpdate::send`, U lines 38-58: sent as it is. -/
def urlField (c : Cfg) : List Nat :=
  field ++ labelFor (txt "swupdateurl") (txt "Update server address") ++ txt "<input " ++ nameAndId (txt "swupdateurl") ++
  (match c.url with | some v => txt " value=\"" ++ v | none => []) ++ txt "\">" ++ txt "</div>"

/-- The buttons, G lines 331-338. -/
def submitButton : List Nat :=
  txt "<button type=\"submit\">SAVE</button><button type=\"button\" onclick=\"saveAndReboot();\">SAVE &amp; RESTART</button><input type=\"hidden\" name=\"rbt\" value=\"0\">"

/-- `sendForm`, G lines 278-310. -/
def page (o : Opts) (c : Cfg) : List Nat :=
  txt "<form id=\"cfgform\" method=\"post\">" ++ (txt "<div class=\"box\">" ++ ((if o.wifi then wifiPart o c else []) ++ (txt "</div>" ++
  (protocolPart o c ++ (txt "<div class=\"box\">" ++ (txt "<h3>Additional Settings</h3>" ++
  ((if o.update then urlField c else []) ++ (txt "</div>" ++ (submitButton ++ txt "</form>")))))))))

/-! ## The handlers -/

/-- The keys the handlers know. -/
inductive Key
  | sid | wpw | wifi_en | pro | protocol_supla | protocol_mqtt | svr | eml | sec | custom_ca | mqttserver | mqttport
  | mqtttls | mqttauth | mqttuser | mqttpasswd | mqttprefix | mqttqos | mqttretain | swupdateurl
deriving DecidableEq, Repr

/-- The `strcmp` chains, W lines 89-101, P lines 401-493, U lines 62-67. -/
def keys : List (List Nat × Key) :=
  [(txt "sid", .sid), (txt "wpw", .wpw), (txt "wifi_en", .wifi_en), (txt "pro", .pro), (txt "protocol_supla", .protocol_supla),
   (txt "protocol_mqtt", .protocol_mqtt), (txt "svr", .svr), (txt "eml", .eml), (txt "sec", .sec), (txt "custom_ca", .custom_ca),
   (txt "mqttserver", .mqttserver), (txt "mqttport", .mqttport), (txt "mqtttls", .mqtttls), (txt "mqttauth", .mqttauth),
   (txt "mqttuser", .mqttuser), (txt "mqttpasswd", .mqttpasswd), (txt "mqttprefix", .mqttprefix), (txt "mqttqos", .mqttqos),
   (txt "mqttretain", .mqttretain), (txt "swupdateurl", .swupdateurl)]

/-- The key a handler takes. -/
def keyOf (k : List Nat) : Option Key := keys.lookup k

/-- The setters of texts, C lines 194-287: a text that is too long is not stored. -/
def setText (max : Nat) (v : List Nat) (old : Option (List Nat)) : Option (List Nat) := if v.length > max then old else some v

/-- `setMqttServerPort`, C lines 269-274. The argument is `stringToUInt` as `int`. -/
def setPort (n : Nat) : Option Nat := some (if n = 0 ∨ n > 65536 then 1883 else n)

/-- `setMqttQos`, C lines 290-297. A number of 2^31 or more is negative as `int`. -/
def setQos (n : Nat) : Option Nat := some (if n ≥ 2 ^ 31 then 0 else if n > 2 then 2 else n)

/-- `stringToUInt(value)` as `uint8_t`, at most 2, P lines 431-437. -/
def setSec (v : List Nat) : Nat := if stringToUInt v % 256 > 2 then 0 else stringToUInt v % 256

/-- `enabled == 1`, P lines 419-425, 448-457, 482-486. -/
def isOne (v : List Nat) : Bool := stringToUInt v == 1

/-- The handlers of the elements that exist, W lines 87-105, P lines 400-496, U lines 60-69; the Boolean is
`checkboxFound` of the Wi-Fi element. -/
def handle (o : Opts) (st : Cfg × Bool) (k v : List Nat) : Cfg × Bool :=
  match keyOf k with
  | some .sid => if o.wifi then ({ st.1 with ssid := setText 32 v st.1.ssid }, st.2) else st
  | some .wpw => if o.wifi then (if v.length > 0 then ({ st.1 with wpw := setText 63 v st.1.wpw }, st.2) else st) else st
  | some .wifi_en => if o.wifi then ({ st.1 with wifiOff := if v = txt "on" then 0 else 1 }, true) else st
  | some .pro => if stringToUInt v = 1 then ({ st.1 with supla := false, mqtt := true }, st.2) else ({ st.1 with supla := true, mqtt := false }, st.2)
  | some .protocol_supla => ({ st.1 with supla := isOne v }, st.2)
  | some .protocol_mqtt => ({ st.1 with mqtt := isOne v }, st.2)
  | some .svr => ({ st.1 with server := setText 64 v st.1.server }, st.2)
  | some .eml => ({ st.1 with email := setText 255 v st.1.email }, st.2)
  | some .sec => ({ st.1 with sec := setSec v }, st.2)
  | some .custom_ca => ({ st.1 with ca := some v }, st.2)
  | some .mqttserver => ({ st.1 with mserver := setText 64 v st.1.mserver }, st.2)
  | some .mqttport => ({ st.1 with port := setPort (stringToUInt v) }, st.2)
  | some .mqtttls => ({ st.1 with tls := isOne v }, st.2)
  | some .mqttauth => ({ st.1 with auth := isOne v }, st.2)
  | some .mqttuser => ({ st.1 with muser := setText 255 v st.1.muser }, st.2)
  | some .mqttpasswd => if v.length > 0 then ({ st.1 with mpasswd := setText 255 v st.1.mpasswd }, st.2) else st
  | some .mqttprefix => ({ st.1 with mprefix := setText 48 v st.1.mprefix }, st.2)
  | some .mqttqos => ({ st.1 with qos := setQos (stringToUInt v) }, st.2)
  | some .mqttretain => ({ st.1 with retain := isOne v }, st.2)
  | some .swupdateurl => if o.update then (if v.length > 0 then ({ st.1 with url := setText 201 v st.1.url }, st.2) else st) else st
  | none => st

/-- `onProcessingEnd` of the Wi-Fi element, W lines 107-114. -/
def finish (o : Opts) (st : Cfg × Bool) : Cfg × Bool :=
  if o.wifi && o.many && !st.2 then ({ st.1 with wifiOff := 1 }, false) else (st.1, false)

/-- What the handlers do with what the parser (`Verif.Web`) gives them. -/
def onEvent (o : Opts) (st : Cfg × Bool) : Web.Event → Cfg × Bool
  | .field k v => handle o st (cstr k) (cstr v)
  | .finish => finish o st

/-- A whole form handled. -/
def store (o : Opts) (c : Cfg) (es : List Web.Event) : Cfg := (es.foldl (onEvent o) (c, false)).1

end Verif.Html
