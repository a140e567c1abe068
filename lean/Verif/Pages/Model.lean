import Verif.Tools.Model

/-!
# Posts to the two pages of the set-up

Model of how a posted form is given to the page elements: `EspWebServer::handlePost`
(`/repo/src/supla/network/esp_web_server.cpp` 108-156, cited as E), the same loop in `WebServer::parsePost`
(`/repo/src/supla/network/web_server.cpp` 205-237, W) and, for a request that breaks off, `EspIdfWebServer::handlePost`
(`/repo/extras/porting/esp-idf/esp_idf_web_server.cpp` 126-174, I). The elements are those of
`/repo/src/supla/network/html`: `custom_checkbox_parameter.cpp` (B), `ethernet_parameters.cpp` (N), `wifi_parameters.cpp`
(F), `select_input_parameter.cpp` (L) with `em_ct_type.cpp` and `home_screen_content.cpp`, `text_cmd_input_parameter.cpp`
(T), `custom_text_parameter.cpp` (P), `sw_update_beta.cpp` (U).

Names and values are lists of character codes without NUL. Simplified: flags of an element are kept under its tag, so two
elements with the same tag are not modelled; the network name and password are stored under the names of their fields, the
two settings of an update as one number under `updbeta`; the values of a choice fit the stored type.
-/

namespace Verif.Pages

/-- Character codes. -/
abbrev Text := List Nat

/-- The codes of a literal. -/
def str (s : String) : Text := s.toList.map Char.toNat

/-- A stored value. -/
inductive V
  | num (n : Int)
  | text (t : Text)
deriving DecidableEq, Repr

/-- The sections (`html_element.h` 26-32). -/
inductive Section
  | form
  | info
  | network
  | protocol
  | beta
deriving DecidableEq, Repr

/-- What a choice does with a change at the end of a post: nothing (L 214-216), noting it and forgetting it
(`em_ct_type.cpp` 49-60), noting it (`home_screen_content.cpp` 62-71). -/
inductive Notes
  | never
  | once
  | home
deriving DecidableEq, Repr

/-- The elements of a page. -/
inductive Kind
  /-- `CustomCheckboxParameter` with its tag -/
  | box (tag : Text)
  /-- `EthernetParameters` -/
  | eth
  /-- `WifiParameters`; whether the device has several network interfaces -/
  | wifi (many : Bool)
  /-- `SelectInputParameter` with its names and values -/
  | choice (tag : Text) (vals : List (Text × Int)) (notes : Notes)
  /-- `TextCmdInputParameter`, `SelectCmdInputParameter` with the commands and their events -/
  | command (tag : Text) (cmds : List (Text × Nat))
  /-- `CustomTextParameter` with the greatest length -/
  | text (tag : Text) (max : Nat)
  /-- `SwUpdateBeta` -/
  | updates
deriving DecidableEq, Repr

/-- The section of an element (B 34, N 28, F 30, L 40-45, T 43, P 36, U 32). -/
def secOf : Kind → Section
  | .eth => .network
  | .wifi _ => .network
  | .updates => .beta
  | _ => .form

/-- The device: what is stored, `checkboxFound` and `configChanged` of the elements, the events run, how often a change
was noted for the server. -/
structure M where
  store : Text → Option V
  found : Text → Bool
  changed : Text → Bool
  log : List Nat
  noted : Nat

/-- A setting is stored. -/
def put (m : M) (k : Text) (v : V) : M := { m with store := fun x => if x = k then some v else m.store x }

/-- `checkboxFound`. -/
def setFound (m : M) (k : Text) (b : Bool) : M := { m with found := fun x => if x = k then b else m.found x }

/-- `configChanged`. -/
def setChanged (m : M) (k : Text) (b : Bool) : M := { m with changed := fun x => if x = k then b else m.changed x }

/-- `strncmp(value, "on", 3) == 0`. -/
def isOn (v : Text) : Bool := v = str "on"

/-- `getInt8`, `getInt32` with 0 where nothing is stored (L 161-172). -/
def number (m : M) (k : Text) : Int :=
  match m.store k with
  | some (.num n) => n
  | _ => 0

/-- The first pair with the name (L 156-189, T 87-94). -/
def first {α : Type} : List (Text × α) → Text → Option α
  | [], _ => none
  | p :: r, v => if p.1 = v then some p.2 else first r v

/-- `handleResponse`; `none` is the result false. B 103-114; N 58-68; F 87-105; L 153-192; T 85-97; P 90-96, 108-118;
U 74-99. Names of networks and passwords that are too long are not stored (`/repo/src/supla/storage/config.cpp`, C78). -/
def handle (m : M) : Kind → Text → Text → Option M
  | .box t, k, v => if k = t then some (put (setFound m t true) t (.num (if isOn v then 1 else 0))) else none
  | .eth, k, v => if k = str "eth_en" then some (put (setFound m (str "eth_en") true) (str "eth_dis") (.num (if isOn v then 0 else 1))) else none
  | .wifi _, k, v =>
    if k = str "sid" then some (if v.length > 32 then m else put m (str "sid") (.text v))
    else if k = str "wpw" then some (if v.length = 0 ∨ v.length > 63 then m else put m (str "wpw") (.text v))
    else if k = str "wifi_en" then some (put (setFound m (str "wifi_en") true) (str "wifi_dis") (.num (if isOn v then 0 else 1)))
    else none
  | .choice t vals _, k, v =>
    if k = t then (first vals v).map (fun n => if number m t = n then m else setChanged (put m t (.num n)) t true) else none
  | .command t cmds, k, v => if k = t then (first cmds v).map (fun e => { m with log := m.log ++ [e] }) else none
  | .text t max, k, v => if k = t then some (if v.length > max then m else put m t (.text v)) else none
  | .updates, k, v =>
    if k = str "updbeta" then some (put m (str "updbeta") (.num (if Tools.stringToUInt v = 1 then 1 else if Tools.stringToUInt v = 2 then 2 else 0))) else none

/-- `excludeSection` (E 110-113, W 253, 257). -/
def excluded (beta : Bool) : Section := if beta then .form else .beta

/-- A field is offered to the elements until one takes it (E 120-128, W 205-212). -/
def offer (ex : Section) (k v : Text) : List Kind → M → M
  | [], m => m
  | e :: es, m =>
    if secOf e = ex then offer ex k v es m
    else match handle m e k v with
      | some m' => m'
      | none => offer ex k v es m

/-- `onProcessingEnd`: B 116-123; N 70-77; F 107-114; L 214-216 and the two kinds of choice. The others have none. -/
def finishOne (m : M) : Kind → M
  | .box t => setFound (if m.found t then m else put m t (.num 0)) t false
  | .eth => setFound (if m.found (str "eth_en") then m else put m (str "eth_dis") (.num 1)) (str "eth_en") false
  | .wifi many =>
    setFound (if !m.found (str "wifi_en") && many then put m (str "wifi_dis") (.num 1) else m) (str "wifi_en") false
  | .choice t _ .never => setChanged m t false
  | .choice t _ .once => setChanged (if m.changed t then { m with noted := m.noted + 1 } else m) t false
  | .choice t _ .home => if m.changed t then { m with noted := m.noted + 1 } else m
  | _ => m

/-- The end of a post (E 141-146, W 232-237). -/
def finish (ex : Section) : List Kind → M → M
  | [], m => m
  | e :: es, m => finish ex es (if secOf e = ex then m else finishOne m e)

/-- A post: to the page `/beta` or not, broken off before its end (I 162-168) or complete, with its fields. -/
structure Post where
  beta : Bool
  cut : Bool
  fields : List (Text × Text)
deriving DecidableEq, Repr

/-- The fields of a post. -/
def offers (ks : List Kind) (ex : Section) : List (Text × Text) → M → M
  | [], m => m
  | p :: r, m => offers ks ex r (offer ex p.1 p.2 ks m)

/-- A post to a device with these elements. -/
def post (ks : List Kind) (m : M) (p : Post) : M :=
  if p.cut then offers ks (excluded p.beta) p.fields m
  else finish (excluded p.beta) ks (offers ks (excluded p.beta) p.fields m)

/-- A history of posts. -/
def posts (ks : List Kind) : M → List Post → M
  | m, [] => m
  | m, p :: r => posts ks (post ks m p) r

/-- The buffer `setTag` makes (B 39-54, L 50-68): `strncpy` of one octet more than the size, which is at most 15. -/
def tagBuffer (t : Text) : List Nat :=
  ((t ++ List.replicate (min t.length 15 + 1) 0).take (min t.length 15 + 1))

end Verif.Pages
