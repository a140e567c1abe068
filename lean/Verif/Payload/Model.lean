import Verif.Tools.Number

/-!
# Relays of the Linux port that hand their state to a file, a command or a broker

Model of `CustomRelay` of `/repo/extras/porting/linux/supla/control/custom_relay.cpp` (cited as R), of its set-up in
`/repo/extras/porting/linux/linux_yaml_config.cpp` (Y), of the templates `payload/simple.cpp` (S) and `payload/json.cpp`
(J), and of the outputs `output/file.cpp` (F), `output/cmd.cpp` (C), `output/mqtt.cpp` (M) in
`/repo/extras/porting/linux/supla`.

Texts are lists of character codes and hold no NUL. Simplified: the settings are scalars (a null or a list is not
modelled); for the template `Simple` the value of `set_state` is taken to be a number, as its index is not used. A relay
with a parser shows what it parses (C107); here the state is the one the relay keeps itself.
-/

namespace Verif.Payload

open Verif.Tools (decimal decimalText)

/-- Character codes. -/
abbrev Text := List Nat

/-- The codes of a literal. -/
def str (s : String) : Text := s.toList.map Char.toNat

/-- `std::to_string(int)` (J 42, M 37) and the output of `%d` (C 34) and `<<` (F 40). -/
def intText (n : Int) : Text := if n < 0 then 45 :: decimalText n.natAbs else decimalText n.natAbs

/-- `isspace` as `strtol` uses it. -/
def isSpace (c : Nat) : Bool := c == 32 || (decide (9 ≤ c) && decide (c ≤ 13))

/-- A decimal digit. -/
def isDigit (c : Nat) : Bool := decide (48 ≤ c) && decide (c ≤ 57)

/-- What `std::stoi` does: throws `invalid_argument`, throws `out_of_range`, or returns a number. -/
inductive Stoi
  | invalid
  | range
  | val (n : Int)
deriving DecidableEq, Repr

/-- The optional sign in front of a number. -/
def sign : Text → Bool × Text
  | [] => (false, [])
  | c :: r => if c = 45 then (true, r) else if c = 43 then (false, r) else (false, c :: r)

/-- The number found, in the range of `int` or not. -/
def ranged (n : Int) : Stoi := if -2147483648 ≤ n ∧ n < 2147483648 then .val n else .range

/-- `std::stoi` (Y 1829, 1852): blanks, a sign, digits; what follows is ignored. -/
def stoi (t : Text) : Stoi :=
  if ((sign (t.dropWhile isSpace)).2.takeWhile isDigit) = [] then .invalid
  else if (sign (t.dropWhile isSpace)).1 then ranged (-(decimal ((sign (t.dropWhile isSpace)).2.takeWhile isDigit) : Int))
  else ranged (decimal ((sign (t.dropWhile isSpace)).2.takeWhile isDigit) : Int)

/-- `std::variant<int, bool, std::string>` (`control_payload.h` 46-47). -/
inductive V
  | num (n : Int)
  | bool (b : Bool)
  | text (t : Text)
deriving DecidableEq, Repr

/-- A setting as a value (Y 1826-1838, 1849-1861); `none`: `out_of_range` is thrown, which nothing catches (Y 494 and
`/repo/extras/examples/linux/main.cpp` 203 catch other exceptions), and the program ends. -/
def parsed (t : Text) : Option V :=
  match stoi t with
  | .val n => some (.num n)
  | .range => none
  | .invalid => some (if t = str "true" then .bool true else if t = str "false" then .bool false else .text t)

/-- The template. -/
inductive Template
  | simple
  | json
deriving DecidableEq, Repr

/-- The output; `cmd` with its command line, `mqtt` with the setting `qos`. -/
inductive Output
  | file
  | cmd (line : Text)
  | mqtt (qos : Nat)
deriving DecidableEq, Repr

/-- The settings of the channel; `none` is a setting that is not there. -/
structure Cfg where
  template : Option Template
  output : Output
  setState : Option Text
  on : Option Text
  off : Option Text
deriving DecidableEq, Repr

/-- The relay made: `payload`, `parameter2Key["set_state"]`, `setOnValue`, `setOffValue`. -/
structure Relay where
  template : Option Template
  output : Output
  key : Text
  on : V
  off : V
deriving DecidableEq, Repr

/-- Loading the settings. -/
inductive Load
  | relay (r : Relay)
  | rejected
  | ended
deriving DecidableEq, Repr

/-- The value of one setting: as it is where `set_state` is missing (Y 760-769), parsed otherwise; a variant that was
never set holds the number 0. -/
def given (state : Bool) : Option Text → Option V
  | none => some (.num 0)
  | some t => if state then parsed t else some (.text t)

/-- `addCustomRelay` and `addStatePayload` (Y 736-784, 1802-1875) for what is sent. The key of `Simple` is not used. -/
def load (c : Cfg) : Load :=
  if c.template = none ∧ c.setState ≠ none then .rejected
  else match given c.setState.isSome c.on, given c.setState.isSome c.off with
    | some a, some b => .relay ⟨c.template, c.output, c.setState.getD [], a, b⟩
    | _, _ => .ended

/-- The argument of `putContent`. -/
inductive Content
  | int (n : Int)
  | text (t : Text)
deriving DecidableEq, Repr

/-- The member of a JSON object (J 41-47, 58-64). -/
def jsonValue : V → Text
  | .num n => intText n
  | .bool b => if b then str "true" else str "false"
  | .text t => [34] ++ t ++ [34]

/-- `Simple::turnOn`, `turnOff` (S 31-58) and `Json::turnOn`, `turnOff` (J 35-68). -/
def content (tp : Template) (key : Text) (v : V) : Content :=
  match tp with
  | .simple => (match v with | .num n => .int n | .bool b => .int (if b then 1 else 0) | .text t => .text t)
  | .json => .text ([123, 34] ++ key ++ [34, 58, 32] ++ jsonValue v ++ [125])

/-- The characters of a content. -/
def chars : Content → Text
  | .int n => intText n
  | .text t => t

/-- One conversion of `snprintf`: `%d` takes an `int`, `%s` a text, once; anything else is `none`: undefined behaviour,
or a conversion that is not modelled. -/
def conv (c : Content) (used : Bool) (k : Nat) : Option Text :=
  if used then none
  else match c with
    | .int n => if k = 100 then some (intText n) else none
    | .text t => if k = 115 then some t else none

/-- `snprintf` with the command line as the format (C 34, 67) before the cut. -/
def fmt (c : Content) : Bool → Text → Option Text
  | _, [] => some []
  | _, [x] => if x = 37 then none else some [x]
  | u, x :: y :: r =>
    if x = 37 then
      if y = 37 then (fmt c u r).map (fun a => 37 :: a)
      else (conv c u y).bind (fun z => (fmt c true r).map (fun a => z ++ a))
    else (fmt c u (y :: r)).map (fun a => x :: a)

/-- What happens outside. -/
inductive Eff
  /-- the file now holds this text -/
  | file (t : Text)
  /-- this command is run -/
  | run (t : Text)
  /-- this is published with these flags -/
  | publish (flags : Nat) (t : Text)
  /-- nothing -/
  | lost
deriving DecidableEq, Repr

/-- `putContent` (F 34-44, 64-74; C 31-45, 64-78; M 35-63; `linux_mqtt_client.cpp` 117-132). `ok`: the file can be opened, the command
started, the broker is connected. The buffer of a command has 256 characters. `none`: undefined behaviour. -/
def put (o : Output) (ok : Bool) (c : Content) : Option Eff :=
  match o with
  | .file => some (if ok then .file (chars c) else .lost)
  | .cmd line => if line = [] then some .lost else (fmt c false line).map (fun a => if ok then .run (a.take 255) else .lost)
  | .mqtt q => some (if ok then .publish q (chars c) else .lost)

/-- `turnOn`, `turnOff` (R 42-54): `payload->` without a test. -/
def send (r : Relay) (ok on : Bool) : Option Eff :=
  match r.template with
  | none => none
  | some tp => put r.output ok (content tp r.key (if on then r.on else r.off))

/-- What happens to the relay. At a start `VirtualRelay::onInit` (`/repo/src/supla/control/virtual_relay.cpp` 27-35)
switches it to the initial state. -/
inductive Op
  | start (on ok : Bool)
  | set (on ok : Bool)
deriving DecidableEq, Repr

/-- Whether the output can be reached at a start: the client of the broker is started after the channels
(`/repo/extras/examples/linux/main.cpp` 187-194; `linux_mqtt_client.cpp` 120-123). -/
def reachable (o : Output) (ok : Bool) : Bool :=
  match o with
  | .mqtt _ => false
  | _ => ok

/-- The relay as shown, and the last thing that happened outside because of it. -/
structure S where
  shown : Bool := false
  last : Eff := .lost
deriving DecidableEq, Repr

/-- Keeps the last effect that was not lost. -/
def note (old new : Eff) : Eff := if new = .lost then old else new

/-- One operation; `none` is undefined behaviour. -/
def step (r : Relay) (s : S) : Op → Option S
  | .start on ok => (send r (reachable r.output ok) on).map (fun e => ⟨on, note s.last e⟩)
  | .set on ok => (send r ok on).map (fun e => ⟨on, note s.last e⟩)

/-- A history. -/
def run (r : Relay) : S → List Op → Option S
  | s, [] => some s
  | s, o :: os => (step r s o).bind (fun s' => run r s' os)

end Verif.Payload
