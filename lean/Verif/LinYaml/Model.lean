import Verif.Channel.Registry

/-! # Configuration file of the Linux port

`/repo/extras/porting/linux/linux_yaml_config.cpp` (Y), `/repo/extras/porting/linux/linux_mqtt_client.cpp` (M). The parsed
file is taken as a tree (yaml-cpp is not in the repository); a value that cannot be converted throws, which the callers
catch. -/

namespace Verif.LinYaml

/-- A value of the file. Scalars are given by what they convert to. -/
inductive Y where
  | num (n : Int)
  | bool (b : Bool)
  | text (t : List Nat)
  | map (l : List (String × Y))

/-- `node["key"]`. -/
def field (y : Y) (k : String) : Option Y :=
  match y with
  | .map l => (l.find? (·.1 = k)).map Prod.snd
  | _ => none

/-- `node["a"]["b"]` with the test of both. -/
def field2 (y : Y) (a b : String) : Option Y := (field y a).bind (field · b)

/-! ## Single values -/

/-- `getSuplaServerPort` (Y 300-310). -/
def suplaPort (c : Y) : Int :=
  match field c "port" with
  | some (.num n) => n
  | _ => 2016

/-- `getMqttPort` (Y 381-391). -/
def mqttPort (c : Y) : Int :=
  match field2 c "mqtt" "port" with
  | some (.num n) => n
  | _ => if (field2 c "mqtt" "use_ssl").isSome then 8883 else 1883

/-- `getMqttUseSSL` (Y 435-445). -/
def mqttUseSSL (c : Y) : Bool :=
  match field2 c "mqtt" "use_ssl" with
  | some (.bool b) => b
  | _ => false

/-- `getUInt8` (Y 217-229): the file first, then the stored values. -/
def getUInt8 (c : Y) (stored : String → Option Nat) (k : String) : Option Nat :=
  match field c k with
  | none => stored k
  | some (.num n) => if 0 ≤ n ∧ n < 2 ^ 32 then some (n.toNat % 256) else none
  | some _ => none

/-- Writing a text of the `mqtt` section to the buffer of 256 bytes (Y 367-379, 393-433, 459-471; M 39-52): `none` if bytes
are written outside the buffer, otherwise the text read from it.
Simplified: without `client_name` the name of the host is taken (M 41-46). -/
def mqttText (c : Y) (k : String) : Option (List Nat) :=
  match field2 c "mqtt" k with
  | some (.text t) => if t.length < 256 then some t else none
  | _ => some []

/-! ## Named sources, parsers, outputs and payloads -/

/-- `sourceNames`, `sources`, `sourceCount` (and the same for the other three). -/
structure Names where
  names : String → Option Nat := fun _ => none
  objs : Nat → Option Nat := fun _ => none
  count : Nat := 0

/-- A section of a channel: a new object, possibly named, or the use of a named one. -/
inductive Sect where
  | make (name : Option String) (obj : Nat)
  | use (name : String)

/-- `addSource` etc. with `use` (Y 1295-1311, 1402-1418): the object. -/
def resolve (s : Names) (name : String) : Option Nat := (s.names name).bind s.objs

/-- `addParser`, `addPayload`, `addSource`, `addOutput` (Y 1293-1520) and the additional `parserCount++`, `payloadCount++`
of `parseChannel` (Y 526, 543): `extra` is 1 for parsers and payloads, 0 for sources and outputs. -/
def section' (extra : Nat) (s : Names) : Sect → Names
  | .make name o => { names := fun x => if name = some x then some s.count else s.names x, objs := fun i => if i = s.count then some o else s.objs i, count := s.count + 1 + extra }
  | .use _ => { s with count := s.count + extra }

/-- The sections of all channels in order. -/
def sections (extra : Nat) (l : List Sect) : Names := l.foldl (section' extra) {}

/-! ## Channel numbers -/

open Channel (ROp Reg)

/-- A channel of the file: action trigger or not, and `channel_number`. -/
structure Entry where
  trigger : Bool := false
  num : Option Int := none
deriving DecidableEq, Repr

/-- What is done for channel `i` of the file: it is created with the next free number (all types), then `channel_number` is
set (`addCommonParameters`, `addCommonParametersParsed`, Y 2046-2056, 2081-2091); not for action triggers (Y 1926-1939). -/
def entryOps (i : Nat) (e : Entry) : List ROp :=
  .create (-1) :: (match e.num with
    | some n => if e.trigger then [] else [.renumber i n]
    | none => [])

/-- `loadChannels` (Y 473-498), from channel `i`. -/
def opsFrom : Nat → List Entry → List ROp
  | _, [] => []
  | i, e :: es => entryOps i e ++ opsFrom (i + 1) es

/-- The channels after loading. -/
def loaded (l : List Entry) : Reg := Channel.rrun {} (opsFrom 0 l)

/-- Number of channel `i` of the file. -/
def number (l : List Entry) (i : Nat) : Option Int := Channel.numOf (loaded l).chans i

end Verif.LinYaml
