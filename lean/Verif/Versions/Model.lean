/-
The version of the protocol a device speaks, and which calls it may use with it.

Code modelled (V: `src/supla-common/srpc.c`, H: `src/supla-common/proto.h`, O: `src/supla-common/proto.c`,
S: `src/supla/protocol/supla_srpc.cpp`, D: `src/SuplaDevice.cpp`):
`srpc_call_min_version_required` (V 1694-1851), `srpc_call_allowed` (V 1853-1862), the check at the head of
`srpc_async__call` (V 1875-1883) and of `srpc_ds_async_registerdevice_in_chunks` and `_g` (V 2180-2189, 2237-2246),
`sproto_set_version` (O 329-336), `sproto_sdp_init` as far as it concerns the version (O 353), the constructor and
`setVersion` of `SuplaSrpc` (S 49-51, 950-952), `initializeSrpc` (S 1476-1493), the choice of the call for the
registration (S 838-857), `onVersionError` (S 526-538), and of `SuplaDeviceClass::begin` lines D 149-172.

Simplifications: a call that passes the check is put on the wire (the queue of `srpc_out_queue_push` and the size check of
`sproto_set_data` are the subject of other modules); calls are only made while a connection is open; names of calls are
replaced by their numbers (H 182-301); the mutex and the callbacks `on_min_version_required`, `before_async_call` (never
set by the device, S 1482-1487) are left out.
-/
namespace Verif.Versions

/-- `srpc_call_min_version_required` (V 1694-1851), case for case, with the numbers of H 182-301. -/
def minVersion (id : Nat) : Nat :=
  if id ∈ [10, 20, 30, 40, 50, 60, 70, 80, 90, 100, 110, 120, 130, 140, 160, 170, 180, 190, 200] then 1
  else if id ∈ [65, 210, 220] then 2
  else if id ∈ [205] then 3
  else if id ∈ [300, 310] then 5
  else if id ∈ [67, 85] then 6
  else if id ∈ [86, 68, 320, 330] then 7
  else if id ∈ [360] then 8
  else if id ∈ [92, 380, 390, 400, 410] then 9
  else if id ∈ [105, 405, 340, 350, 69, 420, 430, 440, 450, 460, 470, 381, 361] then 10
  else if id ∈ [480, 490, 445] then 11
  else if id ∈ [87, 500, 510, 520, 530, 540, 550, 640, 650, 560, 570, 580, 590, 600, 610, 102, 103, 620, 630, 425] then 12
  else if id ∈ [115] then 13
  else if id ∈ [645, 655] then 14
  else if id ∈ [362, 171, 401] then 15
  else if id ∈ [680, 690, 700] then 16
  else if id ∈ [94, 800] then 17
  else if id ∈ [900, 910] then 18
  else if id ∈ [1000, 1010, 1020, 96, 1030, 1040, 1045, 1055] then 19
  else if id ∈ [1100, 1110, 1120, 1121, 642, 652] then 20
  else if id ∈ [681, 691, 682, 692, 684, 694, 685, 695, 395, 1200, 1210, 1220, 1240, 1250, 683] then 21
  else if id ∈ [363, 75] then 23
  else if id ∈ [76, 71, 1260] then 25
  else 255

/-- `srpc_call_allowed` (V 1853-1862) with the version of the connection. -/
def allowed (pv id : Nat) : Bool := minVersion id == 0 || decide (minVersion id ≤ pv)

/-- `sproto_set_version` (O 329-336; H 122-123). -/
def setProto (v : Nat) : Nat := if 1 ≤ v ∧ v ≤ 25 then v else 25

/-- A frame on the wire: its call and the version in its header. -/
structure Frame where
  call : Nat
  version : Nat
deriving DecidableEq, Repr

/-- The device: `initializationDone` (D 149-153), the version of the layer (S 50, 951), the version of the connection
(none while there is none), the flag `SUPLA_DEVICE_FLAG_DEVICE_CONFIG_SUPPORTED` (D 159), what was put on the wire. -/
structure Dev where
  begun : Bool
  version : Nat
  link : Option Nat
  config : Bool
  wire : List Frame
deriving DecidableEq, Repr

/-- A device with a layer constructed with this version (S 49-51; the field has eight bits, supla_srpc.h 149). -/
def fresh (v : Nat) : Dev := ⟨false, v % 256, none, false, []⟩

/-- A layer that was constructed apart from the one `begin` uses, running (S 49-51). -/
def layer (v : Nat) : Dev := ⟨true, v % 256, none, true, []⟩

inductive Op
  | begin (v : Nat)              -- `SuplaDevice.begin(v)`
  | connect                      -- a connection is made and the registration sent
  | call (id : Nat)              -- the device makes a call
  | versionError (high low : Nat) -- the server answers that it knows the versions low to high
deriving DecidableEq, Repr

/-- `srpc_async__call` up to its check (V 1875-1883), and the header (O 353). -/
def send (d : Dev) (id : Nat) : Dev :=
  match d.link with
  | none => d
  | some pv => if allowed pv id then { d with wire := d.wire ++ [⟨id, pv⟩] } else d

/-- `begin` (D 149-172) with the `unsigned char` it takes. -/
def start (d : Dev) (v : Nat) : Dev :=
  if d.begun then d
  else { d with begun := true, config := d.config || decide (21 ≤ v % 256), version := if v % 256 < 23 then 23 else v % 256 }

/-- The call for the registration (S 842-856, V 2180, 2237). -/
def registration (v : Nat) : Nat := if v ≤ 24 then 75 else 76

/-- `initializeSrpc` and the registration (S 1476-1493, 838-857). -/
def connect (d : Dev) : Dev :=
  if d.begun then send { d with link := some (setProto d.version) } (registration d.version) else d

def step (d : Dev) : Op → Dev
  | .begin v => start d v
  | .connect => connect d
  | .call id => send d id
  | .versionError _ _ => { d with link := none }

def run : Dev → List Op → Dev
  | d, [] => d
  | d, o :: os => run (step d o) os

end Verif.Versions
