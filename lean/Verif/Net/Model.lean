/-!
# Network interfaces

Which interfaces are used, when they are set up, and what counts as a complete configuration.

Cited as N: `/repo/src/supla/network/network.cpp`; W: `/repo/src/supla/network/netif_wifi.cpp`;
C: `/repo/src/supla/storage/config.cpp`; D: `/repo/src/SuplaDevice.cpp`. The list of interfaces is a list
here; `Verif.Registry` has the pointers. An interface is made by the program and is one of the kinds of
`IntfType`; only Wi-Fi needs a name and a password (W line 43).
-/

namespace Verif.Net

/-- `IntfType`, `/repo/src/supla/network/network.h` lines 38-42. -/
inductive Kind
  | unknown | ethernet | wifi
deriving DecidableEq, Repr

/-- An interface: `intfDisabledInConfig` and `setupNeeded`. -/
structure Intf where
  id : Nat
  kind : Kind
  off : Bool
  asked : Bool
deriving DecidableEq, Repr

/-- All of them, the main one (`netIntf`) and the mode (`mode`). -/
structure Net where
  intfs : List Intf
  main : Option Nat
  config : Bool
deriving DecidableEq, Repr

/-- The settings that matter here; an empty text stands for one that is missing. -/
structure Cfg where
  wifiDis : Nat
  ethDis : Nat
  ssid : List Nat
  password : List Nat
  suplaOn : Bool
  server : List Nat
  email : List Nat
  mqttOn : Bool
  mserver : List Nat
  auth : Bool
  muser : List Nat
  mpassword : List Nat
deriving DecidableEq, Repr

/-- `isIntfDisabledInConfig`, N lines 450-456. -/
def disabled (n : Net) (i : Intf) : Bool := if n.config && i.kind == .wifi then false else i.off

/-- `onLoadConfig`, N lines 245-272. -/
def onLoad (c : Cfg) (i : Intf) : Intf :=
  match i.kind with
  | .wifi => { i with off := c.wifiDis != 0 }
  | .ethernet => { i with off := c.ethDis != 0 }
  | .unknown => { i with off := false }

/-- The first loop of `LoadConfig`, N lines 219-225, on the interfaces already loaded. -/
def firstLoop (n : Net) : List Intf → Option Nat → Option Nat
  | [], m => m
  | i :: is, m => firstLoop n is (if disabled n i && m == some i.id then none else m)

/-- The second loop, N lines 227-237. -/
def secondLoop (n : Net) : List Intf → Option Nat → Option Nat
  | [], m => m
  | i :: is, m =>
    secondLoop n is
      (if !disabled n i && i.kind != .wifi then some i.id
       else if !disabled n i && m == none then some i.id else m)

/-- The interfaces with their settings loaded. -/
def loaded (n : Net) (c : Cfg) : Net := { n with intfs := n.intfs.map (onLoad c) }

/-- `LoadConfig`, N lines 216-241. -/
def loadConfig (n : Net) (c : Cfg) : Net :=
  match secondLoop (loaded n c) (loaded n c).intfs (firstLoop (loaded n c) (loaded n c).intfs n.main) with
  | none => loaded n c
  | some m => { loaded n c with main := some m }

/-- `Setup`, N lines 80-88 (also `Disable` and `Uninit`, N lines 90-108): the interfaces it is done to. -/
def setup (n : Net) : List Nat := (n.intfs.filter (fun i => !disabled n i)).map (·.id)

/-- `IsReady`, N lines 112-124, where `r i` is what the interface `i` says (and `Iterate`, N lines 126-138). -/
def isReady (n : Net) (r : Nat → Bool) : Bool := n.intfs.foldl (fun b i => if !disabled n i then (if r i.id then true else b) else b) false

/-- `SetConfigMode`, N lines 140-146 and 359-362. -/
def setConfigMode (n : Net) : Net := { n with config := true, intfs := n.intfs.map (fun i => { i with asked := true }) }

/-- `SetNormalMode`, N lines 148-154 and 364-367. -/
def setNormalMode (n : Net) : Net := { n with config := false, intfs := n.intfs.map (fun i => { i with asked := true }) }

/-- `SetSetupNeeded`, N lines 156-164 and 431-436. -/
def ask (n : Net) : Net := { n with intfs := n.intfs.map (fun i => if disabled n i then i else { i with asked := true }) }

/-- `PopSetupNeeded`, N lines 166-178 and 423-429: the answer and what is left. -/
def pop (n : Net) : Bool × Net :=
  (n.intfs.foldl (fun b i => if !disabled n i then (if i.asked then true else b) else b) false,
   { n with intfs := n.intfs.map (fun i => if disabled n i then i else { i with asked := false }) })

/-- The beginning of `iterateNetworkSetup`, D lines 684-687: the interfaces set up. -/
def poll (n : Net) : List Nat × Net := if (pop n).1 then (setup (pop n).2, (pop n).2) else ([], (pop n).2)

/-- `GetMainMacAddr`, N lines 180-195: whose address it is. -/
def macOf (n : Net) : Option Nat :=
  match n.intfs.find? (fun i => i.kind == .wifi) with
  | some i => some i.id
  | none => n.intfs.head?.map (·.id)

/-- The Wi-Fi part of `isMinimalConfigReady`, C lines 419-438: the interface is taken before the choice is
made and looked at after. -/
def wifiPart (n : Net) (c : Cfg) : Bool :=
  match n.main with
  | none => true
  | some m =>
    match (loadConfig n c).intfs.find? (fun i => i.id == m) with
    | none => true
    | some i => if !disabled (loadConfig n c) i && i.kind == .wifi then c.ssid != [] && c.password != [] else true

/-- The rest of it, C lines 440-485. -/
def protocolPart (c : Cfg) : Bool :=
  (if c.suplaOn then c.server != [] && c.email != [] else true) &&
  (if c.mqttOn then c.mserver != [] && (if c.auth then c.muser != [] && c.mpassword != [] else true) else true)

/-- `isMinimalConfigReady`, C lines 412-486: the answer and what is left. -/
def minimalReady (n : Net) (c : Cfg) : Bool × Net := (wifiPart n c && protocolPart c, loadConfig n c)

end Verif.Net
