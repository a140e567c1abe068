import Verif.Common.Clock

/-!
# What the app shows about a channel: battery, signal, address, times

Sources: E = `/repo/src/supla/element.cpp`, C = `/repo/src/supla/channels/channel.cpp`, S = `/repo/src/supla/protocol/supla_srpc.cpp`,
D = `/repo/src/SuplaDevice.cpp`, L = `/repo/src/supla/control/light_relay.cpp`, P = `/repo/extras/porting/linux/supla/sensor/sensor_parsed.cpp`,
H = `/repo/src/supla-common/proto.h`.
-/

namespace Verif.Info

/-! ## Channels -/

/-- What a channel knows (`/repo/src/supla/channels/channel.h` lines 246-248) with its number, whether it is online, and its flag
`SUPLA_CHANNEL_FLAG_CHANNELSTATE`. -/
structure Chan where
  num : Nat
  powered : Nat := 0
  level : Nat := 255
  bridge : Nat := 255
  online : Bool := true
  enabled : Bool := true
deriving DecidableEq, Repr

/-- What drivers tell a channel. -/
inductive Op
  | level (x : Int)
  | powered (b : Bool)
  | bridge (x : Nat)
  | online (b : Bool)
deriving DecidableEq, Repr

/-- `setBatteryLevel`, `setBatteryPowered`, `setBridgeSignalStrength` (C 682-698; the argument of the last is an octet), `setStateOnline`. -/
def Chan.step (c : Chan) : Op → Chan
  | .level x => if 0 ≤ x ∧ x ≤ 100 then { c with level := x.toNat } else c
  | .powered b => { c with powered := if b then 1 else 2 }
  | .bridge x => { c with bridge := x % 256 }
  | .online b => { c with online := b }

/-- A history. -/
def Chan.run (c : Chan) (l : List Op) : Chan := l.foldl Chan.step c

/-- `isBatteryPoweredFieldEnabled`, C 671-673. -/
def Chan.knowsPowered (c : Chan) : Bool := c.powered != 0

/-- `getBatteryLevel`, C 675-680. -/
def Chan.batteryLevel (c : Chan) : Nat := if c.level ≤ 100 then c.level else 255

/-! ## The message -/

/-- `TDSC_ChannelState` (H 2529-2561); `fields` says which bits of `Fields` are set (H 2503-2522, by the number of the bit). -/
structure Msg where
  receiver : Int
  number : Nat
  fields : Nat → Bool
  ip : Nat
  mac : Nat
  rssi : Int
  signal : Nat
  level : Nat
  powered : Nat
  bridge : Nat
  uptime : Nat
  connection : Nat
  cause : Nat
  lifespan : Nat
  operating : Int

/-- `Fields |= …`. -/
def Msg.mark (m : Msg) (bit : Nat) : Msg := { m with fields := fun i => i == bit || m.fields i }

/-- A network interface: its address, its hardware address (none on Linux), and the strength of the radio signal (none by cable). -/
structure Net where
  ip : Nat
  mac : Option Nat
  rssi : Option (Int × Nat)
deriving DecidableEq, Repr

/-- `fillStateData` of the interfaces: `/repo/extras/porting/esp-idf/esp_idf_wifi.cpp` 272-286, `/repo/src/supla/network/esp_wifi.h` 139-149,
`/repo/src/supla/network/netif_lan.cpp` 33-39, `/repo/extras/porting/linux/linux_network.cpp` 49-52 (nothing). -/
def fillNet (n : Net) (m : Msg) : Msg :=
  match n.mac, n.rssi with
  | none, _ => m
  | some a, none => { (m.mark 0).mark 1 with mac := a, ip := n.ip }
  | some a, some (r, q) => { (((m.mark 0).mark 1).mark 4).mark 5 with mac := a, ip := n.ip, rssi := r, signal := q }

/-- What the device knows: D 532-546. -/
structure Dev where
  showUptime : Bool
  sleeping : Bool
  uptime : Nat
  connection : Nat
  cause : Nat
deriving DecidableEq, Repr

/-- `SuplaDeviceClass::fillStateData`, D 532-546. -/
def fillDev (d : Dev) (m : Msg) : Msg :=
  let m := if d.showUptime then { m.mark 7 with uptime := d.uptime } else m
  if d.sleeping then m
  else
    let m := { m.mark 8 with connection := d.connection }
    if d.cause > 0 then { m.mark 11 with cause := d.cause } else m

/-- An element: its channels, and the lifetime and the time of operation of the lamp of a light relay. -/
structure Elem where
  main : Option Chan
  second : Option Chan := none
  lamp : Option (Nat × Int) := none
deriving DecidableEq, Repr

/-- One turn of the loop of `handleGetChannelState` for the channel asked for, E 229-245. -/
def fillChan (c : Chan) (m : Msg) : Msg :=
  let m := if c.knowsPowered then { m.mark 3 with powered := if c.powered = 1 then 1 else 0 } else m
  let m := if c.batteryLevel ≤ 100 then { m.mark 2 with level := c.batteryLevel } else { m with level := 0 }
  if c.bridge ≤ 100 then { m.mark 6 with bridge := c.bridge } else m

/-- `Element::handleGetChannelState`, E 222-255. -/
def fillChannels (e : Elem) (m : Msg) : Msg :=
  match e.main with
  | none => m
  | some c =>
    if m.number = c.num then fillChan c m
    else
      match e.second with
      | none => m
      | some d => if m.number = d.num then fillChan d m else m

/-- The addition of `LightRelay::handleGetChannelState`, L 45-48. -/
def fillLamp (lamp : Option (Nat × Int)) (m : Msg) : Msg :=
  match lamp with
  | none => m
  | some (life, time) => { (m.mark 12).mark 13 with lifespan := life, operating := time }

/-- `handleGetChannelState` of an element, of a light (L 43-49) or another. -/
def fillElem (e : Elem) (m : Msg) : Msg := fillLamp e.lamp (fillChannels e m)

/-- `getElementByChannelNumber`, E 63-74: looks at the main channel only. -/
def find (els : List Elem) (n : Nat) : Option Elem := els.find? (fun e => e.main.any (fun c => c.num == n))

/-- `sendChannelStateResult`, S 1019-1044 (the interface is the one of the connection, or the main one).  `src` is the address of the connection, 0 if not known. -/
def answer (els : List Elem) (src : Nat) (net : Net) (d : Dev) (receiver : Int) (number : Nat) : Msg :=
  let m : Msg := ⟨receiver, number, fun _ => false, 0, 0, 0, 0, 0, 0, 0, 0, 0, 0, 0, 0⟩
  let m := if src ≠ 0 then { m.mark 0 with ip := src } else m
  let m := fillDev d (fillNet net m)
  match find els number with
  | none => m
  | some e => fillElem e m

/-! ## When it is sent without being asked -/

/-- The elements whose state is sent, S 899-907. -/
def due (els : List Elem) : List Nat :=
  els.filterMap fun e =>
    match e.main with
    | none => none
    | some c => if c.enabled && c.online && (c.knowsPowered || decide (c.batteryLevel ≤ 100)) then some c.num else none

/-- After the registration at `t`, S 638-640. -/
def scheduled (t : Nat) : Nat := (clk t + 2 ^ 32 - 1200000 + 5000) % 2 ^ 32

/-- A turn of the main loop at `t` while registered, S 898-912: the channels sent (`none`: it is not the time), and the new mark. -/
def turn (els : List Elem) (last t : Nat) : Option (List Nat) × Nat :=
  if since (clk t) last > 1200000 then (some (due els), clk t) else (none, last)

/-- Turns at the times of a list: what was sent when. -/
def turns (last : Nat) : List (Nat × List Elem) → List (Nat × Option (List Nat))
  | [] => []
  | (t, els) :: l => (t, (turn els last t).1) :: turns (turn els last t).2 l

/-! ## Sensors of the Linux port -/

/-- What the source of a sensor says: nothing (it could not be read, or the value is not valid), or a number, here its integral part. -/
abbrev Source := Option Int

/-- The battery in the configuration of a sensor. -/
structure Battery where
  forced : Bool
  powered : Bool
  level : Bool
deriving DecidableEq, Repr

/-- `batteryPowered` from the source, P 260, 268-272. -/
def saysPowered : Source → Bool
  | none => true
  | some x => x == 1

/-- `updateBatteryInfoFlags`, P 257-299, for one channel: `none` is undefined behaviour (a number put into an octet that does not hold it). -/
def refresh (b : Battery) (powered level : Source) (c : Chan) : Option Chan :=
  let c1 : Option Chan :=
    if b.level then
      match level with
      | none => some c
      | some x => if x < 0 ∨ x > 255 then none else if x ≤ 100 then some (c.step (.level x)) else some c
    else some c
  match c1 with
  | none => none
  | some c1 =>
    if b.forced then some (c1.step (.powered true))
    else if b.powered then some (c1.step (.powered (saysPowered powered)))
    else some c1

end Verif.Info
