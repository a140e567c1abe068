/-!
# Wired network interfaces

When the device believes it has a network over Ethernet. Cited as E:
`/repo/extras/esp-idf/supla-lan8720/esp_idf_lan8720.cpp` (ESP-IDF); L:
`/repo/src/supla/network/netif_lan.cpp`; A: `/repo/src/supla/network/esp32eth.h` (Arduino; the handlers
and the functions of `wt32_eth01.h` and `esp32ethspi.h` are the same); D: `/repo/src/SuplaDevice.cpp`.

The driver of the chip is not in the repository. It is modelled by what the ESP-IDF manual says of it: while it
runs it finds the link, an address is announced when it is obtained or changes (a renewal of the same address
is not announced), the loss of the link and of the address are announced, stopping it ends the link. The events
wait in a queue and are handled in their order by another task, so any number of them may be waiting at any time.
-/

namespace Verif.Link

/-- The events the handlers look at: E lines 69, 78, 100; A lines 92, 111. -/
inductive Ev
  | got (a : Nat) | lost | disc
deriving DecidableEq, Repr

/-- The driver: running, link present, address (0 is none), events not handled yet. -/
structure Drv where
  on : Bool
  linked : Bool
  ip : Nat
  q : List Ev
deriving DecidableEq, Repr

/-- The interface: `initDone`, `allowDisable` (header of E lines 55-56), `isIpReady`, `ipv4` (L). -/
structure Lan where
  d : Drv
  init : Bool
  allow : Bool
  ready : Bool
  ipv4 : Nat
deriving DecidableEq, Repr

/-- As constructed. -/
def fresh : Lan := { d := { on := false, linked := false, ip := 0, q := [] }, init := false, allow := false, ready := false, ipv4 := 0 }

/-- `setIpv4Addr`, L lines 45-52. -/
def setIp (s : Lan) (a : Nat) : Lan := { s with ipv4 := a, ready := a != 0 }

/-- `isReady`, L lines 29-31. -/
def isReady (s : Lan) : Bool := s.ready

/-- `getIP`, L lines 54-59. -/
def getIP (s : Lan) : Nat := if isReady s then s.ipv4 else 0

/-- `esp_eth_start`. -/
def start (d : Drv) : Drv := { d with on := true }

/-- `esp_eth_stop`: the link ends. -/
def stop (d : Drv) : Drv := { d with on := false, linked := false, ip := 0, q := if d.linked then d.q ++ [.disc] else d.q }

/-- `setup`, E lines 116-177 (the driver is started only the first time, line 171). -/
def setup (s : Lan) : Lan :=
  { s with ready := false, d := if s.init then s.d else start s.d, allow := true, init := true }

/-- `disable`, E lines 179-188. The protocols are disconnected as well; not modelled here. -/
def disable (s : Lan) : Lan := if s.allow then { s with allow := false, d := stop s.d } else s

/-- `eventHandler`, E lines 59-114, without the logs. -/
def handle (s : Lan) : Ev → Lan
  | .got a => setIp s a
  | .lost => setIp s 0
  | .disc => setIp s 0

/-- The next event is handled. -/
def deliver (s : Lan) : Lan :=
  match s.d.q with
  | [] => s
  | e :: r => handle { s with d := { s.d with q := r } } e

/-- What happens to the driver from outside: the cable, the address, its loss, and the late report of a loss
(the timer of ESP-IDF that runs after the link is gone). -/
inductive Env
  | plug | unplug | lease (a : Nat) | expire | late
deriving DecidableEq, Repr

/-- The driver after it. -/
def env (d : Drv) : Env → Drv
  | .plug => if d.on then { d with linked := true } else d
  | .unplug => if d.linked then { d with linked := false, ip := 0, q := d.q ++ [.disc] } else d
  | .lease a => if d.linked && a != 0 && a != d.ip then { d with ip := a, q := d.q ++ [.got a] } else d
  | .expire => if d.linked && d.ip != 0 then { d with ip := 0, q := d.q ++ [.lost] } else d
  | .late => if d.ip == 0 then { d with q := d.q ++ [.lost] } else d

/-- One step. -/
inductive Op
  | setup | disable | deliver | env (e : Env)
deriving DecidableEq, Repr

/-- The interface of ESP-IDF. -/
def step (s : Lan) : Op → Lan
  | .setup => setup s
  | .disable => disable s
  | .deliver => deliver s
  | .env e => { s with d := env s.d e }

/-- Any history. -/
def run (s : Lan) (l : List Op) : Lan := l.foldl step s

/-- Everything that waits is handled. -/
def settle (s : Lan) : Lan := run s (List.replicate s.d.q.length .deliver)

/-- `setup` of the Arduino interfaces, A lines 122-144: nothing the second time. -/
def setupA (s : Lan) : Lan := { s with allow := true, d := if s.init then s.d else start s.d, init := true }

/-- `disable` of the Arduino interfaces, A lines 146-155: the driver goes on. -/
def disableA (s : Lan) : Lan := if s.allow then { s with allow := false } else s

/-- `networkEventHandler`, A lines 90-119: the address is asked of the driver when the event is handled, and
the loss of an address is not looked at. -/
def handleA (s : Lan) : Ev → Lan
  | .got _ => setIp s s.d.ip
  | .lost => s
  | .disc => setIp s 0

/-- The next event is handled, Arduino. -/
def deliverA (s : Lan) : Lan :=
  match s.d.q with
  | [] => s
  | e :: r => handleA { s with d := { s.d with q := r } } e

/-- The Arduino interfaces. -/
def stepA (s : Lan) : Op → Lan
  | .setup => setupA s
  | .disable => disableA s
  | .deliver => deliverA s
  | .env e => { s with d := env s.d e }

/-- Any history, Arduino. -/
def runA (s : Lan) (l : List Op) : Lan := l.foldl stepA s

/-- Everything that waits is handled, Arduino. -/
def settleA (s : Lan) : Lan := runA s (List.replicate s.d.q.length .deliver)

/-- The part of the main loop that looks after the network: `networkIsNotReadyCounter`,
`requestNetworkLayerRestart`. One interface only. -/
structure Loop where
  lan : Lan
  cnt : Nat
  again : Bool
deriving DecidableEq, Repr

/-- The restart that was asked for, D lines 695-702. -/
def restart (l : Loop) : Loop := if l.again then { l with again := false, lan := setup l.lan } else l

/-- The answer to whether there is a network, D lines 704-728. -/
def watch (l : Loop) : Loop :=
  if isReady l.lan then { l with cnt := 0 }
  else { l with cnt := l.cnt + 1, again := if (l.cnt + 1) % 600 == 0 then true else l.again }

/-- A protocol asks for a restart, D lines 430-432; only looked at when there is a network. -/
def asks (l : Loop) (b : Bool) : Loop := if isReady l.lan && b then { l with again := true } else l

/-- `iterateNetworkSetup` in normal mode (D lines 684-729) and what follows: `b` is what the protocol says. -/
def tick (l : Loop) (b : Bool) : Loop := asks (watch (restart l)) b

end Verif.Link
