/-!
# Wi-Fi on ESP-IDF

Whether the device is on the network, whether it keeps trying, and which causes of a disconnection get into the log.
Cited as F: `/repo/extras/porting/esp-idf/esp_idf_wifi.cpp`; FH: its header; N:
`/repo/src/supla/network/network.cpp`.

The driver is not in the repository. It is modelled by what the ESP-IDF manual says: it is started in the mode it was
configured for, announces its start as a station, makes one attempt to connect for each call of `esp_wifi_connect`
(which does nothing when it is not a started station or is already connected), announces success, failure and loss,
and the address when it is obtained, changes or is lost. The events wait in a queue and are handled in their order
by another task.
-/

namespace Verif.Link.Wifi

/-- The events of F lines 75, 79, 86, 94, 118, 129. -/
inductive Ev
  | stopped | started | connected | disc (reason : Nat) | got (a : Nat) | lost
deriving DecidableEq, Repr

/-- The driver: started, as a station (otherwise as an access point), an attempt is going on, connected, address
(0 is none), events not handled yet. -/
structure Drv where
  on : Bool
  sta : Bool
  trying : Bool
  linked : Bool
  ip : Nat
  q : List Ev
deriving DecidableEq, Repr

/-- `lastReasons` and `lastReasonIdx`, FH lines 64-65; `SUPLA_ESP_IDF_WIFI_LAST_REASON_MAX` is 2 (FH line 29). -/
structure Ring where
  r0 : Nat
  r1 : Nat
  idx : Nat
deriving DecidableEq, Repr

/-- The interface (FH lines 58-65), `mode` and `setupNeeded` of `Network`, `firstWiFiScanDone` (F line 68), and the
reasons that got into the log of the device. -/
structure Wifi where
  d : Drv
  init : Bool
  conn : Bool
  ipReady : Bool
  allow : Bool
  ipv4 : Nat
  config : Bool
  asked : Bool
  scanned : Bool
  ring : Ring
  log : List Nat
deriving DecidableEq, Repr

/-- As constructed. -/
def fresh : Wifi :=
  { d := { on := false, sta := false, trying := false, linked := false, ip := 0, q := [] }, init := false, conn := false, ipReady := false, allow := false, ipv4 := 0, config := false, asked := false, scanned := false, ring := ⟨0, 0, 0⟩, log := [] }

/-- `isReady`, F lines 60-62. -/
def isReady (s : Wifi) : Bool := s.conn && s.ipReady

/-- `getIP`, F lines 141-146. -/
def getIP (s : Wifi) : Nat := if isReady s then s.ipv4 else 0

/-- The address `fillStateData` puts into the state of the device, F line 279. -/
def stateIP (s : Wifi) : Nat := s.ipv4

/-- `esp_wifi_connect`. -/
def connect (d : Drv) : Drv := if d.on && d.sta && !d.linked then { d with trying := true } else d

/-- `esp_wifi_disconnect`: ends the connection or the attempt, reason 8. -/
def disconnect (d : Drv) : Drv :=
  if d.linked || d.trying then { d with linked := false, trying := false, ip := 0, q := d.q ++ [.disc 8] } else d

/-- `esp_wifi_stop`. -/
def stop (d : Drv) : Drv := { d with on := false, q := if d.on && d.sta then d.q ++ [.stopped] else d.q }

/-- `esp_wifi_set_mode` and `esp_wifi_start`. -/
def start (d : Drv) (sta : Bool) : Drv := { d with on := true, sta := sta, q := if sta then d.q ++ [.started] else d.q }

/-- `disable`, F lines 219-238. The protocols are disconnected as well; not modelled here. -/
def disable (s : Wifi) : Wifi := if s.allow then { s with allow := false, d := stop (disconnect s.d) } else s

/-- The beginning of `setup`, F lines 149-173. -/
def halt (s : Wifi) : Wifi := if s.init then disable { s with ipReady := false } else { s with ipReady := false }

/-- `setup`, F lines 148-217. `asked` is the flag the main loop takes before (N lines 423-429). -/
def setup (s : Wifi) : Wifi :=
  { halt s with asked := false, d := start (halt s).d (!s.config), allow := true, init := true }

/-- One reason is put into the ring, F lines 320-323. -/
def Ring.put (g : Ring) (r : Nat) : Ring :=
  if g.idx == 1 then { g with r1 := r, idx := 2 } else { g with r0 := r, idx := 1 }

/-- The reason is among the last ones, F lines 312-318. -/
def Ring.has (g : Ring) (r : Nat) : Bool := g.r0 == r || g.r1 == r

/-- `logWifiReason`, F lines 311-407, without the texts. -/
def logReason (s : Wifi) (r : Nat) : Wifi :=
  { s with ring := s.ring.put r, log := if s.ring.has r then s.log else s.log ++ [r] }

/-- The case of `WIFI_EVENT_STA_DISCONNECTED` up to the log, F lines 97-104. -/
def gone (s : Wifi) (r : Nat) : Wifi :=
  if s.scanned then logReason { s with ipReady := false, conn := false } r else { s with ipReady := false, conn := false }

/-- `eventHandler`, F lines 64-139. -/
def handle (s : Wifi) : Ev → Wifi
  | .stopped => { s with scanned := false }
  | .started => { s with scanned := false, d := connect s.d }
  | .connected => { s with scanned := true, conn := true }
  | .disc r => { gone s r with scanned := true, d := if s.config then s.d else connect s.d }
  | .got a => { s with ipReady := true, ipv4 := a }
  | .lost => { s with ipReady := false, ipv4 := 0 }

/-- The next event is handled. -/
def deliver (s : Wifi) : Wifi :=
  match s.d.q with
  | [] => s
  | e :: r => handle { s with d := { s.d with q := r } } e

/-- What happens outside: the attempt succeeds or fails, the connection is lost, an address is obtained or changes,
is lost, or its loss is reported late (the timer of ESP-IDF that runs after a disconnection). -/
inductive Env
  | joins | fails (r : Nat) | drops (r : Nat) | lease (a : Nat) | expire | late
deriving DecidableEq, Repr

/-- The driver after it. -/
def env (d : Drv) : Env → Drv
  | .joins => if d.trying then { d with trying := false, linked := true, q := d.q ++ [.connected] } else d
  | .fails r => if d.trying then { d with trying := false, q := d.q ++ [.disc r] } else d
  | .drops r => if d.linked then { d with linked := false, ip := 0, q := d.q ++ [.disc r] } else d
  | .lease a => if d.linked && a != 0 && a != d.ip then { d with ip := a, q := d.q ++ [.got a] } else d
  | .expire => if d.linked && d.ip != 0 then { d with ip := 0, q := d.q ++ [.lost] } else d
  | .late => if d.ip == 0 then { d with q := d.q ++ [.lost] } else d

/-- One step: the main task sets up, disables, changes the mode (N lines 359-367), asks for a set-up (N lines
431-436); the other task handles an event; the outside. -/
inductive Op
  | setup | disable | configMode | normalMode | ask | deliver | env (e : Env)
deriving DecidableEq, Repr

/-- One step. -/
def step (s : Wifi) : Op → Wifi
  | .setup => setup s
  | .disable => disable s
  | .configMode => { s with config := true, asked := true }
  | .normalMode => { s with config := false, asked := true }
  | .ask => { s with asked := true }
  | .deliver => deliver s
  | .env e => { s with d := env s.d e }

/-- Any history. -/
def run (s : Wifi) (l : List Op) : Wifi := l.foldl step s

/-- Everything that waits is handled. -/
def settle (s : Wifi) : Wifi := run s (List.replicate s.d.q.length .deliver)

end Verif.Link.Wifi
