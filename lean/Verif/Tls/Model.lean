import Verif.Tls.Spec

/-!
# Model of the choice of the certificate and of the connection

`/repo/src/supla/protocol/supla_srpc.cpp`, `/repo/src/supla/device/register_device.cpp`,
`/repo/src/supla/network/client.cpp`, `/repo/src/supla/arduino_esp_platform.cpp`,
`/repo/extras/porting/esp-idf/esp_idf_client.cpp`.
-/

namespace Verif.Tls

/-- One letter made upper case, as in `strncmpInsensitive`
(`/repo/src/supla/tools.cpp` 272-278). -/
def upper (c : Nat) : Nat := if 97 ≤ c ∧ c ≤ 122 then c - 32 else c

/-- `strncmpInsensitive(s1, s2, size) == 0` for texts that both have `size`
characters (`/repo/src/supla/tools.cpp` 257-290). -/
def sameFold : Name → Name → Bool
  | [], [] => true
  | a :: as, b :: bs => upper a == upper b && sameFold as bs
  | _, _ => false

/-- `".supla.org"` (`/repo/src/supla/device/register_device.cpp` 323). -/
def suffix : Name := [46, 115, 117, 112, 108, 97, 46, 111, 114, 103]

/-- `RegisterDevice::isSuplaPublicServerConfigured()`
(`/repo/src/supla/device/register_device.cpp` 320-336). -/
def isPublic (n : Name) : Bool :=
  if 10 < n.length then sameFold (n.drop (n.length - 10)) suffix else false

/-- `RegisterDevice::setServerName(server)`
(`/repo/src/supla/device/register_device.cpp` 242-255): at most 64 characters
are kept, and `srv` is corrected to `svr` in the name of a public server.  The
check of the first characters reads the given text; they are the same in the
kept one. -/
def setServerName (n : Name) : Name :=
  let kept := n.take 64
  if isPublic kept then
    match kept with
    | a :: b :: c :: d :: rest =>
      if sameFold [a, b, c] [115, 114, 118] && (48 ≤ d && d ≤ 57) then
        a :: 118 :: 114 :: d :: rest
      else kept
    | _ => kept
  else kept

/-- `wrongCert`, the text `SUPLA` (`/repo/src/supla/protocol/supla_srpc.cpp` 47). -/
def wrongCert : Cert := [83, 85, 80, 76, 65]

/-- The network client: `sslEnabled` and `rootCACert`
(`/repo/src/supla/network/client.h`, `/repo/src/supla/network/client.cpp` 112-118). -/
structure Client where
  /-- encryption -/
  ssl : Bool := false
  /-- the certificate the server is checked against -/
  ca : Option Cert := none
  deriving DecidableEq

/-- The protocol layer `SuplaSrpc` with the parts of the device it uses
(`/repo/src/supla/protocol/supla_srpc.h` 160-175). -/
structure Dev where
  /-- `suplaCACert` -/
  ca : Option Cert
  /-- `supla3rdPartyCACert` -/
  ca3 : Option Cert
  /-- `selectedCertificate` -/
  sel : Option Cert
  /-- `port` -/
  port : Int
  /-- `isSuplaSSLEnabled` -/
  ssl : Bool
  /-- `reg_dev.ServerName` -/
  server : Name
  /-- the configuration storage -/
  stored : Option Stored
  /-- `enabled` -/
  enabled : Bool
  /-- `client` -/
  client : Option Client

/-- The condition under which the connection is encrypted
(`/repo/src/supla/protocol/supla_srpc.cpp` 88, 126, 198). -/
def Dev.usesSsl (d : Dev) : Bool := d.port == 2016 || (d.port == -1 && d.ssl)

/-- `Config::getSuplaServerPort()`
(`/repo/src/supla/storage/config.cpp` 141-149). -/
def storedPort (p : Option Int) : Int :=
  match p with
  | none => -1
  | some v => if v ≤ 0 ∨ 65536 < v then -1 else v

/-- The security level read in `onLoadConfig`
(`/repo/src/supla/protocol/supla_srpc.cpp` 137-140); the member is 0 before. -/
def storedLevel (l : Option Nat) : Nat :=
  match l with
  | none => 0
  | some v => if 2 < v then 0 else v

/-- The user's own certificate, level 1
(`/repo/src/supla/protocol/supla_srpc.cpp` 162-178).  The size of a stored text
counts its terminator (`/repo/src/supla/storage/key_value.cpp` 393-398), so it is
positive exactly when one is stored; if reading it fails the buffer stays
empty.  Where the size does not count it (LittleFS) an empty text is taken as
none: the certificate is then `SUPLA` and not the empty text. -/
def customCert (c : Stored) : Cert :=
  match c.customCa with
  | none => wrongCert
  | some t => if c.readable then t else []

/-- The certificate chosen for a security level
(`/repo/src/supla/protocol/supla_srpc.cpp` 127-186). -/
def chooseCert (d : Dev) (c : Stored) : Option Cert :=
  let byServer := if isPublic d.server then d.ca else d.ca3
  match storedLevel c.level with
  | 1 => some (customCert c)
  | 2 => none
  | _ => match byServer with
    | none => some wrongCert
    | some t => some t

/-- The server and the port taken from the storage
(`/repo/src/supla/protocol/supla_srpc.cpp` 105-115). -/
def loadServer (d : Dev) (c : Stored) : Dev :=
  { d with enabled := true, server := if c.server = [] then d.server else setServerName c.server, port := storedPort c.port }

/-- `SuplaSrpc::onLoadConfig()` (`/repo/src/supla/protocol/supla_srpc.cpp` 94-193).
The e-mail and the result (a complete configuration) are left out. -/
def loadConfig (d : Dev) : Dev :=
  match d.stored with
  | none => d
  | some c =>
    if c.enabled then
      let d := loadServer d c
      if d.usesSsl then { d with sel := chooseCert d c } else d
    else { d with enabled := false }

/-- The certificate chosen on a device without configuration storage
(`/repo/src/supla/protocol/supla_srpc.cpp` 201-217). -/
def chooseWithout (d : Dev) : Option Cert :=
  match d.ca, d.ca3 with
  | none, none => d.sel
  | some a, none => some a
  | none, some b => some b
  | some a, some b => if isPublic d.server then some a else some b

/-- `SuplaSrpc::onInit()` (`/repo/src/supla/protocol/supla_srpc.cpp` 195-222). -/
def onInit (d : Dev) : Dev :=
  if d.enabled && d.usesSsl then
    match d.stored with
    | some _ => d
    | none => { d with sel := chooseWithout d }
  else d

/-- The layer before the device is started: `SuplaDevice::setSuplaCACert`,
`setSupla3rdPartyCACert`, `setServerPort`, `setServer` and
`Network::setSSLEnabled` only store what they are given
(`/repo/src/supla/protocol/supla_srpc.cpp` 946-960,
`/repo/src/supla/network/network.cpp` 419-421, `/repo/src/SuplaDevice.cpp` 519-522). -/
def fresh (s : Settings) : Dev :=
  { ca := s.ca, ca3 := s.ca3, sel := none, port := s.port, ssl := s.ssl, server := setServerName s.server, stored := s.stored, enabled := true, client := none }

/-- The part of `SuplaDeviceClass::begin()` that concerns the layer
(`/repo/src/SuplaDevice.cpp` 190-205, 310-315). -/
def start (d : Dev) : Dev := onInit (loadConfig d)

/-- `SuplaSrpc::initClient()` for the client `cl`, new or given
(`/repo/src/supla/protocol/supla_srpc.cpp` 78-92). -/
def initClient (d : Dev) (cl : Client) : Client :=
  if d.usesSsl then { cl with ssl := true, ca := d.sel } else cl

/-- An attempt to connect: `client->connect(server, port)`; the port is passed
as `uint16_t` (`/repo/src/supla/network/client.cpp` 47). -/
structure Attempt where
  /-- the name of the server -/
  host : Name
  /-- the port -/
  port : Nat
  /-- the client that connects -/
  client : Client
  deriving DecidableEq

/-- The client, created at the first use
(`/repo/src/supla/protocol/supla_srpc.cpp` 766-768). -/
def Dev.getClient (d : Dev) : Client :=
  match d.client with
  | some cl => cl
  | none => initClient d {}

/-- The port, chosen at the first connection
(`/repo/src/supla/protocol/supla_srpc.cpp` 791-797). -/
def Dev.getPort (d : Dev) : Int :=
  if d.port = -1 then (if d.ssl then 2016 else 2015) else d.port

/-- What can happen to the layer: the main loop opens a connection, or the
application gives the layer a client of its own. -/
inductive Op
  /-- `SuplaSrpc::iterate` without a connection -/
  | connect
  /-- `SuplaSrpc::setNetworkClient` with a new client -/
  | giveClient

/-- One step (`/repo/src/supla/protocol/supla_srpc.cpp` 67-76 and 748-798, the
waiting times left out: a connection may be tried at any time). -/
def step (d : Dev) : Op → Dev × Option Attempt
  | .connect =>
    if d.enabled then
      let cl := d.getClient
      let p := d.getPort
      ({ d with client := some cl, port := p }, some ⟨d.server, (p % 65536).toNat, cl⟩)
    else (d, none)
  | .giveClient => ({ d with client := some (initClient d {}) }, none)

/-- The attempts made during a sequence of events. -/
def attempts (d : Dev) : List Op → List Attempt
  | [] => []
  | o :: os => (step d o).2.toList ++ attempts (step d o).1 os

/-- The connection is established with a server, as the TLS libraries under
`connectImp` decide it: without encryption with any, with encryption and no
certificate with any (`setInsecure`), and with a certificate if the server's
certificate is signed by it
(`/repo/src/supla/arduino_esp_platform.cpp` 74-116; the ESP-IDF client
`/repo/extras/porting/esp-idf/esp_idf_client.cpp` 66-90 always encrypts; the
fingerprint of ESP8266 is left out).  `signedBy` stands for the library. -/
def accepts {Peer : Type} (signedBy : Cert → Peer → Prop) (cl : Client) (p : Peer) : Prop :=
  cl.ssl = true → ∀ c, cl.ca = some c → signedBy c p

end Verif.Tls
