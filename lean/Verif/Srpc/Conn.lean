import Verif.Common.Clock

/-!
# The connection to the server

Model of the connection part of `Supla::Protocol::SuplaSrpc`
(`/repo/src/supla/protocol/supla_srpc.cpp` 526-538, 600-937, `/repo/src/supla/protocol/supla_srpc.h`
149-165): connecting, registering, keeping the connection alive and dropping it.

Simplifications, all over the whole file: the protocol is enabled and the client object exists; the
content of the messages is reduced to the cases that touch the connection state (`Msg`); what the
elements, the status display, the device configuration and the periodic channel state messages do is
left out; the special network restart of the ESP8266 is left out. The bytes written to the
network by anybody are the separate operation `wrote`.
-/

namespace Verif.Srpc

/-- `registered` (`supla_srpc.h` 152): 0, -1, 1 and 2. -/
inductive Reg where
  | no
  | asked
  | ok
  | refused
deriving DecidableEq, Repr

/-- The messages of the server as far as the connection state depends on them
(`supla_srpc.cpp` 254-520): a positive registration result, any negative one, "go to configuration
mode", "wrong protocol version", a new activity timeout (an 8-bit field of the message), and any
other message. -/
inductive Msg where
  | accepted
  | refused
  | cfgMode
  | versionError
  | timeoutIs (n : Nat)
  | other
deriving DecidableEq, Repr

/-- The members of `SuplaSrpc` used here (`supla_srpc.h` 149-165), plus `up`: the client object holds
an open connection (it stays `false` after `stop()` until the next successful `connect()`), and `srpc`:
the `srpc` pointer is not null. -/
structure St where
  reg : Reg := .no
  up : Bool := false
  srpc : Bool := false
  wait : Nat := 0
  lastIt : Nat := 0
  first : Bool := true
  fails : Nat := 0
  restart : Bool := false
  timeout : Nat := 30
  lastResp : Nat := 0
  lastSent : Nat := 0
  lastPing : Nat := 0
deriving DecidableEq, Repr

/-- What the outside world does during one pass: `alive`: an open connection is still open; `connects`:
a connection attempt succeeds; `iterOk`: `srpc_iterate_device` reports success; `msgs`: the messages it
hands over; `busy`: the milliseconds the pass has taken when it reads the clock again. -/
structure Env where
  alive : Bool := true
  connects : Bool := true
  iterOk : Bool := true
  msgs : List Msg := []
  busy : Nat := 0
deriving DecidableEq, Repr

/-- What one pass does visibly: its result, whether it tried to connect and with what success, the
messages it read, whether it sent the registration and whether it sent a ping; and whether it asks for
a restart of the network. -/
structure Out where
  ret : Bool := false
  attempt : Option Bool := none
  got : List Msg := []
  registers : Bool := false
  pinged : Bool := false
  restart : Bool := false
deriving DecidableEq, Repr

/-- `setActivityTimeout` (`supla_srpc.cpp` 722-728): at least 6, stored in 8 bits. -/
def setTimeout (n : Nat) (s : St) : St := { s with timeout := (if n < 6 then 6 else n) % 256 }

/-- `disconnect` (`supla_srpc.cpp` 925-936) and `deinitializeSrpc` (1476-1483). -/
def disconnect (s : St) : St := { s with first := true, reg := .no, up := false, srpc := false }

/-- `messageReceived` (`supla_srpc.cpp` 239-524), `onVersionError` (526-538), `onRegisterResult`
(600-714), `onSetActivityTimeoutResult` (716-720). `none`: undefined behaviour. The wrong-version
message calls `disconnect()`, which frees the `srpc` object (`/repo/src/supla-common/srpc.c` 162-179)
inside the loop of `srpc_iterate_device`, and the loop then goes on with the freed object (446, 439). -/
def receive (now : Nat) (m : Msg) (s : St) : Option St :=
  let s := { s with lastResp := clk now }
  match m with
  | .accepted => some { s with reg := .ok, lastIt := clk now }
  | .refused => some { s with reg := .refused }
  | .cfgMode => some s
  | .versionError => none
  | .timeoutIs n => some (setTimeout (n % 256) s)
  | .other => some s

/-- The message loop of `srpc_iterate_device` (`srpc.c` 437-466). -/
def receiveAll (now : Nat) : List Msg → St → Option St
  | [], s => some s
  | m :: ms, s => match receive now m s with
    | none => none
    | some s => receiveAll now ms s

/-- Is a ping due (`supla_srpc.cpp` 737-741)? The timeout minus 5 is taken in 32 bits. -/
def pingDue (now : Nat) (s : St) : Bool :=
  since (clk now) s.lastPing ≥ 5000 &&
    (since (clk now) s.lastResp / 1000 ≥ (s.timeout + 2 ^ 32 - 5) % 2 ^ 32 ||
      since (clk now) s.lastSent / 1000 ≥ (s.timeout + 2 ^ 32 - 5) % 2 ^ 32)

/-- The branch for a registered device (`supla_srpc.cpp` 861-907 and `ping`, 730-746): a server silent
for the timeout plus 10 seconds is given up, else a ping is sent when due. The branch returns `true`
also after giving up. -/
def registered (now : Nat) (s : St) (o : Out) : St × Out :=
  if since (clk now) s.lastResp / 1000 ≥ s.timeout + 10 then (disconnect s, { o with ret := true })
  else if pingDue now s then ({ s with lastPing := clk now }, { o with ret := true, pinged := true })
  else (s, { o with ret := true })

/-- The end of `iterate` by registration state (`supla_srpc.cpp` 829-916). `t` is the time the pass
started, `now` the time it reads the clock again. -/
def proceed (t now : Nat) (s : St) (o : Out) : St × Out :=
  match s.reg with
  | .no => ({ s with reg := .asked }, { o with registers := s.srpc })
  | .asked =>
    if since (clk t) s.lastIt > 10000 then ({ disconnect s with lastIt := clk t, wait := 2000 }, o)
    else (s, o)
  | .ok => registered now s o
  | .refused => ({ disconnect s with lastIt := clk now, wait := 10000 }, o)

/-- `iterate` from `srpc_iterate_device` on (`supla_srpc.cpp` 820-827). -/
def talk (t : Nat) (e : Env) (s : St) (o : Out) : Option (St × Out) :=
  if s.srpc = false then none
  else match receiveAll (t + e.busy) e.msgs s with
    | none => none
    | some s =>
      if e.iterOk = false then
        some ({ disconnect s with lastIt := clk t, wait := 5000 }, { o with got := e.msgs })
      else some (proceed t (t + e.busy) s { o with got := e.msgs })

/-- A failed connection attempt (`supla_srpc.cpp` 795-817); the counter has 16 bits. -/
def connectFail (s : St) : St :=
  { disconnect s with wait := if s.first then 1000 else 10000, first := false, fails := (s.fails + 1) % 2 ^ 16, restart := (s.fails + 1) % 2 ^ 16 % 6 = 0 }

/-- The pass when there is no open connection (`supla_srpc.cpp` 767-817): a connection that was lost
is noted, otherwise one is attempted. -/
def offline (t : Nat) (e : Env) (s : St) : Option (St × Out) :=
  if s.reg ≠ .no then some ({ s with reg := .no, wait := 1000, lastIt := clk t }, {})
  else if e.connects then
    talk t e { s with up := true, srpc := true, fails := 0 } { attempt := some true }
  else
    some (connectFail s, { attempt := some false, restart := (connectFail s).restart })

/-- The new `lastIterateTime` (`supla_srpc.cpp` 760-764): while the answer to the registration is
awaited it keeps the time of the registration. -/
def stamp (t : Nat) (s : St) : Nat := if s.reg = .asked then s.lastIt else clk t

/-- The pass once the waiting time is over (`supla_srpc.cpp` 758-767). -/
def awake (t : Nat) (e : Env) (s : St) : Option (St × Out) :=
  let s := { s with wait := 0, lastIt := stamp t s }
  if s.up && e.alive then talk t e s {} else offline t e { s with up := false, srpc := false }

/-- `iterate` (`supla_srpc.cpp` 748-917) at time `t`. `none`: undefined behaviour. -/
def pass (t : Nat) (e : Env) (s : St) : Option (St × Out) :=
  if s.wait ≠ 0 ∧ since (clk t) s.lastIt < s.wait then some ({ s with restart := false }, {})
  else awake t e { s with restart := false }

/-- What happens to the connection object: a pass of `iterate`; bytes are written
(`updateLastSentTime`, `supla_srpc.cpp` 227-236, 942-944); the device drops the connection
(`disconnect`, called by `Network::DisconnectProtocols` when the network is lost or restarted); the
activity timeout is set by the program. -/
inductive Op where
  | pass (t : Nat) (e : Env)
  | wrote (t : Nat)
  | down
  | timeout (n : Nat)
deriving DecidableEq, Repr

/-- One operation; only passes have visible results. -/
def step (op : Op) (s : St) : Option (St × Out) :=
  match op with
  | .pass t e => pass t e s
  | .wrote t => some ({ s with lastSent := clk t }, {})
  | .down => some (disconnect s, {})
  | .timeout n => some (setTimeout n s, {})

/-- A history; the visible results in order. -/
def run : List Op → St → Option (St × List Out)
  | [], s => some (s, [])
  | op :: ops, s => match step op s with
    | none => none
    | some (s1, o) => match run ops s1 with
      | none => none
      | some (s2, os) => some (s2, o :: os)

/-- `isRegisteredAndReady` (`supla_srpc.cpp` 1059-1061). -/
def ready (s : St) : Bool := s.reg = .ok

/-- `getConnectionFailTime` (`supla_srpc.cpp` 982-985). -/
def failTime (s : St) : Nat := s.fails * 10

end Verif.Srpc
