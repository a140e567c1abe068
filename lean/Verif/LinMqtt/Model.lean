import Verif.LinClient.Model

/-! # MQTT client of the Linux port

`/repo/extras/porting/linux/mqtt_client.cpp` (A), `/repo/extras/porting/linux/linux_mqtt_client.cpp` (B),
`/repo/extras/porting/linux/supla/source/mqtt_src.cpp` (C). The MQTT-C library is not part of the repository; of it is
taken: `mqtt_sync` calls the reconnect function whenever `error` is not `MQTT_OK`. -/

namespace Verif.LinMqtt

/-! ## Reconnecting -/

/-- `client->error`: connected, first connection wanted (`MQTT_ERROR_INITIAL_RECONNECT`), any other error. -/
inductive Err where
  | ok
  | initial
  | other
deriving DecidableEq, Repr

/-- `client->error` and `delay_time` (A 36). -/
structure R where
  err : Err := .initial
  delay : Nat := 5
deriving DecidableEq, Repr

/-- Seconds waited before the socket is opened (A 278-285). -/
def wait (r : R) : Nat := if r.err = .other then r.delay else 0

/-- `delay_time` for the next time (A 282, 284). -/
def nextDelay (r : R) : Nat := if r.err = .other then (if r.delay ≥ 60 then 60 else r.delay + 15) else 5

/-- `reconnect_client` (A 262-358): `opened` tells whether there is a socket (A 316-321). With one, the connection is
taken as established. -/
def attempt (opened : Bool) (r : R) : R := { err := if opened then .ok else .initial, delay := nextDelay r }

/-- What happens: the connection is lost (or refused by the broker); a pass of the loop (A 182-185), with the outcome of
opening a socket if one is tried. -/
inductive Ev where
  | lost
  | sync (opened : Bool)
deriving DecidableEq, Repr

/-- One step. -/
def step (r : R) : Ev → R
  | .lost => if r.err = .ok then { r with err := .other } else r
  | .sync o => if r.err = .ok then r else attempt o r

/-- A history. -/
def run (es : List Ev) (r : R) : R := es.foldl step r

/-! ## Opening a socket without TLS -/

open LinClient (Addr Fam)

/-- The loop of `open_nb_socket` (A 155-164): a socket for each address in turn, but connected to the first address of
the list (`servinfo`, A 160). Result: connected, and sockets opened (none is closed). Blocking `connect`: an address
answers or does not. -/
def tryAll (first : Addr) : List Addr → Bool × Nat
  | [] => (false, 0)
  | a :: as => if a.fam = first.fam ∧ first.answer.isSome then (true, 1) else ((tryAll first as).1, (tryAll first as).2 + 1)

/-- `open_nb_socket` without TLS (A 133-176) for the addresses of the resolver: connected, sockets opened. -/
def openPlain (addrs : List Addr) : Bool × Nat :=
  match addrs with
  | [] => (false, 0)
  | a :: as => tryAll a (a :: as)

/-- The value returned (A 172-175): −1 if there was no address, otherwise the last socket. Simplified: descriptors are given
out in ascending order from `free`, and `socket` does not fail. -/
def fd (free : Nat) (addrs : List Addr) : Int :=
  if (openPlain addrs).2 = 0 then -1 else ((free + (openPlain addrs).2 - 1 : Nat) : Int)

/-- Does `reconnect_client` take the value as a socket (A 310-316)? Only 0 is the null pointer. -/
def taken (free : Nat) (addrs : List Addr) : Bool := decide (fd free addrs ≠ 0)

/-! ## Messages -/

/-- Text. -/
abbrev Text := List Nat

/-- `topics`: topic and last message (B 32); and the topics copied at the start (`reconnect_state->topics`, A 215-217). -/
structure T where
  msgs : List (Text × Text) := []
  sub : List Text := []
deriving DecidableEq, Repr

/-- `topics[topic] = value`. -/
def set (m : List (Text × Text)) (k v : Text) : List (Text × Text) := (k, v) :: m.filter (·.1 ≠ k)

/-- `subscribeTopic` (B 83-85). -/
def subscribe (t : T) (topic : Text) : T := { t with msgs := set t.msgs topic [] }

/-- `mqtt_client_init` (A 215-217). -/
def start (t : T) : T := { t with sub := t.msgs.map Prod.fst }

/-- `publishCallback` (B 102-116). -/
def receive (t : T) (topic msg : Text) : T := { t with msgs := set t.msgs topic msg }

/-- The message kept for a topic, if the topic is known (C 52-53). -/
def lookup (t : T) (topic : Text) : Option Text := (t.msgs.find? (·.1 = topic)).map Prod.snd

/-- One topic added to the content (C 52-59). -/
def join (acc : Text) (m : Option Text) : Text :=
  match m with
  | none => acc
  | some x => if acc = [] then x else acc ++ 10 :: x

/-- `getContent` (C 49-63). -/
def content (t : T) (topics : List Text) : Text := (topics.map (lookup t)).foldl join []

end Verif.LinMqtt
