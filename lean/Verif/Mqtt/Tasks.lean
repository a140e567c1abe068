/-!
# MQTT on ESP-IDF: two tasks

`/repo/extras/porting/esp-idf/esp_mqtt.cpp` (lines cited).  The device runs in one task, the MQTT client of ESP-IDF in another; the client calls
`mqttEventHandler` (lines 70-180).  Both use `mutex` and `mutexEventHandler`.

What is assumed of the client (it is not part of the repository): it has one lock, which its task holds while it calls the handler and which
publishing, subscribing and stopping need; the task may take it again; stopping waits for the end of the task.  Messages are not
distinguished: the messages sent after connecting (lines 323-331: status, documents, subscriptions and states of all channels, each one
call of `publishImp` or `subscribeImp`) are numbered from 0 to `n - 1`.
-/

namespace Verif.Mqtt.Tasks

/-- The two tasks. -/
inductive Who | main | client
deriving DecidableEq, Repr

/-- Events the client reports; `lost` stands for `MQTT_EVENT_BEFORE_CONNECT` and `MQTT_EVENT_DISCONNECTED` (same treatment). -/
inductive Ev | lost | up | error | data
deriving DecidableEq, Repr

/-- Where the main task is. -/
inductive M
  /-- anywhere else in the program -/
  | work
  /-- line 313 -/
  | sync1
  /-- line 314 -/
  | sync2
  /-- line 315 -/
  | sync3
  /-- lines 325-330, before message `i` -/
  | setup (i : Nat)
  /-- line 397 or 407, waiting for the client's lock; message of the setup or another one -/
  | pub1 (j : Option Nat)
  /-- line 397 or 407, sending -/
  | pub2 (j : Option Nat)
  /-- line 398 or 408 -/
  | pub3 (j : Option Nat)
  /-- line 277 or 283, waiting for the client's lock -/
  | stop1
  /-- line 277 or 283, waiting for the end of the task -/
  | stop2
  /-- line 288 -/
  | stop3
deriving DecidableEq, Repr

/-- Where the client's task is. -/
inductive T
  /-- not there -/
  | off
  /-- without its lock -/
  | idle
  /-- with its lock -/
  | held
  /-- line 75 -/
  | ev1 (e : Ev)
  /-- line 77 -/
  | ev2 (e : Ev)
  /-- line 84 -/
  | ev3 (e : Ev)
  /-- in the handler, after the change of the state -/
  | body
  /-- publishing from the handler, line 398 or 408 -/
  | hp
  /-- line 180, after the first unlocking -/
  | out
deriving DecidableEq, Repr

/-- The state.  `lib`: the client has a connection; `pub i`: message `i` of the setup went out over this connection (both no variables of the
program). -/
structure W where
  n : Nat
  mtx : Option Who
  meh : Option Who
  api : Option Who
  m : M
  t : T
  run : Bool
  started : Bool
  connected : Bool
  enter : Bool
  lib : Bool
  pub : Nat → Bool

/-- After `onInit`, lines 191-261. -/
def start (n : Nat) : W := ⟨n, some .main, none, none, .work, .off, false, false, false, false, false, fun _ => false⟩

/-- What the handler does with an event: lines 85-110, `setConnecting`, `setRegisteredAndReady`, `setConnectionError` (366-386). -/
def handle (s : W) : Ev → W
  | .lost => { s with connected := false, enter := false }
  | .up => { s with connected := true, enter := true }
  | .error => { s with connected := false, enter := false }
  | .data => s

/-- Where the main task goes on after a message. -/
def after : Option Nat → M
  | none => .work
  | some i => .setup (i + 1)

/-- A message sent: it goes out if there is a connection. -/
def send (s : W) (j : Option Nat) : W := { s with pub := fun i => s.pub i || (s.lib && decide (j = some i)) }

/-- Steps of the main task. -/
inductive MainStep : W → W → Prop
  /-- lines 359-361 -/
  | start (s : W) : s.m = .work → s.started = false → MainStep s { s with started := true, enter := false, run := true, t := .idle }
  /-- line 312 -/
  | sync (s : W) : s.m = .work → s.started = true → MainStep s { s with mtx := none, m := .sync1 }
  /-- line 313 -/
  | sync1 (s : W) : s.m = .sync1 → s.meh = none → MainStep s { s with meh := some .main, m := .sync2 }
  /-- line 314 -/
  | sync2 (s : W) : s.m = .sync2 → s.mtx = none → MainStep s { s with mtx := some .main, m := .sync3 }
  /-- lines 315-331 -/
  | sync3 (s : W) : s.m = .sync3 →
      MainStep s { s with meh := none, enter := if s.connected then false else s.enter, m := if s.connected = true ∧ s.enter = true then .setup 0 else .work }
  /-- the end of lines 328-330 -/
  | done (s : W) (i : Nat) : s.m = .setup i → s.n ≤ i → MainStep s { s with m := .work }
  /-- lines 392-394 -/
  | skip (s : W) (i : Nat) : s.m = .setup i → i < s.n → s.connected = false → MainStep s { s with m := .setup (i + 1) }
  /-- line 396 -/
  | setup (s : W) (i : Nat) : s.m = .setup i → i < s.n → s.connected = true → MainStep s { s with mtx := none, m := .pub1 (some i) }
  /-- line 396, for any other message -/
  | other (s : W) : s.m = .work → s.connected = true → MainStep s { s with mtx := none, m := .pub1 none }
  /-- line 397 -/
  | pub1 (s : W) (j : Option Nat) : s.m = .pub1 j → s.api = none → MainStep s { s with api := some .main, m := .pub2 j }
  /-- line 397 -/
  | pub2 (s : W) (j : Option Nat) : s.m = .pub2 j → MainStep s { send s j with api := none, m := .pub3 j }
  /-- line 398 -/
  | pub3 (s : W) (j : Option Nat) : s.m = .pub3 j → s.mtx = none → MainStep s { s with mtx := some .main, m := after j }
  /-- line 275 or 281 -/
  | stop (s : W) : s.m = .work → s.started = true → MainStep s { s with mtx := none, m := .stop1 }
  /-- line 277 or 283 -/
  | stop1 (s : W) : s.m = .stop1 → s.api = none → MainStep s { s with run := false, lib := false, m := .stop2 }
  /-- lines 278-287 -/
  | stop2 (s : W) : s.m = .stop2 → s.t = .off → MainStep s { s with started := false, m := .stop3 }
  /-- lines 288-290 -/
  | stop3 (s : W) : s.m = .stop3 → s.mtx = none → MainStep s { s with mtx := some .main, enter := false, m := .work }

/-- Steps of the client's task, other than a new event. -/
inductive ClientStep : W → W → Prop
  /-- the task ends -/
  | stop (s : W) : s.t = .idle → s.run = false → ClientStep s { s with t := .off }
  /-- nothing to be done -/
  | free (s : W) : s.t = .held → ClientStep s { s with api := none, t := .idle }
  /-- line 75 -/
  | ev1 (s : W) (e : Ev) : s.t = .ev1 e → s.meh = none → ClientStep s { s with meh := some .client, t := .ev2 e }
  /-- line 77 -/
  | ev2 (s : W) (e : Ev) : s.t = .ev2 e → s.mtx = none → ClientStep s { s with mtx := some .client, t := .ev3 e }
  /-- lines 84-179 -/
  | ev3 (s : W) (e : Ev) : s.t = .ev3 e → ClientStep s { handle s e with t := .body }
  /-- line 398 or 408 in the handler -/
  | back (s : W) : s.t = .hp → s.mtx = none → ClientStep s { s with mtx := some .client, t := .body }
  /-- line 180 -/
  | out (s : W) : s.t = .body → ClientStep s { s with mtx := none, t := .out }
  /-- line 180 -/
  | out2 (s : W) : s.t = .out → ClientStep s { s with meh := none, t := .held }

/-- What the client's task does when something happens: it takes its lock, reports an event, or publishes from the handler (line 396 or 406). -/
inductive EventStep : W → W → Prop
  | take (s : W) : s.t = .idle → s.run = true → s.api = none → EventStep s { s with api := some .client, t := .held }
  | up (s : W) : s.t = .held → EventStep s { s with lib := true, pub := fun _ => false, t := .ev1 .up }
  | lost (s : W) : s.t = .held → EventStep s { s with lib := false, t := .ev1 .lost }
  | error (s : W) : s.t = .held → EventStep s { s with t := .ev1 .error }
  | data (s : W) : s.t = .held → EventStep s { s with t := .ev1 .data }
  | publish (s : W) : s.t = .body → EventStep s { s with mtx := none, t := .hp }

/-- Any step. -/
def Step (s s' : W) : Prop := MainStep s s' ∨ ClientStep s s' ∨ EventStep s s'

/-- The states of all schedules. -/
inductive Reach (n : Nat) : W → Prop
  | start : Reach n (start n)
  | step (s s' : W) : Reach n s → Step s s' → Reach n s'

/-! ## A message arrives -/

/-- `strncpy` into a buffer filled with zeros: at most `k` characters, up to the first zero. -/
def copyText (k : Nat) (s : List Nat) : List Nat := (s.take k).takeWhile (· != 0)

/-- `mqttEventDataProcess`, lines 48-68, with `MAX_TOPIC_LEN` = 256 (`/repo/src/supla/protocol/mqtt_topic.h`) and `MQTT_MAX_PAYLOAD_LEN` = 50: the
topic and the text `processData` is called with; `none`: the topic fills its buffer, and its end is looked for behind it
(`/repo/src/supla/protocol/mqtt.cpp` line 871), undefined behaviour. -/
def intake (topic data : List Nat) : Option (List Nat × List Nat) :=
  if (copyText (min topic.length 256) topic).length = 256 then none else some (copyText (min topic.length 256) topic, copyText (min data.length 49) data)

end Verif.Mqtt.Tasks
