/-!
# Locks taken by `AutoLock`

Models `src/supla/auto_lock.cpp` 20-40, the mutex of the ESP-IDF port
(`extras/porting/esp-idf/esp_idf_mutex.cpp` 37-43: a second take by the same
task waits for ever), the methods of the network client that use it
(`extras/porting/esp-idf/esp_idf_client.cpp` 57-220) and those of the LEDs
(`src/supla/control/blinking_led.cpp` 39-57, 110-126;
`src/supla/device/status_led.cpp` 79-80, 109-128, 272-293).
-/

namespace Verif.Locks

/-- What a task does to the mutex and to the data it guards. -/
inductive Ev where
  | take | give | touch
  deriving DecidableEq, Repr

/-- What a method does inside the scope of its `AutoLock`: `lock()`,
`unlock()`, an access to the guarded data, or a call of another method, given
by what that method does. -/
inductive Act where
  | lock | unlock | touch
  | call (es : List Ev)

/-- `AutoLock::lock`, `auto_lock.cpp` 28-33, for a mutex that exists. -/
def doLock (locked : Bool) : List Ev × Bool := if locked then ([], true) else ([.take], true)

/-- `AutoLock::unlock`, `auto_lock.cpp` 35-40. -/
def doUnlock (locked : Bool) : List Ev × Bool := if locked then ([.give], false) else ([], false)

/-- The body of a scope, and the destructor at its end or at a `return`
(`auto_lock.cpp` 24-26). -/
def body (locked : Bool) : List Act → List Ev
  | [] => (doUnlock locked).1
  | .lock :: as => (doLock locked).1 ++ body (doLock locked).2 as
  | .unlock :: as => (doUnlock locked).1 ++ body (doUnlock locked).2 as
  | .touch :: as => .touch :: body locked as
  | .call es :: as => es ++ body locked as

/-- A scope with an `AutoLock`: the constructor locks (`auto_lock.cpp` 20-22). -/
def scope (as : List Act) : List Ev := (doLock false).1 ++ body (doLock false).2 as

/-! ## The network client; the guarded data is `client` -/

/-- `stop`, `esp_idf_client.cpp` 212-220. -/
def stop : List Ev := scope [.touch]

/-- `connectImp`, `esp_idf_client.cpp` 57-129: with a client (59-62), or
without memory for one (77-81), or after the attempt (82-128).
Simplification: the report to the log of last states (117-119) takes another
mutex and is left out. -/
def connectImp (present : Bool) (memory : Bool) : List Ev :=
  if present then scope [.touch]
  else if memory then scope [.touch, .touch, .touch]
  else scope [.touch, .touch]

/-- `writeImp`, `esp_idf_client.cpp` 131-142. -/
def writeImp (present : Bool) : List Ev :=
  if present then scope [.touch, .touch] else scope [.touch]

/-- `available`, `esp_idf_client.cpp` 144-174.  `first`, `again`: whether the
client is there at 146 and at 163; `err`: whether 156-157 finds an error;
`size`: the bytes at 166. -/
def availableActs (first err again : Bool) (size : Int) : List Act :=
  if first then
    [.touch, .touch, .unlock] ++
      (if err then [.call stop]
       else [.lock, .touch] ++
         (if again then [.touch, .unlock] ++ (if size < 0 then [.call stop] else []) else []))
  else [.touch]

/-- `available` as a whole, `esp_idf_client.cpp` 144-174. -/
def available (first err again : Bool) (size : Int) : List Ev :=
  scope (availableActs first err again size)

/-- One round of the loop of `readImp`: the client is gone (182-184), the
library wants another call (188-192), failed (193-197), the connection is
closed (198-202), bytes were read (203). -/
inductive Round where
  | gone | again | failed | closed | data
  deriving DecidableEq, Repr

/-- The loop, `esp_idf_client.cpp` 180-204.  A list that ends after `again`
stands for a loop seen up to there, with the scope closed for it. -/
def readLoop : List Round → List Act
  | [] => []
  | .gone :: _ => [.lock, .touch]
  | .again :: rs => [.lock, .touch, .touch, .unlock] ++ readLoop rs
  | .failed :: _ => [.lock, .touch, .touch, .unlock]
  | .closed :: _ => [.lock, .touch, .touch, .unlock, .call stop]
  | .data :: _ => [.lock, .touch, .touch, .unlock]

/-- `readImp`, `esp_idf_client.cpp` 176-210.  `available` runs before the scope
(177) and its answer decides: positive only for a size over zero. -/
def readImp (first err again : Bool) (size : Int) (rs : List Round) : List Ev :=
  available first err again size ++
    (if first = true ∧ err = false ∧ again = true ∧ 0 < size then scope (readLoop rs) else [])

/-! ## The LEDs; the guarded data is the sequence and the pin -/

/-- `BlinkingLed::onInit`, `onTimer`, `setInvertedLogic`, `blinking_led.cpp`
39-57; also `StatusLed::storeModeToConfig`, `setAutoSequence`, `setMode`,
`status_led.cpp` 79-80, 282-293. -/
def simple : List Ev := scope [.touch]

/-- `BlinkingLed::setCustomSequence`, `blinking_led.cpp` 110-126: the numbers
(116-123), the lock released (124), the pin (125). -/
def customSequence : List Ev := scope [.touch, .unlock, .touch]

/-- `StatusLed::iterateAlways`, `status_led.cpp` 109-270; `ended`: the custom
sequence is at its end (120-128). -/
def ledIterate (ended : Bool) : List Ev :=
  if ended then scope [.touch, .unlock, .call simple, .lock, .touch] else scope [.touch]

/-! ## Tasks -/

/-- The mutex, with the task that has it, and what each task has still to do. -/
structure World where
  holder : Option Nat
  todo : Nat → List Ev

/-- One step of task `t`.  A take waits while the mutex is not free (also for
the task that has it: `xSemaphoreTake` on a plain mutex,
`esp_idf_mutex.cpp` 29, 38); no result means the task cannot go on.  A give by a
task that does not have the mutex changes nothing. -/
def step (w : World) (t : Nat) : Option World :=
  match w.todo t with
  | [] => none
  | .take :: es =>
    match w.holder with
    | none => some { holder := some t, todo := fun u => if u = t then es else w.todo u }
    | some _ => none
  | .give :: es =>
    some { holder := if w.holder = some t then none else w.holder, todo := fun u => if u = t then es else w.todo u }
  | .touch :: es => some { holder := w.holder, todo := fun u => if u = t then es else w.todo u }

/-- A schedule: tasks in the order the processor picks them; one that cannot go
on is left where it is. -/
def run : World → List Nat → World
  | w, [] => w
  | w, t :: ts => run ((step w t).getD w) ts

/-- The start: the mutex free. -/
def begins (todo : Nat → List Ev) : World := { holder := none, todo := todo }

end Verif.Locks
