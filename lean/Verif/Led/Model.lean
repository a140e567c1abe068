import Verif.Common.Clock

/-!
# LEDs

Models /repo/src/supla/control/blinking_led.cpp (B) and /repo/src/supla/device/status_led.cpp (S). All readings of
`millis()` within one call are taken as the same; the lock is not modelled (calls are atomic).
-/

namespace Verif.Led

/-- `LedState`, blinking_led.h line 30. -/
inductive State
  | fresh | on | off
deriving DecidableEq, Repr

/-- The fields of `BlinkingLed`, blinking_led.h lines 57-66, and the level of the pin. -/
structure Led where
  onMs : Nat
  offMs : Nat
  pauseMs : Nat
  limit : Nat
  counter : Nat
  repeats : Nat
  invert : Bool
  level : Bool
  last : Nat
  state : State
deriving DecidableEq, Repr

/-- blinking_led.h lines 58-66; the level before the start is given. -/
def fresh (invert level : Bool) : Led := ⟨0, 1000, 0, 0, 0, 0, invert, level, 0, .fresh⟩

/-- `turnOn`, B lines 59-63. -/
def turnOn (now : Nat) (s : Led) : Led := { s with last := clk now, state := .on, level := !s.invert }

/-- `turnOff`, B lines 65-69. -/
def turnOff (now : Nat) (s : Led) : Led := { s with last := clk now, state := .off, level := s.invert }

/-- B lines 73-75, called if a duration is 0. -/
def steadyOff (now : Nat) (s : Led) : Led := if s.state ≠ .off ∧ s.onMs = 0 then turnOff now s else s

/-- B lines 76-78, called if a duration is 0. -/
def steadyOn (now : Nat) (s : Led) : Led := if s.state ≠ .on ∧ s.offMs = 0 then turnOn now s else s

/-- Whether a group is over: the condition of B lines 85 and 90. -/
def groupOver (s : Led) : Prop := 0 < s.limit ∧ 0 < s.pauseMs ∧ s.counter = 0

instance (s : Led) : Decidable (groupOver s) := inferInstanceAs (Decidable (_ ∧ _ ∧ _))

/-- B lines 102-105: the LED goes on and the counter down. -/
def blink (now : Nat) (s : Led) : Led := turnOn now { s with counter := s.counter - 1 }

/-- B lines 90-105: the end of an off phase. -/
def next (now : Nat) (s : Led) : Led :=
  if groupOver s then
    if s.repeats = 1 then { s with counter := s.limit, onMs := 0, offMs := 1000, limit := 0 }
    else blink now { s with counter := s.limit, repeats := s.repeats - 1 }
  else blink now s

/-- `updatePin`, B lines 71-108. -/
def updatePin (now : Nat) (s : Led) : Led :=
  if s.onMs = 0 ∨ s.offMs = 0 then steadyOn now (steadyOff now s)
  else if s.state = .on then
    if since (clk now) s.last > s.onMs then turnOff now s else s
  else if s.state = .off then
    if groupOver s ∧ since (clk now) s.last < s.pauseMs then s
    else if since (clk now) s.last > s.offMs then next now s
    else s
  else s

/-- `onInit`, B lines 39-46. -/
def onInit (now : Nat) (s : Led) : Led :=
  if (updatePin now s).state = .fresh then turnOn now (updatePin now s) else updatePin now s

/-- `setInvertedLogic`, B lines 53-57. -/
def setInverted (now : Nat) (v : Bool) (s : Led) : Led := updatePin now { s with invert := v }

/-- `setCustomSequence`, B lines 110-126. -/
def setCustom (now : Nat) (on off pause limit repeats : Nat) (s : Led) : Led :=
  updatePin now { s with onMs := on, offMs := off, pauseMs := pause, limit := limit, counter := limit, repeats := repeats, state := .off, last := 0 }

/-! ## The status LED -/

/-- `LedMode`, status_led.h lines 26-31. -/
inductive Mode
  | onWhenConnected | offWhenConnected | alwaysOff | configOnly
deriving DecidableEq, Repr

/-- `LedSequence`, status_led.h lines 39-48. -/
inductive Seq
  | network | server | ready | config | download | problem | testing | custom
deriving DecidableEq, Repr

/-- The values of `getCurrentStatus` that are told apart, S lines 131-203; all others are `other`. -/
inductive Status
  | initialized | networkDisconnected | registering | softwareReset | offline | registered | configMode | download
  | suplaDisabled | testWait | other
deriving DecidableEq, Repr

/-- A protocol layer: `isConnectionError`, `isConnecting`. -/
structure Layer where
  error : Bool
  connecting : Bool
deriving DecidableEq, Repr

/-- S lines 205-217: the loop over the protocol layers. -/
def layers (sleeping : Bool) : List Layer → Seq → Seq
  | [], q => q
  | p :: l, q =>
    if p.error then .problem
    else layers sleeping l (if p.connecting ∧ sleeping = false then .server else q)

/-- S lines 131-203: the sequence for a status and whether the layers are looked at. -/
def statusSeq (sleeping : Bool) : Status → Seq × Bool
  | .initialized => (.network, false)
  | .networkDisconnected => (.network, false)
  | .registering => (.server, true)
  | .softwareReset => (.custom, false)
  | .offline => (.ready, true)
  | .registered => (.ready, true)
  | .configMode => (.config, false)
  | .download => (.download, false)
  | .suplaDisabled => (.ready, true)
  | .testWait => (if sleeping then .ready else .testing, false)
  | .other => (.problem, false)

/-- S lines 131-217. -/
def autoSeq (sleeping : Bool) (l : List Layer) (st : Status) : Seq :=
  if (statusSeq sleeping st).2 then layers sleeping l (statusSeq sleeping st).1 else (statusSeq sleeping st).1

/-- S lines 225-269: the durations of a sequence; `none` leaves them. -/
def durations (m : Mode) : Seq → Option (Nat × Nat)
  | .network => some (2000, 2000)
  | .server => some (500, 500)
  | .ready => if m = .onWhenConnected then some (1000, 0) else some (0, 1000)
  | .config => some (100, 100)
  | .download => some (20, 20)
  | .problem => some (300, 100)
  | .testing => some (50, 50)
  | .custom => none

/-- A status LED. -/
structure StatusLed where
  led : Led
  seq : Seq
  mode : Mode
deriving DecidableEq, Repr

/-- Setting the durations. -/
def setDurations (s : StatusLed) (on off : Nat) : StatusLed := { s with led := { s.led with onMs := on, offMs := off } }

/-- `setAutoSequence`, S lines 282-288. -/
def setAuto (s : StatusLed) : StatusLed := { s with seq := .network, led := { s.led with repeats := 0 } }

/-- S lines 225-269 as an update. -/
def apply (s : StatusLed) : StatusLed :=
  match durations s.mode s.seq with
  | some (a, b) => setDurations s a b
  | none => s

/-- S lines 131-269. For `softwareReset` the durations are set at lines 143-144. -/
def automatic (sleeping : Bool) (l : List Layer) (st : Status) (s : StatusLed) : StatusLed :=
  if s.mode = .configOnly ∧ autoSeq sleeping l st ≠ .config then setDurations { s with seq := autoSeq sleeping l st } 0 1000
  else if st = .softwareReset then setDurations { s with seq := .custom } 0 1000
  else apply { s with seq := autoSeq sleeping l st }

/-- Whether a custom sequence has run out, S line 121. -/
def ranOut (s : StatusLed) : Prop := s.led.repeats = 1 ∧ s.led.onMs = 0 ∧ s.led.offMs = 1000

instance (s : StatusLed) : Decidable (ranOut s) := inferInstanceAs (Decidable (_ ∧ _ ∧ _))

/-- `iterateAlways`, S lines 109-270. -/
def iterate (sleeping : Bool) (l : List Layer) (st : Status) (s : StatusLed) : StatusLed :=
  if s.mode = .alwaysOff ∧ st ≠ .download ∧ st ≠ .configMode ∧ s.seq ≠ .custom then setDurations s 0 1000
  else if s.seq = .custom then
    if ranOut s then automatic sleeping l st (setAuto s) else s
  else automatic sleeping l st s

/-- `setCustomSequence` of the status LED, S lines 272-280. -/
def setCustomStatus (now : Nat) (on off pause limit repeats : Nat) (s : StatusLed) : StatusLed :=
  { s with seq := .custom, led := setCustom now on off pause limit repeats s.led }

/-- `identify`, S lines 315-317. -/
def identify (now : Nat) (s : StatusLed) : StatusLed := setCustomStatus now 150 150 400 3 5 s

end Verif.Led
