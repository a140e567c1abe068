/-
The value of a channel and its reporting to the protocol layers.

Models src/supla/channels/channel.cpp: `setNewValue` (300-307 and its typed variants),
`setUpdateReady`/`clearUpdateReady`/`sendUpdate` (365-403), `setValidityTimeSec` (649-651),
the HVAC field setters (704-1022), `clearHvacState` (1024-1040), `setOffline`/`setOnline`/
`setOnlineAndNotAvailable` (1278-1300) and `fillDeviceChannelStruct` (1343-1437).
-/

namespace Verif.Channel

/-- `THVACValue`, supla-common/proto.h lines 850-858; the fields as unsigned numbers
    (temperatures are 16-bit words, only compared and copied here). -/
structure Hvac where
  isOn : Nat := 0
  mode : Nat := 0
  heat : Nat := 0
  cool : Nat := 0
  flags : Nat := 0
deriving DecidableEq, Repr

/-- The 8 value bytes: the union of channel.h lines 239-245.  A channel of type HVAC uses the
    structured view, every other channel the raw view. -/
inductive Val where
  | raw (bytes : List Nat)
  | hvac (h : Hvac)
deriving DecidableEq, Repr

/-- What a protocol layer is handed for a channel: value, offline state, validity time. -/
structure Report where
  val : Val
  offline : Nat
  validity : Nat
deriving DecidableEq, Repr

/-- Events a channel raises for local actions (src/supla/events.h). -/
inductive Ev where
  | change | secondaryChange | turnOn | turnOff
  | modeOff | modeHeat | modeCool | modeHeatCool | weeklyOn | weeklyOff
deriving DecidableEq, Repr

/-- A channel: current contents, the `valueChanged` flag, the reports handed out so far (newest
    first) and the events raised so far (newest first). -/
structure Ch where
  cur : Report
  changed : Bool := false
  reports : List Report := []
  events : List Ev := []
deriving DecidableEq, Repr

/-- `setUpdateReady`, channel.cpp line 365. -/
def ready (c : Ch) : Ch := { c with changed := true }

/-- `runAction`. -/
def emit (c : Ch) (e : Ev) : Ch := { c with events := e :: c.events }

/-- `memcpy` of a new value into `value`, channel.cpp lines 300-307 (and in each setter). -/
def setVal (c : Ch) (v : Val) : Ch := { c with cur := { c.cur with val := v } }

/-- `Channel::setNewValue(const char *)`, channel.cpp lines 300-307. -/
def setRaw (c : Ch) (b : List Nat) : Ch :=
  match c.cur.val with
  | .raw old => if old = b then c else ready (setVal c (.raw b))
  | .hvac _ => c

/-- A typed `setNewValue` (for example lines 416-436): stores the bytes and, if they changed,
    raises ON_CHANGE and ON_SECONDARY_CHANNEL_CHANGE. -/
def setTyped (c : Ch) (b : List Nat) : Ch :=
  match c.cur.val with
  | .raw old => if old = b then c else emit (emit (ready (setVal c (.raw b))) .change) .secondaryChange
  | .hvac _ => c

/-- `setNewValue(const TElectricityMeter_ExtendedValue_V3 &)`, lines 244-298: marks the channel
    in any case, because the extended value may have changed. -/
def setMeter (c : Ch) (b : List Nat) : Ch := ready (setRaw c b)

/-- `setOffline` (1), `setOnline` (0), `setOnlineAndNotAvailable` (2), lines 1278-1300. -/
def setOfflineState (c : Ch) (k : Nat) : Ch :=
  if c.cur.offline = k then c else ready { c with cur := { c.cur with offline := k } }

/-- `setValidityTimeSec`, lines 649-651: the channel is not marked for sending. -/
def setValidity (c : Ch) (n : Nat) : Ch := { c with cur := { c.cur with validity := n } }

/-- Apply an HVAC setter (`getValueHvac` gives a null pointer for other types, lines 758-770). -/
def onHvac (c : Ch) (f : Ch → Hvac → Ch) : Ch :=
  match c.cur.val with
  | .raw _ => c
  | .hvac h => f c h

/-- `setHvacIsOn`, lines 704-719. -/
def hvacIsOn (c : Ch) (on : Bool) : Ch := onHvac c fun c h =>
  if decide (h.isOn = 1) ≠ on then
    let c := if h.isOn = 0 ∧ on = true then emit c .turnOn
             else if h.isOn ≠ 0 ∧ on = false then emit c .turnOff else c
    ready (setVal (emit c .change) (.hvac { h with isOn := if on then 1 else 0 }))
  else c

/-- The clamped protocol encoding 2..102 of a percentage, lines 725-728. -/
def percentCode (p : Nat) : Nat := min p 100 + 2

/-- `setHvacIsOnPercent`, lines 721-743. -/
def hvacPercent (c : Ch) (p : Nat) : Ch := onHvac c fun c h =>
  if h.isOn ≠ percentCode p then
    let c := if h.isOn = 2 ∧ percentCode p ≠ 2 then emit c .turnOn
             else if h.isOn ≠ 2 ∧ percentCode p = 2 then emit c .turnOff else c
    ready (setVal (emit c .change) (.hvac { h with isOn := percentCode p }))
  else c

/-- The event of a new mode, lines 749-758. -/
def modeEvent (m : Nat) (c : Ch) : Ch :=
  if m = 1 then emit c .modeOff else if m = 2 then emit c .modeHeat
  else if m = 3 then emit c .modeCool else if m = 4 then emit c .modeHeatCool else c

/-- `setHvacMode`, lines 745-759 (7 is SUPLA_HVAC_MODE_DRY). -/
def hvacMode (c : Ch) (m : Nat) : Ch := onHvac c fun c h =>
  if h.mode ≠ m ∧ m ≤ 7 then modeEvent m (ready (setVal c (.hvac { h with mode := m }))) else c

/-- Bit `i` of the flags. -/
def flag (h : Hvac) (i : Nat) : Bool := h.flags.testBit i

/-- `flags |= 1 << i` / `flags &= ~(1 << i)` (clearing a bit written as flipping it when set). -/
def putFlag (fl i : Nat) (on : Bool) : Nat :=
  if on then fl ||| 2 ^ i else if fl.testBit i then fl ^^^ 2 ^ i else fl

/-- The setters of a flag bit, lines 842-1022, all of the same shape.  Bit 4 (weekly schedule)
    also raises an event. -/
def hvacFlag (c : Ch) (i : Nat) (on : Bool) : Ch := onHvac c fun c h =>
  if on ≠ flag h i then
    let c := ready (setVal c (.hvac { h with flags := putFlag h.flags i on }))
    if i = 4 then emit c (if on then .weeklyOn else .weeklyOff) else c
  else c

/-- `setHvacFlags`, lines 834-840. -/
def hvacFlags (c : Ch) (fl : Nat) : Ch := onHvac c fun c h =>
  if h.flags ≠ fl then ready (setVal c (.hvac { h with flags := fl })) else c

/-- `setHvacSetpointTemperatureHeat`, lines 784-792 (flag bit 0). -/
def hvacHeat (c : Ch) (t : Nat) : Ch := onHvac c fun c h =>
  if h.heat ≠ t ∨ flag h 0 = false then
    hvacFlag (ready (setVal c (.hvac { h with heat := t }))) 0 true
  else c

/-- `setHvacSetpointTemperatureCool`, lines 774-782 (flag bit 1). -/
def hvacCool (c : Ch) (t : Nat) : Ch := onHvac c fun c h =>
  if h.cool ≠ t ∨ flag h 1 = false then
    hvacFlag (ready (setVal c (.hvac { h with cool := t }))) 1 true
  else c

/-- `clearHvacSetpointTemperatureHeat`, lines 804-812. -/
def hvacClearHeat (c : Ch) : Ch := onHvac c fun c h =>
  if h.heat ≠ 0 ∨ flag h 0 = true then
    hvacFlag (ready (setVal c (.hvac { h with heat := 0 }))) 0 false
  else c

/-- `clearHvacSetpointTemperatureCool`, lines 794-802. -/
def hvacClearCool (c : Ch) : Ch := onHvac c fun c h =>
  if h.cool ≠ 0 ∨ flag h 1 = true then
    hvacFlag (ready (setVal c (.hvac { h with cool := 0 }))) 1 false
  else c

/-- `clearHvacState`, lines 1024-1040. -/
def hvacClear (c : Ch) : Ch :=
  let c := hvacClearHeat (hvacClearCool c)
  let c := hvacMode c 1
  let c := hvacFlag c 4 false
  let c := hvacFlag c 2 false
  let c := hvacFlag c 3 false
  let c := hvacIsOn c false
  let c := hvacFlag c 6 false
  let c := hvacFlag c 7 false
  let c := hvacFlag c 8 false
  hvacFlag c 5 false

/-- Hand the current contents out and clear the flag. -/
def report (c : Ch) : Ch := { c with changed := false, reports := c.cur :: c.reports }

/-- `sendUpdate`, lines 375-396. -/
def sendUpdate (c : Ch) : Ch := if c.changed then report c else c

/-- `fillDeviceChannelStruct`, lines 1343-1437: the registration message. -/
def fill (c : Ch) : Ch := report c

/-- Everything that can happen to a channel. -/
inductive COp where
  | raw (b : List Nat) | typed (b : List Nat) | meter (b : List Nat)
  | offline (k : Nat) | validity (n : Nat)
  | isOn (on : Bool) | percent (p : Nat) | mode (m : Nat) | flag (i : Nat) (on : Bool)
  | flags (fl : Nat) | heat (t : Nat) | cool (t : Nat) | clearHeat | clearCool | clearHvac
  | send | register
deriving DecidableEq, Repr

/-- One operation, each the function cited above. -/
def cstep (c : Ch) : COp → Ch
  | .raw b => setRaw c b
  | .typed b => setTyped c b
  | .meter b => setMeter c b
  | .offline k => setOfflineState c k
  | .validity n => setValidity c n
  | .isOn on => hvacIsOn c on
  | .percent p => hvacPercent c p
  | .mode m => hvacMode c m
  | .flag i on => hvacFlag c i on
  | .flags fl => hvacFlags c fl
  | .heat t => hvacHeat c t
  | .cool t => hvacCool c t
  | .clearHeat => hvacClearHeat c
  | .clearCool => hvacClearCool c
  | .clearHvac => hvacClear c
  | .send => sendUpdate c
  | .register => fill c

/-- A history of operations. -/
def crun (c : Ch) (ops : List COp) : Ch := ops.foldl cstep c

/-- A freshly created channel that was put in the first registration message. -/
def fresh (v : Val) : Ch := fill { cur := { val := v, offline := 0, validity := 0 } }

end Verif.Channel
