import Verif.Common.Clock
import Verif.Common.Round
/-!
# Model of the roller shutter

Source: `/repo/src/supla/control/roller_shutter.cpp` (RS below) and
`/repo/src/supla/control/roller_shutter_interface.{cpp,h}` (RSI below).

Simplifications:
* both output pins are configured (`pinUp >= 0 && pinDown >= 0`) and distinct; their levels are kept
  as on/off (the `highIsOn` polarity is applied uniformly by the code);
* every pin write appends `(time, up output, down output)` to a log kept in the state;
* `millis()` is read once per timer pass;
* commands and timer passes do not interleave;
* the channel value, logging, saving of configuration and state are left out; `flags` bits other
  than "calibrate" only affect the reported flags and are left out.

Floating point: `1.0 * t * d / 100.0`, `t * 1.1` and `t * 0.3` converted to `uint32_t` are replaced
by integer divisions (the double result is never further than 1e-6 from the exact value, and is
exact or larger when that is an integer); the fraction of movement done and the configured time
margin are kept with explicit rounding. Conversions out of range and of NaN are undefined
behaviour: the result is `none`.
-/

namespace Verif.Shutter

/-- `enum class Directions` (RSI.h, line 37). -/
inductive Dir | stop | down | up
deriving DecidableEq, Repr

/-- `UNKNOWN_POSITION` (RSI.h, line 25). -/
def unknownPos : Int := -1
/-- `STOP_POSITION` (RSI.h, line 26). -/
def stopPos : Int := -2
/-- `MOVE_UP_POSITION` (RSI.h, line 27). -/
def moveUpPos : Int := -3
/-- `MOVE_DOWN_POSITION` (RSI.h, line 28). -/
def moveDownPos : Int := -4
/-- `RS_DEFAULT_OPERATION_TIMEOUT_MS` (RSI.h, line 29). -/
def defaultTimeout : Nat := 60000

/-- The two motor outputs after a pin write. -/
structure Snap where
  t : Nat
  up : Bool
  down : Bool
deriving DecidableEq, Repr

/-- Member variables (RSI.h, lines 154-182; RS.h, lines 46-55) and the outputs. -/
structure RS where
  /-- `rsConfig.motorUpsideDown` -/
  motor : Nat := 1
  /-- `rsConfig.buttonsUpsideDown` -/
  buttons : Nat := 1
  /-- `rsConfig.timeMargin` -/
  margin : Int := -1
  /-- `isTimeSettingAvailable()`: a channel flag -/
  timeAvail : Bool := true
  /-- `getCalibrate()` -/
  calibrate : Bool := false
  dir : Dir := .stop
  lastDir : Dir := .stop
  /-- `currentPosition` -/
  pos : Int := unknownPos
  /-- `targetPosition` -/
  target : Int := stopPos
  /-- `lastPositionBeforeMovement` -/
  startPos : Int := unknownPos
  /-- `newTargetPositionAvailable` -/
  newTarget : Bool := false
  /-- `closingTimeMs` -/
  closing : Nat := 0
  /-- `openingTimeMs` -/
  opening : Nat := 0
  /-- `calibrationTime` -/
  calTime : Nat := 0
  /-- `lastMovementStartTime` -/
  started : Nat := 0
  /-- `doNothingTime` -/
  pause : Nat := 0
  /-- `operationTimeoutMs` -/
  timeout : Nat := 0
  comfortDown : Nat := 20
  comfortUp : Nat := 80
  upOn : Bool := false
  downOn : Bool := false
  log : List Snap := []
deriving DecidableEq, Repr

/-- Conversion of an `int` to `int8_t`. -/
def toInt8 (n : Int) : Int := (n + 128) % 256 - 128

/-- The pins. -/
inductive Pin | up | down
deriving DecidableEq, Repr

/-- `Io::digitalWrite` of a motor output. -/
def write (t : Nat) (p : Pin) (on : Bool) (s : RS) : RS :=
  match p with
  | .up => { s with upOn := on, log := s.log ++ [⟨t, on, s.downOn⟩] }
  | .down => { s with downOn := on, log := s.log ++ [⟨t, s.upOn, on⟩] }

/-- Pin driven for "down": `rsConfig.motorUpsideDown == 2 ? pinUp : pinDown` (RS lines 83, 101). -/
def RS.downPin (s : RS) : Pin := if s.motor = 2 then .up else .down
/-- Pin driven for "up" (RS lines 92, 110). -/
def RS.upPin (s : RS) : Pin := if s.motor = 2 then .down else .up

/-- `relayDownOn/Off`, RS lines 80-87 and 98-105. -/
def relayDown (t : Nat) (on : Bool) (s : RS) : RS := write t s.downPin on s
/-- `relayUpOn/Off`, RS lines 89-96 and 107-114. -/
def relayUp (t : Nat) (on : Bool) (s : RS) : RS := write t s.upPin on s

/-- `switchOffRelays`, RS lines 130-133. -/
def switchOff (t : Nat) (s : RS) : RS := relayDown t false (relayUp t false s)

/-- `stopMovement`, RS lines 72-78. -/
def stopMovement (t : Nat) (s : RS) : RS :=
  { switchOff t s with dir := .stop, pause := clk t }

/-- `startClosing`, RS lines 116-121. -/
def startClosing (t : Nat) (s : RS) : RS :=
  relayDown t true (relayUp t false { s with started := clk t, dir := .down })

/-- `startOpening`, RS lines 123-128. -/
def startOpening (t : Nat) (s : RS) : RS :=
  relayUp t true (relayDown t false { s with started := clk t, dir := .up })

/-- `setTargetPosition`, RSI lines 377-392. -/
def setTarget (n : Int) (s : RS) : RS :=
  let g := toInt8 n
  let d := if g = moveUpPos then Dir.up
    else if g = moveDownPos then .down
    else if g ≥ 0 then (if g < s.pos then .up else if g > s.pos then .down else s.lastDir)
    else s.lastDir
  { s with target := g, newTarget := true, lastDir := d }

/-- `setCurrentPosition`, RSI lines 360-369. -/
def setPosition (n : Int) (s : RS) : RS :=
  { s with pos := if n < 0 then 0 else if n > 100 then 100 else n, calTime := 0, calibrate := false }

/-- `setNotCalibrated`, RSI lines 371-375. -/
def setNotCalibrated (s : RS) : RS := { s with pos := unknownPos, calTime := 0, calibrate := false }

/-- `setCalibrationNeeded`, RSI lines 411-414. -/
def calibrationNeeded (s : RS) : RS := { setPosition unknownPos s with calibrate := true }

/-- `triggerCalibration`, RSI lines 406-409. -/
def triggerCalibration (s : RS) : RS := setTarget 0 (calibrationNeeded s)

/-- `isCalibrationRequested`, RSI lines 416-419. -/
def RS.calRequested (s : RS) : Bool :=
  s.calibrate && (!s.timeAvail || (s.opening != 0 && s.closing != 0))

/-- `isCalibrated`, RSI lines 421-427. -/
def RS.calibrated (s : RS) : Bool :=
  if s.timeAvail then !s.calibrate && s.opening != 0 && s.closing != 0
  else !s.calibrate && s.pos != unknownPos

/-- `inMove`, RSI lines 402-404. -/
def RS.inMove (s : RS) : Bool := s.dir != .stop

/-- `setOpenCloseTime`, RSI lines 209-225. -/
def setTimes (c o : Nat) (s : RS) : RS :=
  if s.timeAvail ∧ (c % 2 ^ 32 ≠ s.closing ∨ o % 2 ^ 32 ≠ s.opening) then
    calibrationNeeded { s with closing := c % 2 ^ 32, opening := o % 2 ^ 32 }
  else s

/-- The rounding of the floating point types used: `double` and `float`. -/
structure Fp where
  f64 : Rounding
  f32 : Rounding

/-- `getTimeMarginValue`, RSI lines 754-770. -/
def marginValue (F : Fp) (m : Int) (full : Nat) : Option Nat :=
  if full = 0 then some defaultTimeout
  else if m ≤ 0 then some (full * 3 / 10)
  else if m = 1 then some 50
  else
    let x := (F.f64.rnd ((full : Rat) * F.f64.rnd (((m - 1 : Int) : Rat) / 100))).floor.toNat
    if x ≥ 2 ^ 32 then none else some (if x < 50 then 50 else x)

/-- `timeRequired`, RS lines 220-221 and 243-244: `(uint32_t)(1.0 * time * distance / 100.0)`. -/
def required (time : Nat) (dist : Int) : Option Nat :=
  if (time : Int) * dist ≤ -100 then none
  else if (time : Int) * dist / 100 ≥ 2 ^ 32 then none
  else some ((time : Int) * dist / 100).toNat

/-- `fractionOfMovemendDone`, RS lines 222-226 and 245-249, from the elapsed time. -/
def fraction (F : Fp) (elapsed req : Nat) : Option Rat :=
  if req = 0 then (if elapsed = 0 then none else some 1)
  else
    let f := F.f32.rnd (F.f64.rnd ((elapsed : Rat) / (req : Rat)))
    some (if f > 1 then 1 else f)

/-- Conversion of a floating point value to `int`: truncation. -/
def trunc (q : Rat) : Int := if q ≥ 0 then q.floor else -(-q).floor

/-- RS lines 219-228: the position while moving up. -/
def posUp (F : Fp) (opening : Nat) (start : Int) (elapsed : Nat) : Option Int := do
  let req ← required opening start
  let f ← fraction F elapsed req
  some (trunc (F.f32.rnd ((start : Rat) - F.f32.rnd ((start : Rat) * f))))

/-- RS lines 242-251: the position while moving down. -/
def posDown (F : Fp) (closing : Nat) (start : Int) (elapsed : Nat) : Option Int := do
  let req ← required closing (100 - start)
  let f ← fraction F elapsed req
  some (trunc (F.f32.rnd ((start : Rat) + F.f32.rnd (((100 - start : Int) : Rat) * f))))

/-- `onTimer`, RS lines 144-151. -/
def stopStage (t : Nat) (s : RS) : RS :=
  if s.target = stopPos then
    if s.inMove then { stopMovement t s with calTime := 0, newTarget := false }
    else { s with newTarget := false }
  else s

/-- `onTimer`, RS lines 157-191, given `calibrationTime == 0`. -/
def calBegin (t : Nat) (s : RS) : RS :=
  if s.target > 50 ∨ s.target = moveDownPos then
    if s.dir = .up then stopMovement t { s with timeout := 0 }
    else startClosing t { s with
      calTime := s.closing, timeout := if s.closing = 0 then defaultTimeout else 0 }
  else
    if s.dir = .down then stopMovement t { s with timeout := 0 }
    else startOpening t { s with
      calTime := s.opening, timeout := if s.opening = 0 then defaultTimeout else 0 }

/-- `onTimer`, RS lines 157-196, given `calibrationTime == 0`. -/
def calStart (t : Nat) (s : RS) : Option RS :=
  if (calBegin t s).calTime * 11 / 10 ≥ 2 ^ 32 then none
  else some { calBegin t s with calTime := (calBegin t s).calTime * 11 / 10 }

/-- `onTimer`, RS lines 198-212. -/
def calEnd (t : Nat) (s : RS) : RS :=
  if s.calTime ≠ 0 ∧ since (clk t) s.started > s.calTime then
    let s := setPosition (if s.dir = .up then 0 else 100) s
    let s := if s.target < 0 then setTarget stopPos s else s
    stopMovement t s
  else s

/-- `onTimer`, RS lines 153-213, given `isCalibrationRequested()`. -/
def calStage (t : Nat) (s : RS) : Option RS :=
  if s.target ≠ stopPos then
    if s.calTime = 0 then (calStart t s).map (calEnd t) else some (calEnd t s)
  else some s

/-- `onTimer`, RS lines 218-239: moving up, position known. -/
def moveUpStage (F : Fp) (t : Nat) (s : RS) : Option RS := do
  let p ← posUp F s.opening s.startPos (since (clk t) s.started)
  let s := setPosition p s
  if s.target ≥ 0 ∧ s.pos ≤ s.target then
    if s.target = 0 then
      let m ← marginValue F s.margin s.opening
      some { s with timeout := m, started := clk t }
    else some (stopMovement t s)
  else some s

/-- `onTimer`, RS lines 240-263: moving down, position known. -/
def moveDownStage (F : Fp) (t : Nat) (s : RS) : Option RS := do
  let p ← posDown F s.closing s.startPos (since (clk t) s.started)
  let s := setPosition p s
  if s.target ≥ 0 ∧ s.pos ≥ s.target then
    if s.target = 100 then
      let m ← marginValue F s.margin s.closing
      some { s with timeout := m, started := clk t }
    else some (stopMovement t s)
  else some s

/-- `onTimer`, RS lines 291-305 and 326-341: start moving, keep moving, or stop first. -/
def redirect (t : Nat) (d : Dir) (s : RS) : RS :=
  if d = s.dir then { s with newTarget := false }
  else if s.dir = .stop then
    let s := { s with newTarget := false, startPos := s.pos }
    if d = .down then startClosing t s else startOpening t s
  else stopMovement t s

/-- `onTimer`, RS lines 266-290: direction and operation timeout for a new target. -/
def choose (F : Fp) (s : RS) : Option (Dir × Nat) :=
  if s.target = moveUpPos then
    (marginValue F s.margin s.opening).map fun m => (.up, (s.opening + m) % 2 ^ 32)
  else if s.target = moveDownPos then
    (marginValue F s.margin s.closing).map fun m => (.down, (s.closing + m) % 2 ^ 32)
  else if s.target - s.pos > 0 then some (.down, 0)
  else if s.target - s.pos < 0 then some (.up, 0)
  else some (.stop, 0)

/-- `onTimer`, RS lines 214-306, given `isCalibrated()`. -/
def knownStage (F : Fp) (t : Nat) (s : RS) : Option RS :=
  if s.newTarget = false ∧ s.dir ≠ .stop then
    if s.dir = .up ∧ s.pos > 0 then moveUpStage F t s
    else if s.dir = .down ∧ s.pos < 100 then moveDownStage F t s
    else some s
  else if s.newTarget ∧ s.target ≠ stopPos then
    (choose F s).map fun c => redirect t c.1 { s with timeout := c.2 }
  else some s

/-- `onTimer`, RS lines 312-325: direction for a new target without a known position. -/
def blindDir (g : Int) : Dir :=
  if g = moveUpPos then .up
  else if g = moveDownPos then .down
  else if g = 0 then .up
  else if g = 100 then .down
  else .stop

/-- `onTimer`, RS lines 307-342: not calibrated. -/
def unknownStage (t : Nat) (s : RS) : RS :=
  if s.newTarget then
    let s' := redirect t (blindDir s.target) { s with pos := unknownPos, timeout := defaultTimeout }
    if blindDir s.target ≠ s.dir ∧ s.dir ≠ .stop then { s' with timeout := 0 } else s'
  else { s with pos := unknownPos }

/-- `onTimer`, RS lines 345-350. -/
def timeoutStage (t : Nat) (s : RS) : RS :=
  if s.timeout ≠ 0 ∧ since (clk t) s.started > s.timeout then
    { setTarget stopPos s with timeout := 0 }
  else s

/-- `onTimer`, RS lines 153-343: calibration, movement with or without a known position. -/
def body (F : Fp) (t : Nat) (s : RS) : Option RS :=
  if s.calRequested then calStage t s
  else if s.calibrated then knownStage F t s
  else some (unknownStage t s)

/-- `onTimer`, RS lines 135-351. `none` is undefined behaviour. -/
def pass (F : Fp) (t : Nat) (s : RS) : Option RS :=
  if s.pause ≠ 0 ∧ since (clk t) s.pause < 500 then some s
  else (body F t (stopStage t { s with pause := 0 })).map (timeoutStage t)

/-- The actions of `handleAction` (RSI lines 227-338). -/
inductive Action
  | closeOrStop | close | openOrStop | open | comfortDown | comfortUp | stop | stepByStep
  | moveUp | moveDown | moveUpOrStop | buttonUpOrStop | moveDownOrStop | buttonDownOrStop
deriving DecidableEq, Repr

/-- `STEP_BY_STEP`, RSI lines 184-196 and 272-285. -/
def stepByStep (s : RS) : RS :=
  if s.inMove then setTarget stopPos s
  else if s.lastDir = .up then setTarget moveDownPos s
  else if s.lastDir = .down then setTarget moveUpPos s
  else if s.pos < 50 then setTarget moveDownPos s
  else setTarget moveUpPos s

/-- Stop when moving, otherwise go for the target `n`. -/
def orStop (n : Int) (s : RS) : RS := if s.inMove then setTarget stopPos s else setTarget n s

/-- `handleAction`, RSI lines 227-338. -/
def handleAction (a : Action) (s : RS) : RS :=
  match a with
  | .closeOrStop => orStop 100 s
  | .close => setTarget 100 s
  | .openOrStop => orStop 0 s
  | .open => setTarget 0 s
  | .comfortDown => setTarget s.comfortDown s
  | .comfortUp => setTarget s.comfortUp s
  | .stop => setTarget stopPos s
  | .stepByStep => stepByStep s
  | .moveUp => setTarget moveUpPos s
  | .moveDown => setTarget moveDownPos s
  | .moveUpOrStop => orStop moveUpPos s
  | .buttonUpOrStop => orStop (if s.buttons = 2 then moveDownPos else moveUpPos) s
  | .moveDownOrStop => orStop moveDownPos s
  | .buttonDownOrStop => orStop (if s.buttons = 2 then moveUpPos else moveDownPos) s

/-- `handleNewValueFromServer`, RSI lines 143-207. -/
def server (duration : Nat) (task : Int) (s : RS) : RS :=
  let s := setTimes (duration % 65536 * 100) (duration / 65536 % 65536 * 100) s
  if task = 0 then setTarget stopPos s
  else if task = 1 then setTarget moveDownPos s
  else if task = 2 then setTarget moveUpPos s
  else if task = 3 then orStop moveDownPos s
  else if task = 4 then orStop moveUpPos s
  else if task = 5 then stepByStep s
  else if task ≥ 10 ∧ task ≤ 110 then setTarget (task - 10) s
  else s

/-- A roller shutter configuration message (`TChannelConfig_RollerShutter`). -/
structure Config where
  closing : Int
  opening : Int
  motor : Nat
  buttons : Nat
  margin : Int
deriving DecidableEq, Repr

/-- `applyChannelConfig`, RSI lines 564-610, for a message of the right type and size. -/
def applyConfig (c : Config) (s : RS) : RS :=
  let s := if c.opening ≥ 0 ∧ c.closing ≥ 0 then setTimes c.closing.toNat c.opening.toNat s else s
  let s := if s.inMove then s else setTarget stopPos s
  let b := if s.buttons ≠ 0 ∧ c.buttons > 0 then c.buttons else s.buttons
  let m := if s.motor ≠ 0 ∧ c.motor > 0 then c.motor else s.motor
  let g := if s.margin ≠ 0 ∧ c.margin ≠ 0 then c.margin else s.margin
  { s with
    buttons := if b > 2 then 1 else b
    motor := if m > 2 then 1 else m
    margin := if g < -1 then -1 else if g > 101 then 101 else g }

/-- Everything that can happen to a roller shutter. -/
inductive Op
  | pass
  | server (duration : Nat) (task : Int)
  | action (a : Action)
  /-- `setTargetPosition(n)` called by the application -/
  | target (n : Int)
  | times (closing opening : Nat)
  | config (c : Config)
  /-- `triggerCalibration` / authorised recalibration command (RSI lines 528-542) -/
  | recalibrate
  | calibrationNeeded
  | position (n : Int)
  | notCalibrated
  /-- `setCalibrationOngoing` / `setCalibrationFinished` (RSI lines 433-440) -/
  | calibrationOngoing (n : Nat)
  | calibrationFinished
  /-- `setRsConfigMotorUpsideDownEnabled` / `...Value` (RSI lines 724-732, 799-804) -/
  | motorEnabled (b : Bool)
  | motorValue (v : Nat)
  /-- `setRsConfigTimeMarginEnabled` / `...Value` (RSI lines 744-752, 813-818) -/
  | marginEnabled (b : Bool)
  | marginValue (v : Int)
  /-- `configComfortUpValue` / `configComfortDownValue` (RSI lines 460-472) -/
  | comfortUp (n : Nat)
  | comfortDown (n : Nat)
deriving DecidableEq, Repr

/-- One operation at the time `t`. -/
def step (F : Fp) (s : RS) (e : Nat × Op) : Option RS :=
  match e.2 with
  | .pass => pass F e.1 s
  | .server d k => some (server d k s)
  | .action a => some (handleAction a s)
  | .target n => some (setTarget n s)
  | .times c o => some (setTimes c o s)
  | .config c => some (applyConfig c s)
  | .recalibrate => some (triggerCalibration s)
  | .calibrationNeeded => some (calibrationNeeded s)
  | .position n => some (setPosition n s)
  | .notCalibrated => some (setNotCalibrated s)
  | .calibrationOngoing n => some { s with calTime := n % 2 ^ 32 }
  | .calibrationFinished => some { s with calTime := 0, calibrate := false }
  | .motorEnabled b => some { s with
      motor := if b then (if s.motor = 0 then 1 else s.motor) else 0 }
  | .motorValue v => some (if s.motor ≠ 0 ∧ v > 0 ∧ v < 3 then { s with motor := v } else s)
  | .marginEnabled b => some { s with
      margin := if b then (if s.margin = 0 then -1 else s.margin) else 0 }
  | .marginValue v => some (if v ≥ -1 ∧ v ≤ 100 then { s with margin := v } else s)
  | .comfortUp n => some { s with comfortUp := if n > 100 then 100 else n }
  | .comfortDown n => some { s with comfortDown := if n > 100 then 100 else n }

/-- A history of operations; `none` once the behaviour is undefined. -/
def run (F : Fp) : RS → List (Nat × Op) → Option RS
  | s, [] => some s
  | s, e :: h => (step F s e).bind fun s => run F s h

/-- What the device knows at start: configuration (RSI `onLoadConfig`, lines 624-651), saved times
and position (RSI `onLoadState`, lines 474-491). -/
structure Boot where
  t : Nat := 0
  motor : Nat := 1
  buttons : Nat := 1
  margin : Int := -1
  timeAvail : Bool := true
  closing : Nat := 0
  opening : Nat := 0
  pos : Int := unknownPos
deriving DecidableEq, Repr

/-- The roller shutter after `onInit` (RS lines 57-70): both outputs are switched off. -/
def boot (b : Boot) : RS :=
  { motor := b.motor, buttons := b.buttons, margin := b.margin, timeAvail := b.timeAvail,
    closing := b.closing, opening := b.opening, pos := b.pos, log := [⟨b.t, false, false⟩] }

end Verif.Shutter
