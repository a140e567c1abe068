import Verif.Common.Clock
import Verif.Common.Round
/-!
# RGBW lights and dimmers

Models `/repo/src/supla/control/rgbw_base.cpp` (cited as R) with its subclasses
`rgb_base.cpp`, `dimmer_base.cpp` (`RGBBase`, `DimmerBase`), and `adjustRange` of
`/repo/src/supla/tools.cpp`.

Simplifications: `millis()` reads the same value during one call; what is saved is modelled, when it is saved is not; a button is modelled by the actions it sends; a `BrightnessAdjuster` is any
function from the maximal hardware value and the brightness. Log messages are left out.
-/

namespace Verif.Rgbw

/-- Conversion of an `int` to `uint8_t`. -/
def u8 (n : Int) : Nat := (n % 256).toNat
/-- Conversion of an `int` to `uint16_t`. -/
def u16 (n : Int) : Nat := (n % 65536).toNat

/-- `adjustRange`, tools.cpp lines 66-73, for arguments without overflow; division truncates. -/
def adjustRange (x inMin inMax outMin outMax : Int) : Int :=
  ((x - inMin) * (outMax - outMin)).tdiv (inMax - inMin) + outMin

/-- Which class the channel is: `RGBWBase`, `RGBBase`, `DimmerBase`. -/
inductive Kind | rgbw | rgb | dimmer
deriving DecidableEq, Repr

/-- `AutoIterateMode`, rgbw_base.h lines 66-71. -/
inductive Mode | off | dimmer | rgb | all
deriving DecidableEq, Repr

/-- One colour component: `hwX`, `XDistance`, `lastChangeXMs` (rgbw_base.h lines 174-199). -/
structure Comp where
  hw : Nat := 0
  dist : Nat := 0
  last : Nat := 0
deriving DecidableEq, Repr

/-- A value passed to `setRGBWValueOnDevice` or to the channel. -/
structure Five where
  r : Int
  g : Int
  b : Int
  cb : Int
  w : Int
deriving DecidableEq, Repr

/-- Member variables, rgbw_base.h lines 150-205. -/
structure Light where
  kind : Kind := .rgbw
  changed : Bool := true
  /-- `buttonStep` -/
  step : Nat := 10
  r : Nat := 0
  g : Nat := 255
  b : Nat := 0
  /-- `curColorBrightness` -/
  cb : Nat := 0
  /-- `curBrightness` -/
  w : Nat := 0
  lastCb : Nat := 100
  lastW : Nat := 100
  /-- `defaultDimmedBrightness` -/
  dimmed : Nat := 20
  /-- `dimIterationDirection` -/
  dimDir : Bool := false
  /-- `resetDisance` -/
  reset : Bool := false
  instant : Bool := false
  /-- `minIterationBrightness` -/
  minIter : Nat := 1
  mode : Mode := .off
  maxHw : Nat := 1023
  hr : Comp := {}
  hg : Comp := {}
  hb : Comp := {}
  hcb : Comp := {}
  hwh : Comp := {}
  minW : Nat := 1
  maxW : Nat := 1023
  minCb : Nat := 1
  maxCb : Nat := 1023
  /-- `minMaxIterationDelay` -/
  iterMax : Nat := 750
  fade : Nat := 500
  lastTick : Nat := 0
  /-- `lastMsgReceivedMs` -/
  msg : Nat := 0
  /-- `lastIterateDimmerTimestamp` -/
  iterAt : Nat := 0
  /-- `iterationDelayTimestamp` -/
  delayAt : Nat := 0
  /-- `lastAutoIterateStartTimestamp` -/
  autoAt : Nat := 0
  /-- values given to `setRGBWValueOnDevice`, latest first -/
  out : List Five := []
  /-- value of the channel as last set by `iterateAlways` -/
  sent : Option Five := none
deriving DecidableEq, Repr

/-- `setRGBW`, R lines 91-106: the brightness taken over and the remembered one. -/
def remember (toggle : Bool) (x : Int) (last : Nat) : Int × Nat :=
  if toggle ∧ x = 100 then (last, last) else if x > 0 then (x, u8 x) else (x, last)

/-- `setRGBW`, R lines 108-122: negative means unchanged. -/
def take (x : Int) (cur : Nat) : Nat := if x ≥ 0 then u8 x else cur

/-- `RGBWBase::setRGBW`, R lines 82-137. -/
def setBase (t : Nat) (r g b cb w : Int) (toggle instant : Bool) (s : Light) : Light :=
  let c := remember toggle cb s.lastCb
  let d := remember toggle w s.lastW
  { s with msg := if toggle then 1 else clk t, lastCb := c.2, lastW := d.2, r := take r s.r, g := take g s.g, b := take b s.b, cb := take c.1 s.cb, w := take d.1 s.w, instant := instant, reset := true }

/-- `setRGBW` of the three classes: rgb_base.cpp lines 27-37, dimmer_base.cpp lines 27-39. -/
def set (t : Nat) (r g b cb w : Int) (toggle instant : Bool) (s : Light) : Light :=
  match s.kind with
  | .rgbw => setBase t r g b cb w toggle instant s
  | .rgb => setBase t r g b cb 0 toggle instant s
  | .dimmer => setBase t 0 0 0 0 w toggle instant s

/-- `setRGBW` with the colours unchanged and default arguments. -/
def setBright (t : Nat) (cb w : Int) (s : Light) : Light := set t (-1) (-1) (-1) cb w false false s

/-- `turnOn`, R lines 284-286. -/
def turnOn (t : Nat) (s : Light) : Light := setBright t s.lastCb s.lastW s
/-- `turnOff`, R lines 287-289. -/
def turnOff (t : Nat) (s : Light) : Light := setBright t 0 0 s
/-- `isOn`, R lines 299-309. -/
def Light.isOn (s : Light) : Bool := decide (s.cb > 0) || decide (s.w > 0)
/-- `toggle`, R lines 291-297. -/
def toggle (t : Nat) (s : Light) : Light := if s.isOn then turnOff t s else turnOn t s

/-- `addWithLimit`, R lines 311-319. -/
def addLimit (v : Nat) (a : Int) (limit : Int) : Nat :=
  if a > 0 ∧ v + a > limit then u8 limit else if a < 0 ∧ v + a < 0 then 0 else u8 (v + a)

/-- `iterateDimmerRGBW`, R lines 459-471: the direction after a break. -/
def iterNewDir (t : Nat) (s : Light) : Bool :=
  let d := if s.w ≤ 5 then false else if s.w ≥ 95 then true else !s.dimDir
  if since (clk t) s.iterAt ≥ 10000 then (if s.w ≤ 40 then false else if s.w ≥ 60 then true else d) else d

/-- `iterateDimmerRGBW`, R lines 457-476. -/
def iterDir (t : Nat) (s : Light) : Light :=
  { s with dimDir := if since (clk t) s.iterAt ≥ 500 then iterNewDir t s else s.dimDir, delayAt := if since (clk t) s.iterAt ≥ 500 then 0 else s.delayAt, iterAt := clk t }

/-- `iterateDimmerRGBW`, R lines 479-480, 490, 503-504, 514: at the end of the range, `x` being the
brightness. -/
def iterAtEnd (x : Nat) (s : Light) : Bool :=
  decide ((x ≤ s.minIter ∧ s.dimDir = true) ∨ (x = 100 ∧ s.dimDir = false))

/-- `iterateDimmerRGBW`, R lines 481-483: when the waiting at the end began. -/
def iterSince (t : Nat) (s : Light) : Nat := if s.delayAt = 0 then clk t else s.delayAt

/-- `iterateDimmerRGBW`, R lines 478-526: waiting at the lowest and highest brightness `x`. The flag
says that the function returns. -/
def iterDelay (t : Nat) (x : Nat) (s : Light) : Bool × Light :=
  let over := decide (since (clk t) (iterSince t s) > s.iterMax)
  (iterAtEnd x s && !over,
    { s with dimDir := if iterAtEnd x s && over then !s.dimDir else s.dimDir, delayAt := if iterAtEnd x s then (if over then 0 else iterSince t s) else s.delayAt })

/-- `iterateDimmerRGBW`, R lines 532-541: a step with its sign and lower limit. -/
def iterStep (s : Light) (x : Nat) (step : Int) : Int :=
  let st := if s.dimDir then -step else step
  if st ≠ 0 ∧ (x : Int) + st < s.minIter then s.minIter - x else st

/-- `iterateDimmerRGBW`, R lines 530-552: the change itself. -/
def iterSet (t : Nat) (rs ws : Int) (s : Light) : Light :=
  let s := { s with delayAt := 0 }
  let rs := iterStep s s.cb rs
  let ws := iterStep s s.w ws
  let z := decide ((ws ≠ 0 ∧ s.w = 0) ∨ (rs ≠ 0 ∧ s.cb = 0))
  let s := { s with delayAt := if z then clk t else s.delayAt, dimDir := z || s.dimDir }
  set t (-1) (-1) (-1) (addLimit s.cb rs 100) (addLimit s.w ws 100) false true s

/-- `iterateDimmerRGBW`, R lines 451-552, and `DimmerBase::iterateDimmerRGBW` (dimmer_base.cpp lines
55-58). -/
def iterate (t : Nat) (rs ws : Int) (s : Light) : Light :=
  let rs := if s.kind = .dimmer then 0 else rs
  let s := { s with w := if rs > 0 ∧ ws > 0 then s.cb else s.w }
  let s := iterDir t s
  let q := if rs > 0 then iterDelay t s.cb s else if ws > 0 then iterDelay t s.w s else (false, s)
  if q.1 then q.2 else iterSet t rs ws q.2

/-- The actions of `handleAction`, R lines 321-449. -/
inductive Action
  | turnOn | turnOff | toggle | brightenAll | dimAll | brightenR | dimR | brightenG | dimG | brightenB
  | dimB | brightenW | dimW | brightenRgb | dimRgb | turnOnRgb | turnOffRgb | toggleRgb | turnOnW
  | turnOffW | toggleW | turnOnRgbDimmed | turnOnWDimmed | turnOnAllDimmed | iterateRgb | iterateW
  | iterateAll
deriving DecidableEq, Repr

/-- `handleAction`, R lines 321-449. -/
def handleAction (t : Nat) (a : Action) (s : Light) : Light :=
  match a with
  | .turnOn => turnOn t s
  | .turnOff => turnOff t s
  | .toggle => toggle t s
  | .brightenAll => setBright t (addLimit s.cb s.step 100) (addLimit s.w s.step 100) s
  | .dimAll => setBright t (addLimit s.cb (-s.step) 100) (addLimit s.w (-s.step) 100) s
  | .brightenR => set t (addLimit s.r s.step 255) (-1) (-1) (-1) (-1) false false s
  | .dimR => set t (addLimit s.r (-s.step) 255) (-1) (-1) (-1) (-1) false false s
  | .brightenG => set t (-1) (addLimit s.g s.step 255) (-1) (-1) (-1) false false s
  | .dimG => set t (-1) (addLimit s.g (-s.step) 255) (-1) (-1) (-1) false false s
  | .brightenB => set t (-1) (-1) (addLimit s.b s.step 255) (-1) (-1) false false s
  | .dimB => set t (-1) (-1) (addLimit s.b (-s.step) 255) (-1) (-1) false false s
  | .brightenW => setBright t (-1) (addLimit s.w s.step 100) s
  | .dimW => setBright t (-1) (addLimit s.w (-s.step) 100) s
  | .brightenRgb => setBright t (addLimit s.cb s.step 100) (-1) s
  | .dimRgb => setBright t (addLimit s.cb (-s.step) 100) (-1) s
  | .turnOnRgb => setBright t s.lastCb (-1) s
  | .turnOffRgb => setBright t 0 (-1) s
  | .toggleRgb => setBright t (if s.cb > 0 then 0 else s.lastCb) (-1) s
  | .turnOnW => setBright t (-1) s.lastW s
  | .turnOffW => setBright t (-1) 0 s
  | .toggleW => setBright t (-1) (if s.w > 0 then 0 else s.lastW) s
  | .turnOnRgbDimmed => if s.cb = 0 then setBright t s.dimmed (-1) s else s
  | .turnOnWDimmed => if s.w = 0 then setBright t (-1) s.dimmed s else s
  | .turnOnAllDimmed => if s.w = 0 ∧ s.cb = 0 then setBright t s.dimmed s.dimmed s else s
  | .iterateRgb => iterate t s.step 0 s
  | .iterateW => iterate t 0 s.step s
  | .iterateAll => iterate t s.step s.step s

/-- A new value from the server (R lines 149-155): `value[6]`..`value[0]`. -/
structure Request where
  command : Nat
  toggle : Nat := 0
  r : Nat := 0
  g : Nat := 0
  b : Nat := 0
  cb : Nat := 0
  w : Nat := 0
deriving DecidableEq, Repr

/-- R lines 170-175. -/
def cap (n : Nat) : Nat := if n % 256 > 100 then 100 else n % 256

/-- `handleNewValueFromServer`, R lines 148-282; command numbers from proto.h lines 2239-2279. -/
def server (t : Nat) (q : Request) (s : Light) : Light :=
  match q.command % 256 with
  | 0 => set t (q.r % 256 : Nat) (q.g % 256 : Nat) (q.b % 256 : Nat) (cap q.cb) (cap q.w) (decide (q.toggle % 256 > 0)) false s
  | 1 => setBright t (-1) s.lastW s
  | 2 => setBright t (-1) 0 s
  | 3 => setBright t (-1) (if s.w > 0 then 0 else s.lastW) s
  | 4 => setBright t s.lastCb (-1) s
  | 5 => setBright t 0 (-1) s
  | 6 => setBright t (if s.cb > 0 then 0 else s.lastCb) (-1) s
  | 7 => turnOn t s
  | 8 => turnOff t s
  | 9 => toggle t s
  | 10 => if s.w > 0 then setBright t (-1) (cap q.w) s else { s with lastW := cap q.w }
  | 11 => if s.cb > 0 then setBright t (cap q.cb) (-1) s else { s with lastCb := cap q.cb }
  | 12 => set t (q.r % 256 : Nat) (q.g % 256 : Nat) (q.b % 256 : Nat) (-1) (-1) false false s
  | 13 => { s with autoAt := clk t, mode := if s.mode = .off then .dimmer else .all }
  | 14 => { s with autoAt := clk t, mode := if s.mode = .off then .rgb else .all }
  | 15 => { s with autoAt := clk t, mode := .all }
  | 16 => { s with mode := if s.mode = .dimmer then .off else if s.mode = .all then .rgb else s.mode }
  | 17 => { s with mode := if s.mode = .rgb then .off else if s.mode = .all then .dimmer else s.mode }
  | 18 => { s with mode := .off }
  | _ => s

/-- `calculateAndUpdate`, R lines 597-613: the size of a step after `dt` ms. -/
def stepSize (F : Rounding) (fade maxHw dist dt : Nat) : Int :=
  let f := if dist < maxHw / 10 then fade / 3 else fade
  let d := F.rnd ((f : Rat) / dt)
  let d := if d ≤ 1 then 1 else d
  let st := (F.rnd ((dist : Rat) / d)).floor
  if st < 1 then 1 else st

/-- `getStep`, R lines 573-591. -/
def getStep (step target current : Int) : Int :=
  if step ≠ 0 ∧ target ≠ current then
    if target > current then (if current + step > target then target - current else step)
    else (if current - step < target then target - current else -step)
  else 0

/-- `calculateAndUpdate`, R lines 593-628: the component and whether it changed. -/
def update (F : Rounding) (t fade maxHw : Nat) (target : Int) (c : Comp) : Comp × Bool :=
  if target ≠ c.hw then
    if since (clk t) c.last = 0 then (c, false)
    else
      let v := getStep (stepSize F fade maxHw c.dist (since (clk t) c.last)) target c.hw
      if v ≠ 0 then ({ c with hw := u16 (c.hw + v), last := clk t }, true) else (c, false)
  else ({ c with last := clk t }, false)

/-- A brightness adjuster: maximal hardware value and brightness to hardware value. -/
abbrev Adjuster := Nat → Nat → Int

/-- `RGBWBase::adjustBrightness` without an adjuster, R line 570. -/
def linear : Adjuster := fun m x => adjustRange x 0 100 0 m

/-- `GeometricBrightnessAdjuster::adjustBrightness`, R lines 47-61, for any power function `pw`, with
`round` as rounding half up of a non-negative number. -/
def geometric (F : Rounding) (pw : Rat → Rat) (offset : Nat) : Adjuster := fun m x =>
  if x = 0 then 0
  else
    let r := F.rnd (pw (F.rnd (((x : Rat) + offset) / (100 + offset))) * m)
    let r := if r > m then (m : Rat) else r
    let r := if r < 0 then 0 else r
    (r + 1 / 2).floor

/-- The five target values, R lines 671-675. -/
def targets (A : Adjuster) (s : Light) : Five :=
  { r := adjustRange s.r 0 255 0 s.maxHw, g := adjustRange s.g 0 255 0 s.maxHw
    b := adjustRange s.b 0 255 0 s.maxHw, cb := A s.maxHw s.cb, w := A s.maxHw s.w }

/-- R lines 632-638: the first pass. -/
def start (t : Nat) (s : Light) : Light :=
  { s with lastTick := clk t, hr := { s.hr with last := clk t }, hg := { s.hg with last := clk t }, hb := { s.hb with last := clk t }, hcb := { s.hcb with last := clk t }, hwh := { s.hwh with last := clk t } }

/-- R lines 643-666: automatic iteration. -/
def auto (t : Nat) (s : Light) : Light :=
  if s.mode ≠ .off ∧ since (clk t) s.autoAt < 10000 then
    if since (clk t) s.iterAt ≥ 35 then
      match s.mode with
      | .dimmer => handleAction t .iterateW s
      | .rgb => handleAction t .iterateRgb s
      | .all => handleAction t .iterateAll s
      | .off => s
    else s
  else { s with mode := .off }

/-- R lines 677-685: distance of one component. -/
def distance (target : Int) (c : Comp) : Comp := { c with dist := u16 (target - c.hw).natAbs }

/-- R lines 677-685. -/
def measure (T : Five) (s : Light) : Light :=
  if s.reset then
    { s with reset := false, hr := distance T.r s.hr, hg := distance T.g s.hg, hb := distance T.b s.hb, hcb := distance T.cb s.hcb, hwh := distance T.w s.hwh }
  else s

/-- R lines 687-718: the new hardware values. -/
def move (F : Rounding) (t : Nat) (T : Five) (s : Light) : Light :=
  if s.instant then
    { s with hr := { s.hr with hw := u16 T.r }, hg := { s.hg with hw := u16 T.g }, hb := { s.hb with hw := u16 T.b }, hcb := { s.hcb with hw := u16 T.cb }, hwh := { s.hwh with hw := u16 T.w }, changed := true, instant := false }
  else
    let r := update F t s.fade s.maxHw T.r s.hr
    let g := update F t s.fade s.maxHw T.g s.hg
    let b := update F t s.fade s.maxHw T.b s.hb
    let cb := update F t s.fade s.maxHw T.cb s.hcb
    let w := update F t s.fade s.maxHw T.w s.hwh
    { s with hr := r.1, hg := g.1, hb := b.1, hcb := cb.1, hwh := w.1, changed := s.changed || r.2 || g.2 || b.2 || cb.2 || w.2 }

/-- R lines 721-739: the brightness given to the device. `none`: division by zero. -/
def scale (hw maxHw lo hi : Nat) : Option Int :=
  if hw > 0 then (if maxHw = 1 then none else some (adjustRange hw 1 maxHw lo hi)) else some 0

/-- R lines 720-743. -/
def emit (s : Light) : Option Light :=
  if s.changed then do
    let cb ← scale s.hcb.hw s.maxHw s.minCb s.maxCb
    let w ← scale s.hwh.hw s.maxHw s.minW s.maxW
    some { s with changed := false, out := ⟨s.hr.hw, s.hg.hw, s.hb.hw, cb, w⟩ :: s.out }
  else some s

/-- `onFastTimer`, R lines 630-746. `none` is undefined behaviour. -/
def pass (F : Rounding) (A : Adjuster) (t : Nat) (s : Light) : Option Light :=
  if s.lastTick = 0 then some (start t s)
  else
    let q := auto t s
    if since (clk t) s.lastTick > 0 then
      let q := { q with lastTick := clk t }
      emit (move F t (targets A q) (measure (targets A q) q))
    else some q

/-- `iterateAlways`, R lines 139-146. -/
def report (t : Nat) (s : Light) : Light :=
  if s.msg ≠ 0 ∧ since (clk t) s.msg ≥ 400 then
    { s with msg := 0, sent := some ⟨s.r, s.g, s.b, s.cb, s.w⟩ }
  else s

/-- `setMaxHwValue`, R lines 1039-1044. -/
def setMaxHw (n : Int) (s : Light) : Light := { s with maxHw := u16 n }

/-- `setBrightnessLimits`, R lines 957-970. -/
def setLimits (lo hi : Int) (s : Light) : Light :=
  let lo := if lo < 0 then 0 else lo
  let s := if hi > s.maxHw then setMaxHw s.maxHw s else s
  let lo := if lo > hi then hi else lo
  { s with minW := u16 lo, maxW := u16 hi }

/-- `setColorBrightnessLimits`, R lines 971-984. -/
def setColorLimits (lo hi : Int) (s : Light) : Light :=
  let lo := if lo < 0 then 0 else lo
  let s := if hi > s.maxHw then setMaxHw s.maxHw s else s
  let lo := if lo > hi then hi else lo
  { s with minCb := u16 lo, maxCb := u16 hi }

/-- `onInit`, R lines 804-858: the motion sensor. -/
def motion (pressed : Bool) (forRgb forW : Bool) (s : Light) : Light :=
  { s with cb := if forRgb then (if pressed then s.lastCb else 0) else s.cb, w := if forW then (if pressed then s.lastW else 0) else s.w }

/-- `onInit`, R lines 748-888 at the time `t`: a motion sensor (pressed or not) with the components it
controls, and `stateOnInit`. -/
def init (t : Nat) (si : Int) (mo : Option Bool) (fr fw : Bool) (s : Light) : Light :=
  let s := match mo with
    | some p => motion p fr fw s
    | none => s
  let s := { s with cb := if si = 1 then 100 else if si = 0 then 0 else s.cb, w := if si = 1 then 100 else if si = 0 then 0 else s.w }
  set t s.r s.g s.b s.cb s.w (decide (si = 1)) false s

/-- A restart with the saved values: `onSaveState` and `onLoadState` (R lines 890-931, rgb_base.cpp
lines 39-63, dimmer_base.cpp lines 41-53) and `onInit`. The application applies the same settings
again. -/
def restart (t : Nat) (si : Int) (mo : Option Bool) (fr fw : Bool) (s : Light) : Light :=
  let n : Light := { kind := s.kind, step := s.step, dimmed := s.dimmed, minIter := s.minIter, maxHw := s.maxHw, minW := s.minW, maxW := s.maxW, minCb := s.minCb, maxCb := s.maxCb, iterMax := s.iterMax, fade := s.fade, out := s.out, sent := s.sent }
  init t si mo fr fw (match s.kind with
    | .rgbw => { n with r := s.r, g := s.g, b := s.b, cb := s.cb, w := s.w, lastCb := s.lastCb, lastW := s.lastW }
    | .rgb => { n with r := s.r, g := s.g, b := s.b, cb := s.cb, lastCb := s.lastCb }
    | .dimmer => { n with w := s.w, lastW := s.lastW })

/-- Operations. -/
inductive Op
  | pass
  | report
  | server (q : Request)
  | action (a : Action)
  | set (r g b cb w : Int) (toggle instant : Bool)
  | maxHw (n : Int)
  | limits (lo hi : Int)
  | colorLimits (lo hi : Int)
  | fade (n : Int)
  | step (n : Int)
  | dimmed (n : Int)
  | minIter (n : Int)
  | iterMax (n : Int)
  | restart (stateOnInit : Int) (motion : Option Bool) (forRgb forW : Bool)
deriving DecidableEq, Repr

/-- One operation at the time `t`. -/
def exec (F : Rounding) (A : Adjuster) (s : Light) (e : Nat × Op) : Option Light :=
  match e.2 with
  | .pass => pass F A e.1 s
  | .report => some (report e.1 s)
  | .server q => some (server e.1 q s)
  | .action a => some (handleAction e.1 a s)
  | .set r g b cb w tg i => some (set e.1 r g b cb w tg i s)
  | .maxHw n => some (setMaxHw n s)
  | .limits lo hi => some (setLimits lo hi s)
  | .colorLimits lo hi => some (setColorLimits lo hi s)
  | .fade n => some { s with fade := u16 n }
  | .step n => some { s with step := u8 n }
  | .dimmed n => some { s with dimmed := u8 n }
  | .minIter n => some { s with minIter := u8 n }
  | .iterMax n => some { s with iterMax := u16 n }
  | .restart si mo fr fw => some (restart e.1 si mo fr fw s)

/-- A history. -/
def run (F : Rounding) (A : Adjuster) : Light → List (Nat × Op) → Option Light
  | s, [] => some s
  | s, e :: h => (exec F A s e).bind fun s => run F A s h

/-- A new device: construction and `onInit`. -/
def boot (t : Nat) (k : Kind) (si : Int) (mo : Option Bool) (fr fw : Bool) : Light :=
  init t si mo fr fw { kind := k }

end Verif.Rgbw
