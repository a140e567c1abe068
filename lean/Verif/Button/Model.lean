import Verif.Common.Clock

/-!
# Button input

Model of `/repo/src/supla/control/simple_button.{h,cpp}` (`ButtonState`, `SimpleButton`) and of
`/repo/src/supla/control/button.{h,cpp}` (`Button::onTimer`).

Simplifications: a timer pass reads the clock once (the code calls `millis()` up to three times in
one pass); the pin level is a `Bool`; the object is modelled after `onInit`, so that `prevState` is
never -1; logging is dropped. Actions attached to events are not run here (see `Verif.Actions`): a
pass returns the list of events it raises.
-/

namespace Verif.Button

/-- `enum StateResults`, simple_button.h lines 34. -/
inductive Res | pressed | released | toPressed | toReleased
deriving DecidableEq, Repr

/-- The constants of a `ButtonState`: `debounceDelayMs`, `swNoiseFilterDelayMs` (both `uint16_t`)
and `invertLogic`, simple_button.h lines 57-66. -/
structure DCfg where
  deb : Nat
  fil : Nat
  invert : Bool
deriving DecidableEq, Repr

/-- The variable part of a `ButtonState`: `debounceTimestampMs`, `filterTimestampMs`,
`newStatusCandidate`, `prevState`, simple_button.h lines 59-63. -/
structure DSt where
  debTs : Nat
  filTs : Nat
  cand : Bool
  prev : Bool
deriving DecidableEq, Repr

/-- `ButtonState::init`, simple_button.cpp lines 109-122, with the member initialisers. -/
def dInit (lvl : Bool) : DSt := { debTs := 0, filTs := 0, cand := lvl, prev := lvl }

/-- `ButtonState::valueOnPress`, simple_button.cpp lines 124-126. -/
def valueOnPress (c : DCfg) : Bool := !c.invert

/-- `ButtonState::getLastState`, simple_button.cpp lines 72-79 (and lines 65-69 of `update`). -/
def lastState (c : DCfg) (s : DSt) : Res :=
  if s.prev = valueOnPress c then .pressed else .released

/-- `ButtonState::update`, simple_button.cpp lines 37-70. `t` is the true time of the pass, `lvl`
the level `digitalRead` would return. -/
def update (c : DCfg) (s : DSt) (t : Nat) (lvl : Bool) : DSt × Res :=
  let cur := clk t
  if c.deb = 0 ∨ since cur s.debTs > c.deb then
    if lvl ≠ s.prev then
      if c.fil ≠ 0 ∧ lvl ≠ s.cand then
        let s' := { s with cand := lvl, filTs := cur }
        (s', lastState c s')
      else if since cur s.filTs > c.fil then
        let s' := { s with debTs := cur, prev := lvl }
        (s', if lvl = valueOnPress c then .toPressed else .toReleased)
      else (s, lastState c s)
    else
      let s' := { s with cand := s.prev }
      (s', lastState c s')
  else (s, lastState c s)

/-- Events raised by `Button::onTimer` (`/repo/src/supla/events.h` lines 24-63). `click n` stands for
`ON_CLICK_n`, `longClick n` for `ON_LONG_CLICK_n`. -/
inductive Ev
  | press | release | change | condPress | condRelease | condChange | hold
  | click (n : Nat) | longClick (n : Nat) | crazy
deriving DecidableEq, Repr

/-- `enum class ButtonType`, button.h lines 33-37. -/
inductive Kind | mono | bi | motion
deriving DecidableEq, Repr

/-- Configuration of a `Button`: `buttonType`, `multiclickTimeMs` (`uint32_t`), `holdTimeMs`,
`repeatOnHoldMs` (`uint16_t`), `repeatOnHoldEnabled`, `maxMulticlickValueConfigured` (0..10, computed
by `evaluateMaxMulticlickValue`), button.h lines 99-109. -/
structure Cfg where
  kind : Kind
  multi : Nat
  holdTime : Nat
  rep : Nat
  repOn : Bool
  maxClick : Nat
deriving DecidableEq, Repr

/-- Variable part of a `Button`: `lastStateChangeMs` (`uint32_t`, 0 = never), `clickCounter`
(`uint8_t`), `holdSend` (`uint16_t`), button.h lines 100-107. -/
structure St where
  last : Nat
  cnt : Nat
  hold : Nat
deriving DecidableEq, Repr

/-- Member initialisers, button.h lines 100-107. -/
def init : St := { last := 0, cnt := 0, hold := 0 }

/-- The first switch of button.cpp lines 110-143. -/
def clickEvents (n : Nat) : List Ev :=
  if n = 10 then [.click 10, .crazy]
  else if 1 ≤ n ∧ n ≤ 9 then [.click n]
  else []

/-- The second switch of button.cpp lines 145-180. -/
def longEvents (n : Nat) : List Ev :=
  if 1 ≤ n ∧ n ≤ 11 then [.longClick (n - 1)] else []

/-- button.cpp lines 60-89: a pass on which the debounced state has changed. -/
def changed (c : Cfg) (s : St) (t : Nat) (r : Res) : St × List Ev :=
  let evs :=
    if r = .toPressed then
      [.press, .change] ++ (if s.cnt = 0 ∧ s.hold = 0 then [.condPress, .condChange] else [])
    else
      [.release, .change] ++ (if s.cnt ≤ 1 ∧ s.hold = 0 then [.condRelease, .condChange] else [])
  let cnt :=
    if c.multi > 0 ∧ (r = .toPressed ∨ c.kind = .bi ∨ c.kind = .motion) ∧ s.cnt ≤ c.maxClick then
      (s.cnt + 1) % 256
    else s.cnt
  ({ s with last := clk t, cnt := cnt }, evs)

/-- button.cpp lines 92-99: hold detection of a pressed monostable button. The sum on line 95 is a
`uint32_t` sum. -/
def holding (c : Cfg) (s : St) (delta : Nat) : St × List Ev :=
  if s.cnt ≤ 1 ∧ c.holdTime > 0 ∧ delta > (c.holdTime + s.hold * c.rep) % 2 ^ 32
      ∧ (c.repOn = true ∨ s.hold = 0) then
    ({ s with hold := (s.hold + 1) % 2 ^ 16 }, [.hold])
  else (s, [])

/-- button.cpp lines 100-188: multi-click evaluation of a button whose state has not changed. -/
def evaluate (c : Cfg) (s : St) (delta : Nat) : St × List Ev :=
  let s1 := if c.multi = 0 then { s with hold := 0, cnt := 0 } else s
  if c.multi > 0 ∧ (delta > c.multi ∨ c.maxClick = s1.cnt) then
    let evs := if s1.hold = 0 ∧ s1.cnt ≠ 255 then clickEvents s1.cnt else longEvents s1.cnt
    let s2 := { s1 with cnt := 255 }
    (if delta > c.multi then { s2 with hold := 0, cnt := 0 } else s2, evs)
  else (s1, [])

/-- `Button::onTimer`, button.cpp lines 52-190, after `state.update()` has returned `r`; `disabled`
is handled in `onTimer`. -/
def logic (c : Cfg) (s : St) (t : Nat) (r : Res) : St × List Ev :=
  let delta := since (clk t) s.last
  if r = .toPressed ∨ r = .toReleased then changed c s t r
  else if s.last ≠ 0 then
    if c.kind = .mono ∧ r = .pressed then holding c s delta
    else if r = .released ∨ c.kind = .bi ∨ c.kind = .motion then evaluate c s delta
    else (s, [])
  else (s, [])

/-- A whole `Button`. -/
structure Full where
  d : DSt
  s : St
  disabled : Bool
deriving DecidableEq, Repr

/-- `Button::onTimer`, button.cpp lines 52-190. -/
def onTimer (dc : DCfg) (c : Cfg) (b : Full) (t : Nat) (lvl : Bool) : Full × List Ev :=
  if b.disabled then (b, [])
  else
    let u := update dc b.d t lvl
    let l := logic c b.s t u.2
    ({ b with d := u.1, s := l.1 }, l.2)

/-- `SimpleButton::onTimer`, simple_button.cpp lines 94-103. -/
def simpleOnTimer (dc : DCfg) (d : DSt) (t : Nat) (lvl : Bool) : DSt × List Ev :=
  let u := update dc d t lvl
  (u.1, match u.2 with
    | .toPressed => [.press, .change]
    | .toReleased => [.release, .change]
    | _ => [])

end Verif.Button
