/-!
# Conditions on channel values

Model of `/repo/src/supla/condition.{h,cpp}` and `/repo/src/supla/conditions/*.cpp`.

Doubles are represented by their place in the order of the reals: `num n` for an ordinary value and
`nan` for not-a-number, for which every comparison is false. Only comparisons of doubles occur in the
code modelled here, so nothing else about doubles is needed; `zero` and `absZero` are the places of
0 and -273.
-/

namespace Verif.Condition

/-- A double, up to order. -/
inductive V | nan | num (n : Int)
deriving DecidableEq, Repr

/-- `a < b` on doubles. -/
def V.lt : V → V → Bool
  | .num a, .num b => decide (a < b)
  | _, _ => false

/-- `a <= b` on doubles. -/
def V.le : V → V → Bool
  | .num a, .num b => decide (a ≤ b)
  | _, _ => false

/-- `a == b` on doubles. -/
def V.eq : V → V → Bool
  | .num a, .num b => decide (a = b)
  | _, _ => false

/-- The place of 0.0. -/
def zero : V := .num 0
/-- The place of -273.0 (any value below 0 would do). -/
def absZero : V := .num (-273000)

/-- The eight condition classes, `/repo/src/supla/conditions/on_*.cpp`, with their thresholds. -/
inductive Kind
  | less (th : V) | lessEq (th : V) | greater (th : V) | greaterEq (th : V)
  | between (lo hi : V) | betweenEq (lo hi : V) | equal (th : V) | invalid
deriving DecidableEq, Repr

/-- `condition(val, isValid)` of the eight classes: on_less.cpp, on_less_eq.cpp, on_greater.cpp,
on_greater_eq.cpp, on_between.cpp, on_between_eq.cpp, on_equal.cpp, on_invalid.cpp. -/
def holds (k : Kind) (val : V) (isValid : Bool) : Bool :=
  match k with
  | .less th => if isValid then val.lt th else false
  | .lessEq th => if isValid then val.le th else false
  | .greater th => if isValid then th.lt val else false
  | .greaterEq th => if isValid then th.le val else false
  | .between lo hi => if isValid then lo.lt val && val.lt hi else false
  | .betweenEq lo hi => if isValid then lo.le val && val.le hi else false
  | .equal th => if isValid then val.eq th else false
  | .invalid => !isValid

/-- `Condition::checkConditionFor`, condition.cpp lines 127-138: takes `alreadyFired`, returns the new
`alreadyFired` and whether to run the action. -/
def check (fired : Bool) (k : Kind) (val : V) (isValid : Bool) : Bool × Bool :=
  if !fired && holds k val isValid then (true, true)
  else if fired then
    if !holds k val isValid then (false, false) else (fired, false)
  else (fired, false)

/-- Channel types of condition.cpp lines 57-112, grouped as the two switches group them; `other` is
every type for which `handleAction` returns (line 89). -/
inductive ChType
  | distance | thermometer | wind | pressure | rain | weight   -- value double
  | impulse                                                     -- 64-bit counter
  | humidityTemp | humidity                                     -- two doubles
  | dimmer | rgb | dimmerRgb                                    -- brightness
  | gpm                                                         -- general purpose
  | other
deriving DecidableEq, Repr

/-- What the channel holds: main and alternative value. For two-value channels `main` is
`getValueDoubleFirst`/`getValueBrightness` and `alt` is `getValueDoubleSecond`/
`getValueColorBrightness`; for `rgb` only `alt` (the colour brightness) exists. -/
structure Reading where
  main : V
  alt : V
deriving DecidableEq, Repr

/-- The value read, condition.cpp lines 57-91; `none` is the `return` of line 89. -/
def valueOf (ty : ChType) (useAlt : Bool) (r : Reading) : Option V :=
  match ty with
  | .distance | .thermometer | .wind | .pressure | .rain | .weight | .impulse | .gpm => some r.main
  | .humidityTemp | .humidity => some (if useAlt then r.alt else r.main)
  | .dimmer => some r.main
  | .rgb => some r.alt
  | .dimmerRgb => some (if useAlt then r.alt else r.main)
  | .other => none

/-- Validity of the value, condition.cpp lines 94-112. -/
def validOf (ty : ChType) (useAlt : Bool) (v : V) : Bool :=
  match ty with
  | .distance | .wind | .pressure | .rain | .weight => zero.le v
  | .thermometer => absZero.le v
  | .humidityTemp | .humidity => if useAlt then zero.le v else absZero.le v
  | .gpm => v != .nan
  | _ => true

/-- A condition object: its kind (with thresholds), `useAlternativeValue`, `alreadyFired`. -/
structure Cond where
  kind : Kind
  useAlt : Bool
  fired : Bool
deriving DecidableEq, Repr

/-- `Condition::handleAction` without a custom getter, condition.cpp lines 40-117, for an event that
is `ON_CHANGE` or `ON_SECONDARY_CHANNEL_CHANGE`. Returns the new condition and whether the client's
action is run. -/
def onChange (c : Cond) (ty : ChType) (r : Reading) : Cond × Bool :=
  match valueOf ty c.useAlt r with
  | none => (c, false)
  | some v =>
    let q := check c.fired c.kind v (validOf ty c.useAlt v)
    ({ c with fired := q.1 }, q.2)

/-- `Condition::handleAction` with a custom getter returning `(v, isValid)`, lines 53-55. -/
def onGetter (c : Cond) (v : V) (isValid : Bool) : Cond × Bool :=
  let q := check c.fired c.kind v isValid
  ({ c with fired := q.1 }, q.2)

end Verif.Condition
