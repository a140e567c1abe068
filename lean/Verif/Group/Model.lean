import Verif.Rgbw.Model
/-!
# A button for a group of lights

Models `/repo/src/supla/control/group_button_control_rgbw.cpp` (cited as G) on top of the lights of
`Verif.Rgbw`.  Simplification: the members are different lights (nothing stops a program from adding
one light twice).
-/

namespace Verif.Group

open Verif.Rgbw (Light Kind)

/-- `ButtonControlType`, rgbw_base.h lines 59-64. -/
inductive Ctl | both | rgb | w | unused
deriving DecidableEq, Repr

/-- A light and the part of it the button controls. -/
structure Member where
  light : Light
  ctl : Ctl := .both
deriving DecidableEq, Repr

/-- `addToGroup`, G lines 39-49: at most ten. -/
def add (l : Light) (g : List Member) : List Member := if g.length ≥ 10 then g else g ++ [⟨l, .both⟩]

/-- `handleTurnOn`, G lines 51-70, for one member at the time `t`. -/
def turnOn (t : Nat) (m : Member) : Member :=
  match m.ctl with
  | .rgb => { m with light := Rgbw.handleAction t .turnOnRgb m.light }
  | .both => { m with light := Rgbw.handleAction t .turnOn m.light }
  | .w => { m with light := Rgbw.handleAction t .turnOnW m.light }
  | .unused => m

/-- `handleTurnOff`, G lines 72-91, for one member. -/
def turnOff (t : Nat) (m : Member) : Member :=
  match m.ctl with
  | .rgb => { m with light := Rgbw.handleAction t .turnOffRgb m.light }
  | .both => { m with light := Rgbw.handleAction t .turnOff m.light }
  | .w => { m with light := Rgbw.handleAction t .turnOffW m.light }
  | .unused => m

/-- `handleToggle`, G lines 97-122, for one member: is it on? -/
def isOn (m : Member) : Bool :=
  match m.ctl with
  | .rgb => decide (m.light.cb > 0)
  | .both => m.light.isOn
  | .w => decide (m.light.w > 0)
  | .unused => false

/-- `handleToggle`, G lines 93-130. -/
def toggle (t : Nat) (g : List Member) : List Member :=
  if g.any isOn then g.map (turnOff t) else g.map (turnOn t)

/-- `handleIterate`, G lines 137-160, for the first member with an enabled button: the member and the
brightness for the others. -/
def lead (t : Nat) (m : Member) : Option (Member × Nat) :=
  match m.ctl with
  | .rgb =>
    let l := Rgbw.handleAction t .iterateRgb m.light
    some ({ m with light := l }, l.cb)
  | .both =>
    let l := Rgbw.handleAction t .iterateAll m.light
    some ({ m with light := l }, l.cb)
  | .w =>
    let l := Rgbw.handleAction t .iterateW m.light
    some ({ m with light := l }, l.w)
  | .unused => none

/-- `handleIterate`, G lines 168-189, for the other members. -/
def follow (t v : Nat) (m : Member) : Member :=
  match m.ctl with
  | .rgb => { m with light := Rgbw.setBright t v (-1) m.light }
  | .both => { m with light := Rgbw.setBright t v v m.light }
  | .w => { m with light := Rgbw.setBright t (-1) v m.light }
  | .unused => m

/-- `handleIterate`, G lines 132-190. -/
def iterate (t : Nat) : List Member → List Member
  | [] => []
  | m :: g =>
    match lead t m with
    | some (m', v) => m' :: g.map (follow t v)
    | none => m :: iterate t g

/-- `onLoadConfig`, G lines 219-244, for one member: the stored number, if there is one.  4 is
accepted and is none of the four kinds, so it matches no case. -/
def load (stored : Option Int) (c : Ctl) : Ctl :=
  match stored with
  | none => c
  | some n =>
    if 0 ≤ n ∧ n ≤ 4 then
      if n = 0 then .both else if n = 1 then .rgb else if n = 2 then .w else .unused
    else c

/-- The actions, G lines 192-217. -/
inductive Act | on | off | toggle | iterate
deriving DecidableEq, Repr

/-- `GroupButtonControlRgbw::handleAction`, `group_button_control_rgbw.cpp:192-214`: the loop over all lights. -/
def handle (t : Nat) (a : Act) (g : List Member) : List Member :=
  match a with
  | .on => g.map (turnOn t)
  | .off => g.map (turnOff t)
  | .toggle => toggle t g
  | .iterate => iterate t g

end Verif.Group
