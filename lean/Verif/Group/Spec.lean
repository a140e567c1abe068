import Verif.Group.Model
/-!
# Specification of C93

In terms of the lights only: colour brightness `cb`, white brightness `w`, and the brightnesses
`lastCb`, `lastW` they had when they were last on.
-/

namespace Verif.Group

open Verif.Rgbw (Light Kind)

/-- The button has to do with the colour of this light, and the light has one. -/
def hasColour (m : Member) : Bool :=
  (m.ctl = .both || m.ctl = .rgb) && m.light.kind ≠ .dimmer

/-- The button has to do with the white of this light, and the light has one. -/
def hasWhite (m : Member) : Bool :=
  (m.ctl = .both || m.ctl = .w) && m.light.kind ≠ .rgb

/-- Something the button controls is lit. -/
def Lit (m : Member) : Prop := (hasColour m = true ∧ m.light.cb > 0) ∨ (hasWhite m = true ∧ m.light.w > 0)

/-- Something the button controls would be lit with the remembered brightness. -/
def Able (m : Member) : Prop :=
  (hasColour m = true ∧ m.light.lastCb > 0) ∨ (hasWhite m = true ∧ m.light.lastW > 0)

/-- A light keeps to its class: no colour brightness on a dimmer, no white on an RGB light without
colour; brightness in per cent. -/
def Sane (m : Member) : Prop :=
  (m.light.kind = .dimmer → m.light.cb = 0) ∧ (m.light.kind = .rgb → m.light.w > 0 → m.light.cb > 0) ∧
  m.light.cb ≤ 100 ∧ m.light.w ≤ 100 ∧ m.light.lastCb ≤ 100 ∧ m.light.lastW ≤ 100 ∧ 0 < m.light.step

/-- The button is set to something the light has. -/
def Fits (m : Member) : Prop :=
  (m.ctl = .rgb → m.light.kind ≠ .dimmer) ∧ (m.ctl = .w → m.light.kind ≠ .rgb)

/-- What the button controls has the brightness `v`. -/
def At (v : Nat) (m : Member) : Prop :=
  (hasColour m = true → m.light.cb = v) ∧ (hasWhite m = true → m.light.w = v)

/-- What the button does not control is as before. -/
def Untouched (m m' : Member) : Prop :=
  m'.ctl = m.ctl ∧ m'.light.kind = m.light.kind ∧
  (hasColour m = false → m.light.kind ≠ .dimmer → m'.light.cb = m.light.cb) ∧
  (hasWhite m = false → m.light.kind ≠ .rgb → m'.light.w = m.light.w) ∧
  (m.ctl = .unused → m' = m)

end Verif.Group
