import Mathlib.Data.List.Basic
import Verif.Common.Clock

/-!
# An open window, noticed by a drop of the temperature: what is meant

Readings are hundredths of a degree, newest first, one every 30 seconds or so.
-/

namespace Verif.Drop

/-- `INT16_MIN`: there is no reading. -/
def unset : Int := -32768

/-- A pass of the main loop: when, and what the thermometer says. -/
structure Pass where
  now : Nat
  temp : Int

/-- A reading. -/
def Pass.valid (p : Pass) : Prop := unset < p.temp

/-- What the temperature was some minutes ago: the average, cut towards zero, of the 6th to the 26th last readings,
as far as there are any. -/
def before (rs : List Int) : Option Int :=
  let w := (rs.drop 5).take 21
  if w = [] then none else some (Int.tdiv w.sum w.length)

/-- The newest reading is more than two degrees lower than it was some minutes ago. -/
def Dropped (rs : List Int) : Prop := ∃ t a, rs.head? = some t ∧ before rs = some a ∧ t + 200 < a

/-- Which passes take a reading: one at least 30 seconds after the last that did. `last` is when that was. -/
def takes (last : Nat) (p : Pass) : Bool := decide (last + 30000 ≤ p.now)

/-- The time of the last pass that took a reading, and the readings, newest first. -/
def taken : List Pass → Nat × List Int
  | [] => (0, [])
  | p :: ps =>
    let r := taken ps
    if takes r.1 p then (p.now, if unset < p.temp then p.temp :: r.2 else r.2) else r

/-- The passes of a history (newest first) are in order and at most `g` milliseconds apart, beginning at 0. -/
def Paced (g : Nat) : List Pass → Prop
  | [] => True
  | [p] => p.now ≤ g
  | p :: q :: ps => q.now ≤ p.now ∧ p.now ≤ q.now + g ∧ Paced g (q :: ps)

end Verif.Drop
