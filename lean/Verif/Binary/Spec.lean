import Mathlib.Data.List.Basic
import Verif.Common.Clock

/-!
# A binary sensor: what is meant

A history is a list of what happens to the sensor, newest first, after it has been switched on at time 0.
-/

namespace Verif.Binary

/-- What happens: a pass of the main loop with the input as it is then; the server sends a configuration (of which
type, how large, and whether inverted); the server says that it has sent all of them; the device is registered. -/
inductive Op where
  | pass (now : Nat) (input : Bool)
  | config (type size inverted : Nat)
  | finished
  | registered

/-- When the input was seen, and how it was; `b` is the input when the device is switched on. -/
def seen (b : Bool) : List Op → List (Nat × Bool)
  | [] => [(0, b)]
  | .pass t i :: os => (t, i) :: seen b os
  | .config _ _ _ :: os => seen b os
  | .finished :: os => seen b os
  | .registered :: os => seen b os

/-- The time of the newest pass. -/
def time : List Op → Nat
  | [] => 0
  | .pass t _ :: _ => t
  | .config _ _ _ :: os => time os
  | .finished :: os => time os
  | .registered :: os => time os

/-- Passes are in order and at most `g` milliseconds apart. -/
def Paced (g : Nat) : List Op → Prop
  | [] => True
  | .pass t _ :: os => time os ≤ t ∧ t ≤ time os + g ∧ Paced g os
  | .config _ _ _ :: os => Paced g os
  | .finished :: os => Paced g os
  | .registered :: os => Paced g os

/-- A configuration with a setting for the inversion: type 0 (default), 32 octets or more. -/
def carries (type size : Nat) : Prop := type = 0 ∧ 32 ≤ size

/-- The server has sent a setting for the inversion since the device was registered. -/
def answered : List Op → Prop
  | [] => False
  | .registered :: _ => False
  | .config ty sz _ :: os => carries ty sz ∨ answered os
  | .finished :: _ => True
  | .pass _ _ :: os => answered os

/-- What the user has set: the newest setting of the server; none, if the server says it is through without having
sent one; `d` before. -/
def wish (d : Bool) : List Op → Bool → Prop
  | [], v => v = d
  | .config ty sz inv :: os, v => (carries ty sz ∧ v = decide (0 < inv)) ∨ (¬ carries ty sz ∧ wish d os v)
  | .finished :: os, v => (¬ answered os ∧ v = false) ∨ (answered os ∧ wish d os v)
  | .pass _ _ :: os, v => wish d os v
  | .registered :: os, v => wish d os v

/-- The inversion is not touched in a history: the server sends nothing about it. -/
def Quiet : List Op → Prop
  | [] => True
  | .config ty sz _ :: os => ¬ carries ty sz ∧ Quiet os
  | .finished :: os => answered os ∧ Quiet os
  | .pass _ _ :: os => Quiet os
  | .registered :: os => Quiet os

end Verif.Binary
