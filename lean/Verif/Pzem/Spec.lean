import Mathlib.Algebra.Order.Field.Rat

/-!
# What a correct electricity meter shows

Independent of the model: the units of `/repo/src/supla-common/proto.h` 1810-1823 and 1865 (0.01 Hz, 0.01 V, 0.001 A,
0.00001 W, var and VA, 0.001 for the power factor, 0.00001 kWh), and the relation between the powers.
-/

namespace Verif.Pzem

/-- `shown` units are the quantity `truth`, up to one unit and the rounding of `float`s. -/
def Near (unit truth shown : Rat) : Prop := |shown * unit - truth| < unit + |truth| / 2 ^ 22

/-- `shown` units are the side `sqrt (a² − p²)`, to the unit below; 0 if there is no such number. -/
def Side (unit a p shown : Rat) : Prop :=
  if p < a then 0 ≤ shown ∧ (shown * unit) ^ 2 ≤ a ^ 2 - p ^ 2 ∧ a ^ 2 - p ^ 2 < ((shown + 1) * unit) ^ 2 else shown = 0

/-- Arithmetic of `float`s: each result is exact up to one part in 2^24. -/
def Close (F : Rat → Rat) : Prop := ∀ x, |F x - x| ≤ |x| / 2 ^ 24

end Verif.Pzem
