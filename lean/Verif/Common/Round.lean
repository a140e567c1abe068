/-!
# Floating point rounding

Floating point expressions are modelled over the rationals: every operation is computed exactly and
then rounded by a rounding function. All that is assumed of the rounding is what IEEE 754 (any
rounding mode, `float` or wider) provides: it is monotone and leaves integers of magnitude up to
2^24 unchanged. Overflow to infinity does not occur for the magnitudes used; division by zero is
treated separately by the models.
-/

namespace Verif

/-- A rounding function from exact results to floating point numbers. -/
structure Rounding where
  rnd : Rat → Rat
  mono : ∀ x y, x ≤ y → rnd x ≤ rnd y
  int : ∀ n : Int, n.natAbs ≤ 2 ^ 24 → rnd n = n

/-- Exact arithmetic is a rounding function. -/
def Rounding.exact : Rounding := ⟨id, fun _ _ h => h, fun _ _ => rfl⟩

/-- Rounding down to multiples of 1/1000 is a rounding function. -/
def Rounding.milli : Rounding where
  rnd x := ((x * 1000).floor : Rat) / 1000
  mono x y h := by
    have h1 : (x * 1000).floor ≤ (y * 1000).floor := Rat.floor_monotone (by grind)
    have h2 : ((x * 1000).floor : Rat) ≤ ((y * 1000).floor : Rat) := by exact_mod_cast h1
    grind
  int n _ := by
    have : ((n : Rat) * 1000) = ((n * 1000 : Int) : Rat) := by simp [Rat.intCast_mul]
    rw [this, Rat.floor_intCast, Rat.intCast_mul]
    have : ((1000 : Int) : Rat) = 1000 := rfl
    rw [this]
    grind

theorem Rounding.div_le_iff {a b k : Rat} (hb : 0 < b) : a / b ≤ k ↔ a ≤ k * b := by
  rw [← Rat.not_lt, ← Rat.not_lt, Rat.lt_div_iff hb]

theorem Rounding.le_div_iff {a b k : Rat} (hb : 0 < b) : k ≤ a / b ↔ k * b ≤ a := by
  rw [← Rat.not_lt, ← Rat.not_lt, Rat.div_lt_iff hb]

end Verif
