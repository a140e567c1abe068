/-!
# The 32-bit millisecond clock

`millis()` (`/repo/src/supla/time.h`) returns the milliseconds since boot modulo 2^32. The models
below receive the true time as a natural number and store `clk t`; differences of stored clock
values are taken modulo 2^32, as `uint32_t` subtraction does.
-/

namespace Verif

/-- The value `millis()` returns at the true time `t`. -/
def clk (t : Nat) : Nat := t % 2 ^ 32

/-- `uint32_t` subtraction of two clock values. -/
def since (now ts : Nat) : Nat := (now + 2 ^ 32 - ts) % 2 ^ 32

theorem clk_lt (t : Nat) : clk t < 2 ^ 32 := Nat.mod_lt _ (by decide)

theorem since_clk_le (a b : Nat) (h : b ≤ a) : since (clk a) (clk b) ≤ a - b := by
  unfold since clk; omega

theorem since_clk_eq (a b : Nat) (h : b ≤ a) (h2 : a - b < 2 ^ 32) :
    since (clk a) (clk b) = a - b := by
  unfold since clk; omega

theorem since_clk_self (a : Nat) : since (clk a) (clk a) = 0 := by
  unfold since clk; omega

theorem since_lt (a b : Nat) : since a b < 2 ^ 32 := Nat.mod_lt _ (by decide)

end Verif
