import Mathlib.Algebra.Order.Field.Rat
/-
C92: general purpose meters and measurements - what is promised.
-/
namespace Verif.Gpm

/-- The value shown: raw value times multiplier by divider plus the added value, all three in units
of 0.001; multiplier or divider 0 stands for 1. -/
def formula (raw : ℚ) (multiplier divider added : ℤ) : ℚ :=
  raw * (if multiplier = 0 then 1 else (multiplier : ℚ) / 1000)
    / (if divider = 0 then 1 else (divider : ℚ) / 1000) + (added : ℚ) / 1000

/-- Time between two readings for a configured number of ms: 0 means 5 s, and never less than
200 ms. -/
def interval (configured : Nat) : Nat := if configured = 0 then 5000 else max 200 configured

/-- A unit before or after the value, with a space unless told otherwise. -/
def shown (before after number : List Char) (tightBefore tightAfter : Bool) : List Char :=
  (if before = [] then [] else before ++ if tightBefore then [] else [' ']) ++ number ++
    (if after = [] then [] else (if tightAfter then [] else [' ']) ++ after)

/-- A number with room for it in the 53 bits of a double. -/
def small (n : ℤ) : Prop := -(2 ^ 53) ≤ n ∧ n ≤ 2 ^ 53

/-- Rounding of doubles: numbers that need at most 53 bits are not changed, and the error is at most
2^-53 of the number (no overflow, no underflow). -/
structure Rounding (rnd : ℚ → ℚ) : Prop where
  exact : ∀ n : ℤ, small n → rnd n = n
  near : ∀ x, |rnd x - x| ≤ |x| / 2 ^ 53

/-- What is done to a counter. -/
inductive Op
  | set (v : ℤ)
  | inc (d : ℤ)
  | dec (d : ℤ)
  | reset
  | save
  | restart
deriving DecidableEq

/-- What an operation adds, 0 standing for the step. -/
def Op.delta (step : ℤ) : Op → ℤ
  | .inc d => if d = 0 then step else d
  | .dec d => -(if d = 0 then step else d)
  | _ => 0

/-- Operations that count. -/
def Op.counts : Op → Bool
  | .inc _ | .dec _ | .save => true
  | _ => false

/-- All running totals have room. -/
def inRange (step v : ℤ) : List Op → Prop
  | [] => small v
  | o :: os => small v ∧ inRange step (v + o.delta step) os

end Verif.Gpm
