import Verif.Tools.Number
import Mathlib.Algebra.Order.Field.Rat

/-!
# Controls of a form, and what a browser submits for them

Written from the HTML standard, independent of the program: number fields, sliders, lists and check
boxes, whether they are disabled, and what is submitted for a control nobody touched. Exponents in
numbers are left out, because no page writes them.
-/

namespace Verif.Form
open Verif.Tools

/-- A control as the page describes it. A list has the value of each option and whether it is marked as
selected. -/
inductive Control
  | number (value : List Nat)
  | slider (lo hi step : Int) (value : List Nat)
  | list (options : List (List Nat × Bool))
  | box (checked : Bool)
deriving DecidableEq, Repr

/-- One or more digits. -/
def digits (s : List Nat) : Bool := !s.isEmpty && s.all (fun c => decide (48 ≤ c ∧ c ≤ 57))

/-- A valid number: digits, with or without decimal places. -/
def unsigned (s : List Nat) : Bool :=
  digits s || (digits (s.takeWhile (· != 46)) && digits ((s.dropWhile (· != 46)).drop 1))

/-- A valid number, with or without a minus sign. -/
def isNumber : List Nat → Bool
  | [] => false
  | c :: s => if c = 45 then unsigned s else unsigned (c :: s)

/-- The whole number a text denotes. -/
def wholeOf : List Nat → Int
  | [] => 0
  | c :: s => if c = 45 then -(decimal s : Int) else (decimal (c :: s) : Int)

/-- The text of a whole number. -/
def wholeText (n : Int) : List Nat := if n < 0 then 45 :: decimalText n.natAbs else decimalText n.natAbs

/-- Where a slider stands: within its range, on the nearest step, the higher one of two. -/
def snap (lo hi step v : Int) : Int :=
  let v := if v < lo then lo else if v > hi then hi else v
  let k := (2 * (v - lo) + step) / (2 * step)
  if lo + k * step > hi then lo + (k - 1) * step else lo + k * step

/-- The option a list shows: the last one marked, otherwise the first. -/
def shown (options : List (List Nat × Bool)) : Option (List Nat) :=
  match (options.filter (·.2)).getLast? with
  | some o => some o.1
  | none => options.head?.map (·.1)

/-- What is submitted for a control nobody touched: a number field with something that is no number is
empty, a box that is not checked is not submitted. -/
def Control.untouched : Control → Option (List Nat)
  | .number t => some (if isNumber t then t else [])
  | .slider lo hi step t => some (wholeText (snap lo hi step (wholeOf t)))
  | .list os => shown os
  | .box c => if c then some [111, 110] else none

/-- A field of a form. -/
structure Field (κ : Type) where
  name : κ
  disabled : Bool
  control : Control

/-- What an untouched form submits; disabled controls are left out. -/
def submitted {κ : Type} (form : List (Field κ)) : List (κ × List Nat) :=
  form.filterMap (fun f => if f.disabled then none else f.control.untouched.map (fun v => (f.name, v)))

/-- Printing with a given number of decimal places (`printf` with `%.*f`): the number of units of the
last place for a value that is not negative. It is a nearest one; nothing is said about which one it is
in the middle between two. -/
structure Printf where
  units : Nat → Rat → Nat
  near : ∀ p x, 0 ≤ x → |(units p x : Rat) - x * 10 ^ p| ≤ 1 / 2

/-- Rounding to `float`: relative error at most 2^-24 for values that are not tiny, and whole numbers of
24 bits are exact. -/
structure Single where
  rnd : Rat → Rat
  near : ∀ x, 1 / 2 ^ 100 ≤ |x| → |rnd x - x| ≤ |x| / 2 ^ 24
  whole : ∀ n : Int, n.natAbs ≤ 2 ^ 24 → rnd n = n

end Verif.Form
