/-
What the limbs mean.  Nothing here refers to the model.
-/
namespace Verif.Gmp

/-- The number written by the limbs `xs`, lowest first, in base `2 ^ (2 * h)`. -/
def value (h : Nat) : List Nat → Nat
  | [] => 0
  | x :: xs => x + 2 ^ (2 * h) * value h xs

/-- Every entry fits a limb. -/
def Limbs (h : Nat) (xs : List Nat) : Prop := ∀ x ∈ xs, x < 2 ^ (2 * h)

/-- No superfluous zero limb at the top, as the size field of a number demands. -/
def Normal (xs : List Nat) : Prop := xs.getLast? ≠ some 0

/-- A number in the form mini-gmp keeps it. -/
def Number (h : Nat) (xs : List Nat) : Prop := Limbs h xs ∧ Normal xs

/-- The 3/2 inverse of a normalised two-limb divisor `d` in base `β`: the quotient of `β³ - 1`
by `d`, less `β` (the definition quoted at /repo/src/nettle/mini-gmp.c:628-631 for one limb). -/
def IsInverse (β d v : Nat) : Prop := v + β = (β ^ 3 - 1) / d

end Verif.Gmp
