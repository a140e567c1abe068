import Verif.Common.Clock
/-!
# Specification for C96: a drive operated by short presses of buttons

Nothing here mentions the program: what is seen are the levels of the outputs, wired to the buttons of the drive.
-/

namespace Verif.Pulse

/-- The buttons of the drive. -/
inductive Btn | up | down | stop
deriving DecidableEq, Repr

/-- What the drive does. -/
inductive Motion | still | rising | falling
deriving DecidableEq, Repr

/-- The drives: one with two buttons, which stops when a button is pressed while it moves, and one with a third
button to stop. -/
inductive Kind | two | three
deriving DecidableEq, Repr

/-- The levels of the outputs from the time `t` on. -/
structure Level where
  t : Nat
  up : Bool
  down : Bool
  stop : Bool
deriving DecidableEq, Repr

/-- Whether a button is held down. -/
def Level.held (l : Level) : Btn → Bool
  | .up => l.up
  | .down => l.down
  | .stop => l.stop

/-- All buttons are free. -/
def Level.free (t : Nat) : Level := ⟨t, false, false, false⟩

/-- The buttons in the level `l` that are not in the level `p`. -/
def gained (p l : Level) : List Btn := [Btn.up, .down, .stop].filter fun x => l.held x && !p.held x

/-- The presses, with their times, in a sequence of levels that follows the level `p`. -/
def presses (p : Level) : List Level → List (Nat × Btn)
  | [] => []
  | l :: ls => (gained p l).map (fun x => (l.t, x)) ++ presses l ls

/-- The releases. -/
def releases (p : Level) : List Level → List (Nat × Btn)
  | [] => []
  | l :: ls => (gained l p).map (fun x => (l.t, x)) ++ releases l ls

/-- What a press does to a drive. -/
def Kind.press : Kind → Motion → Btn → Motion
  | .two, .still, .up => .rising
  | .two, .still, .down => .falling
  | .two, _, _ => .still
  | .three, _, .up => .rising
  | .three, _, .down => .falling
  | .three, _, .stop => .still

/-- What a drive that was still does after presses. -/
def Kind.drive (k : Kind) (ps : List (Nat × Btn)) : Motion := ps.foldl (fun m p => k.press m p.2) .still

/-- A press and its release: the same button, more than 200 ms later. -/
def Held (p r : Nat × Btn) : Prop := p.2 = r.2 ∧ p.1 + 200 < r.1

/-- Presses are apart: 200 ms for the press itself, then 500 ms. -/
def Apart (ps : List (Nat × Btn)) : Prop := ps.Pairwise fun a b => a.1 + 200 + 500 < b.1

end Verif.Pulse
