import Verif.Shutter.Model
/-!
# Specification for C25 to C28
-/

namespace Verif.Shutter

/-- C25: in no recorded instant are both motor outputs on. -/
def Interlock (log : List Snap) : Prop := ∀ x ∈ log, ¬ (x.up = true ∧ x.down = true)

/-- C26: from the instant an output goes off, the opposite output is off for at least 500 ms. -/
def PauseOk (log : List Snap) : Prop :=
  ∀ pre a b post, log = pre ++ a :: b :: post →
    (a.up = true ∧ b.up = false → ∀ c ∈ b :: post, c.down = true → b.t + 500 ≤ c.t) ∧
    (a.down = true ∧ b.down = false → ∀ c ∈ b :: post, c.up = true → b.t + 500 ≤ c.t)

/-- Operations are listed in time order, from `u` on. -/
def Ordered : Nat → List (Nat × Op) → Prop
  | _, [] => True
  | u, e :: h => u ≤ e.1 ∧ Ordered e.1 h

/-- C26 in full. -/
def Pauses : Prop :=
  ∀ F b h s, Ordered b.t h → run F (boot b) h = some s → PauseOk s.log

/-- The motor wiring setting is not changed while the shutter is moving, and no timer pass falls on
a millisecond at which the 32-bit clock reads 0. -/
def Calm (F : Fp) : RS → List (Nat × Op) → Prop
  | _, [] => True
  | s, e :: h =>
    (e.2 = .pass → clk e.1 ≠ 0) ∧
    match step F s e with
    | none => True
    | some s' => (s.dir ≠ .stop → (s'.motor = 2 ↔ s.motor = 2)) ∧ Calm F s' h

instance Ordered.dec : ∀ u h, Decidable (Ordered u h)
  | _, [] => .isTrue trivial
  | u, e :: h => have := Ordered.dec e.1 h; inferInstanceAs (Decidable (u ≤ e.1 ∧ Ordered e.1 h))

instance Calm.dec (F : Fp) : ∀ s h, Decidable (Calm F s h)
  | _, [] => .isTrue trivial
  | s, e :: h => by
    unfold Calm
    cases step F s e with
    | none => exact inferInstanceAs (Decidable (_ ∧ True))
    | some s' => have := Calm.dec F s' h; exact inferInstanceAs (Decidable (_ ∧ _))

/-- Positions that may be reported: 0 to 100, or unknown. -/
def PosOk (p : Int) : Prop := p = unknownPos ∨ (0 ≤ p ∧ p ≤ 100)

instance (p : Int) : Decidable (PosOk p) := inferInstanceAs (Decidable (_ ∨ _))

/-- C27, second half, for one operation: moving up the known position does not grow, moving down it
does not shrink. -/
def Directed (a b : RS) : Prop :=
  a.pos ≠ unknownPos → b.pos ≠ unknownPos →
    (a.dir = .up → b.pos ≤ a.pos) ∧ (a.dir = .down → a.pos ≤ b.pos)

/-- C27, second half, for every operation of every history. -/
def AlwaysDirected : Prop :=
  ∀ F b h a e a', PosOk b.pos → Ordered b.t (h ++ [e]) → run F (boot b) h = some a →
    step F a e = some a' → Directed a a'

/-- The history after `s` spans less than 2^32 ms from `t0`, and no operation other than a timer
pass changes the position, the travel times or the state of calibration. -/
def Quiet (F : Fp) (t0 : Nat) : RS → List (Nat × Op) → Prop
  | _, [] => True
  | s, e :: h =>
    e.1 < t0 + 2 ^ 32 ∧
    match step F s e with
    | none => True
    | some s' =>
      (e.2 ≠ .pass → s'.pos = s.pos ∧ s'.closing = s.closing ∧ s'.opening = s.opening ∧
        s'.calibrate = s.calibrate ∧ s'.calTime = s.calTime) ∧ Quiet F t0 s' h

instance Quiet.dec (F : Fp) (t0 : Nat) : ∀ s h, Decidable (Quiet F t0 s h)
  | _, [] => .isTrue trivial
  | s, e :: h => by
    unfold Quiet
    cases step F s e with
    | none => exact inferInstanceAs (Decidable (_ ∧ True))
    | some s' => have := Quiet.dec F t0 s' h; exact inferInstanceAs (Decidable (_ ∧ _))

/-- Timer passes only, the next one never later than `g` ms after the last. -/
def Every (g : Nat) : Nat → List Nat → Prop
  | _, [] => True
  | u, t :: ts => u ≤ t ∧ t ≤ u + g ∧ Every g t ts

instance Every.dec (g : Nat) : ∀ u ts, Decidable (Every g u ts)
  | _, [] => .isTrue trivial
  | u, t :: ts =>
    have := Every.dec g t ts
    inferInstanceAs (Decidable (u ≤ t ∧ t ≤ u + g ∧ Every g t ts))

/-- The time of the last of a list of passes. -/
def lastTime (u : Nat) (ts : List Nat) : Nat := ts.getLast?.getD u

/-- C28: from `s` at the time `u`, with nothing but timer passes at most `g` ms apart, both outputs
are off at every pass later than `u + B`. -/
def StopsWithin (F : Fp) (B g : Nat) (s : RS) (u : Nat) : Prop :=
  ∀ ts s', Every g u ts → run F s (ts.map fun t => (t, .pass)) = some s' → u + B < lastTime u ts →
    s'.upOn = false ∧ s'.downOn = false

/-- C28 in full: for every maximal travel time and pass spacing there is a bound. -/
def AlwaysStops : Prop :=
  ∀ T g, ∃ B, ∀ F b h s u, b.closing ≤ T → b.opening ≤ T → PosOk b.pos → run F (boot b) h = some s →
    s.closing ≤ T → s.opening ≤ T → StopsWithin F B g s u

/-- Commands an application can give meaningfully. -/
def ValidTarget (n : Int) : Prop := n = stopPos ∨ n = moveUpPos ∨ n = moveDownPos ∨ (0 ≤ n ∧ n ≤ 100)

instance (n : Int) : Decidable (ValidTarget n) := inferInstanceAs (Decidable (_ ∨ _))

/-- A travel time of 0 (not set) or 4 ms to `T`. -/
def TimeOk (T n : Nat) : Prop := n = 0 ∨ (4 ≤ n ∧ n ≤ T)

instance (T n : Nat) : Decidable (TimeOk T n) := inferInstanceAs (Decidable (_ ∨ _))

/-- Without travel times. -/
def Blind (s : RS) : Prop := s.opening = 0 ∨ s.closing = 0

instance (s : RS) : Decidable (Blind s) := inferInstanceAs (Decidable (_ ∨ _))

/-- An operation that leads from `s` to `s'` and does not do one of the things that are known to
leave the motor running: invalid targets, extreme travel times, removing the travel times during a
movement (other than with a new command), or overriding position or calibration. -/
def Sane (T : Nat) (s s' : RS) (o : Op) : Prop :=
  TimeOk T s'.closing ∧ TimeOk T s'.opening ∧ ValidTarget s'.target ∧
  (s.dir ≠ .stop → Blind s' → Blind s ∨ s'.newTarget = true) ∧
  match o with
  | .position _ | .calibrationFinished => s.dir = .stop
  | .notCalibrated | .calibrationOngoing _ => False
  | _ => True

/-- All operations of a history are `Sane`. -/
def SaneRun (F : Fp) (T : Nat) : RS → List (Nat × Op) → Prop
  | _, [] => True
  | s, e :: h =>
    match step F s e with
    | none => True
    | some s' => Sane T s s' e.2 ∧ SaneRun F T s' h

instance (T : Nat) (s s' : RS) (o : Op) : Decidable (Sane T s s' o) := by
  unfold Sane
  cases o <;> exact inferInstanceAs (Decidable (_ ∧ _))

instance SaneRun.dec (F : Fp) (T : Nat) : ∀ s h, Decidable (SaneRun F T s h)
  | _, [] => .isTrue trivial
  | s, e :: h => by
    unfold SaneRun
    cases step F s e with
    | none => exact .isTrue trivial
    | some s' => have := SaneRun.dec F T s' h; exact inferInstanceAs (Decidable (_ ∧ _))

/-- A device start `SaneRun` histories begin with: the position is known if the travel times are. -/
def SaneBoot (T : Nat) (b : Boot) : Prop :=
  b.timeAvail = true ∧ TimeOk T b.closing ∧ TimeOk T b.opening ∧ b.margin ≤ 101 ∧
  (b.opening ≠ 0 → b.closing ≠ 0 → 0 ≤ b.pos ∧ b.pos ≤ 100)

instance (T : Nat) (b : Boot) : Decidable (SaneBoot T b) := inferInstanceAs (Decidable (_ ∧ _))

end Verif.Shutter
