import Verif.Rgbw.Model
/-!
# Specification of C29 and C30
-/

namespace Verif.Rgbw

/-! ## C29: fading -/

/-- From `a` to `b` without leaving the way to `target`. -/
def Toward (a b target : Int) : Prop := (a ≤ b ∧ b ≤ target) ∨ (target ≤ b ∧ b ≤ a)

/-- The hardware values. -/
def Light.hw (s : Light) : Five := ⟨s.hr.hw, s.hg.hw, s.hb.hw, s.hcb.hw, s.hwh.hw⟩

/-- A property of all five components. -/
def Five.All (P : Int → Prop) (x : Five) : Prop := P x.r ∧ P x.g ∧ P x.b ∧ P x.cb ∧ P x.w

instance (P : Int → Prop) [DecidablePred P] (x : Five) : Decidable (x.All P) :=
  inferInstanceAs (Decidable (_ ∧ _))

/-- All five components of `a` move to those of `b` on the way to `T`. -/
def Five.Toward (a b T : Five) : Prop :=
  Rgbw.Toward a.r b.r T.r ∧ Rgbw.Toward a.g b.g T.g ∧ Rgbw.Toward a.b b.b T.b ∧
  Rgbw.Toward a.cb b.cb T.cb ∧ Rgbw.Toward a.w b.w T.w

/-- Values between 0 and `n`. -/
def Within (n : Nat) (x : Int) : Prop := 0 ≤ x ∧ x ≤ n

instance (n : Nat) : DecidablePred (Within n) := fun _ => inferInstanceAs (Decidable (_ ∧ _))

/-- A brightness adjuster that keeps to the hardware range. -/
def Adjuster.Bounded (A : Adjuster) : Prop := ∀ m x, x ≤ 100 → 0 ≤ A m x ∧ A m x ≤ m

/-- Arguments in their documented ranges: brightness up to 100, colours up to 255, hardware values of
16 bits; the maximal hardware value is not set below a value in use. -/
def Valid (s : Light) : Op → Prop
  | .set r g b cb w _ _ => r ≤ 255 ∧ g ≤ 255 ∧ b ≤ 255 ∧ cb ≤ 100 ∧ w ≤ 100
  | .dimmed n => 0 ≤ n ∧ n ≤ 100
  | .maxHw n => 2 ≤ n ∧ n ≤ 65535 ∧ s.hw.All (· ≤ n)
  | _ => True

instance (s : Light) : DecidablePred (Valid s) := fun o => by
  cases o <;> unfold Valid <;> infer_instance

/-- All operations of a history are `Valid`. -/
def ValidRun (F : Rounding) (A : Adjuster) : Light → List (Nat × Op) → Prop
  | _, [] => True
  | s, e :: h => Valid s e.2 ∧ ∀ s', exec F A s e = some s' → ValidRun F A s' h

instance ValidRun.dec (F : Rounding) (A : Adjuster) : ∀ s h, Decidable (ValidRun F A s h)
  | _, [] => .isTrue trivial
  | s, e :: h => by
    unfold ValidRun
    cases exec F A s e with
    | none => exact decidable_of_iff (Valid s e.2) ⟨fun h => ⟨h, fun _ h' => by cases h'⟩, fun h => h.1⟩
    | some q =>
      have := ValidRun.dec F A q h
      exact decidable_of_iff (Valid s e.2 ∧ ValidRun F A q h)
        ⟨fun h => ⟨h.1, fun _ h' => by cases h'; exact h.2⟩, fun h => ⟨h.1, h.2 _ rfl⟩⟩

/-- Timer passes, 1 to `g` ms apart, from the time `u` on. -/
def Every (g : Nat) : Nat → List Nat → Prop
  | _, [] => True
  | u, t :: ts => u < t ∧ t ≤ u + g ∧ Every g t ts

instance Every.dec (g : Nat) : ∀ u ts, Decidable (Every g u ts)
  | _, [] => .isTrue trivial
  | u, t :: ts =>
    have := Every.dec g t ts
    inferInstanceAs (Decidable (u < t ∧ t ≤ u + g ∧ Every g t ts))

/-- The time of the last pass. -/
def lastTime (u : Nat) (ts : List Nat) : Nat := ts.getLast?.getD u

/-- C29, the values given to the device: for every valid history they are between 0 and the maximal
hardware value. -/
def DeviceInRange : Prop :=
  ∀ F A t k si mo fr fw h s, Adjuster.Bounded A → ValidRun F A (boot t k si mo fr fw) h →
    run F A (boot t k si mo fr fw) h = some s →
    ∀ t' s', exec F A s (t', .pass) = some s' → ∀ x ∈ s'.out.head?, x.All (Within s'.maxHw)

/-! ## C30: off and on -/

/-- The brightness a user expects after switching on again, after an operation `o` that led from `s`
to `s'`: the brightness if it is on; the one set for later with "set brightness without turning on";
else as before. -/
def expectW (o : Op) (s s' : Light) (m : Nat) : Nat :=
  if s'.w > 0 then s'.w
  else match o with
    | .server q => if q.command % 256 = 10 ∧ s.w = 0 ∧ q.w % 256 > 0 then min 100 (q.w % 256) else m
    | _ => m

/-- The same for the colour brightness. -/
def expectCb (o : Op) (s s' : Light) (m : Nat) : Nat :=
  if s'.cb > 0 then s'.cb
  else match o with
    | .server q => if q.command % 256 = 11 ∧ s.cb = 0 ∧ q.cb % 256 > 0 then min 100 (q.cb % 256) else m
    | _ => m

/-- A history with the expectations of white and colour brightness. -/
def runExpect (F : Rounding) (A : Adjuster) :
    Light → Nat → Nat → List (Nat × Op) → Option (Light × Nat × Nat)
  | s, m, n, [] => some (s, m, n)
  | s, m, n, e :: h =>
    (exec F A s e).bind fun s' => runExpect F A s' (expectW e.2 s s' m) (expectCb e.2 s s' n) h

/-- Operations that switch the white light on. -/
def TurnsOnW (s : Light) : Op → Bool
  | .action .turnOn | .action .turnOnW => true
  | .action .toggle => !s.isOn
  | .action .toggleW => s.w == 0
  | .server q =>
    match q.command % 256 with
    | 1 | 7 => true
    | 9 => !s.isOn
    | 3 => s.w == 0
    | _ => false
  | _ => false

/-- Operations that switch the colour light on. -/
def TurnsOnCb (s : Light) : Op → Bool
  | .action .turnOn | .action .turnOnRgb => true
  | .action .toggle => !s.isOn
  | .action .toggleRgb => s.cb == 0
  | .server q =>
    match q.command % 256 with
    | 4 | 7 => true
    | 9 => !s.isOn
    | 6 => s.cb == 0
    | _ => false
  | _ => false

/-- C30 in full: after every valid history, switching on gives the expected brightness. -/
def RestoresBrightness : Prop :=
  ∀ F A t k si mo fr fw h s m n, k ≠ Kind.rgb → ValidRun F A (boot t k si mo fr fw) h →
    runExpect F A (boot t k si mo fr fw) 100 100 h = some (s, m, n) →
    ∀ t' o s', TurnsOnW s o = true → exec F A s (t', o) = some s' → s'.w = m

/-- The operations that break C30: brightness 0 set without turning on, and iterating white and
colour brightness together on a channel that has both or on an RGB channel. -/
def Steady (s : Light) : Op → Prop
  | .server q =>
    (q.command % 256 = 10 → q.w % 256 > 0) ∧ (q.command % 256 = 11 → q.cb % 256 > 0)
  | .action .iterateAll => s.kind = .dimmer
  | .pass => s.kind = .dimmer ∨ s.mode ≠ .all
  | _ => True

instance (s : Light) : DecidablePred (Steady s) := fun o => by
  cases o <;> unfold Steady <;> try infer_instance
  case action a => cases a <;> infer_instance

/-- All operations of a history are `Valid` and `Steady`. -/
def SteadyRun (F : Rounding) (A : Adjuster) : Light → List (Nat × Op) → Prop
  | _, [] => True
  | s, e :: h => (Valid s e.2 ∧ Steady s e.2) ∧ ∀ s', exec F A s e = some s' → SteadyRun F A s' h

instance SteadyRun.dec (F : Rounding) (A : Adjuster) : ∀ s h, Decidable (SteadyRun F A s h)
  | _, [] => .isTrue trivial
  | s, e :: h => by
    unfold SteadyRun
    cases exec F A s e with
    | none =>
      exact decidable_of_iff (Valid s e.2 ∧ Steady s e.2) ⟨fun h => ⟨h, fun _ h' => by cases h'⟩, fun h => h.1⟩
    | some q =>
      have := SteadyRun.dec F A q h
      exact decidable_of_iff ((Valid s e.2 ∧ Steady s e.2) ∧ SteadyRun F A q h)
        ⟨fun h => ⟨h.1, fun _ h' => by cases h'; exact h.2⟩, fun h => ⟨h.1, h.2 _ rfl⟩⟩

end Verif.Rgbw
