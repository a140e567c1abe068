import Verif.Pulse.Model
/-!
# Lemmas for C96
-/

namespace Verif.Pulse

open Verif.Shutter (RS Fp Op stopPos)

/-! ## Levels -/

/-- The last level of a sequence. -/
def last (p : Level) (l : List Level) : Level := l.foldl (fun _ x => x) p

theorem last_snoc (p : Level) (l : List Level) (x : Level) : last p (l ++ [x]) = x := by
  simp [last, List.foldl_append]

theorem presses_snoc (p : Level) (l : List Level) (x : Level) :
    presses p (l ++ [x]) = presses p l ++ (gained (last p l) x).map fun y => (x.t, y) := by
  induction l generalizing p with
  | nil => simp [presses, last]
  | cons a l ih =>
    rw [List.cons_append, presses, presses, ih, List.append_assoc]
    rfl

theorem releases_snoc (p : Level) (l : List Level) (x : Level) :
    releases p (l ++ [x]) = releases p l ++ (gained x (last p l)).map fun y => (x.t, y) := by
  induction l generalizing p with
  | nil => simp [releases, last]
  | cons a l ih =>
    rw [List.cons_append, releases, releases, ih, List.append_assoc]
    rfl

/-- The level before anything was written. -/
abbrev Bi.old (u : Nat) : Level := Level.free u

/-- Only the button `x` is held, or none. -/
def only (t : Nat) : Option Btn → Level
  | none => Level.free t
  | some x => (Level.free t).set t x true

/-- The levels of the outputs, apart from the time. -/
def Level.same (a b : Level) : Prop := a.up = b.up ∧ a.down = b.down ∧ a.stop = b.stop

/-! ## The common code -/

/-- What the common code can do in a pass: nothing, a stop, a start while it stands still, or, while it calibrates, a
start in the direction in which it moves. -/
theorem redirect_start (t : Nat) (d : Shutter.Dir) (s : RS) :
    (Shutter.redirect t d s).log = s.log ∨ (Shutter.redirect t d s).dir = .stop ∨ s.dir = .stop := by
  unfold Shutter.redirect
  split
  · exact .inl rfl
  · split
    · rename_i h; exact .inr (.inr h)
    · exact .inr (.inl rfl)

theorem known_start {F : Fp} {t : Nat} {s s' : RS} (h : Shutter.knownStage F t s = some s') :
    s'.log = s.log ∨ s'.dir = .stop ∨ s.dir = .stop := by
  unfold Shutter.knownStage at h
  split at h
  · split at h
    · unfold Shutter.moveUpStage at h
      cases hp : Shutter.posUp F s.opening s.startPos (since (clk t) s.started) with
      | none => rw [hp] at h; cases h
      | some p =>
        rw [hp] at h
        simp only [Option.bind_eq_bind, Option.bind_some] at h
        split at h
        · split at h
          · cases hm : Shutter.marginValue F (Shutter.setPosition p s).margin
                (Shutter.setPosition p s).opening with
            | none => rw [hm] at h; cases h
            | some m => rw [hm] at h; injection h with h; subst h; exact .inl rfl
          · injection h with h; subst h; exact .inr (.inl rfl)
        · injection h with h; subst h; exact .inl rfl
    · split at h
      · unfold Shutter.moveDownStage at h
        cases hp : Shutter.posDown F s.closing s.startPos (since (clk t) s.started) with
        | none => rw [hp] at h; cases h
        | some p =>
          rw [hp] at h
          simp only [Option.bind_eq_bind, Option.bind_some] at h
          split at h
          · split at h
            · cases hm : Shutter.marginValue F (Shutter.setPosition p s).margin
                  (Shutter.setPosition p s).closing with
              | none => rw [hm] at h; cases h
              | some m => rw [hm] at h; injection h with h; subst h; exact .inl rfl
            · injection h with h; subst h; exact .inr (.inl rfl)
          · injection h with h; subst h; exact .inl rfl
      · injection h with h; subst h; exact .inl rfl
  · split at h
    · cases hc : Shutter.choose F s with
      | none => rw [hc] at h; cases h
      | some c =>
        rw [hc] at h
        injection h with h
        subst h
        exact redirect_start t c.1 { s with timeout := c.2 }
    · injection h with h; subst h; exact .inl rfl

theorem unknown_start (t : Nat) (s : RS) :
    (Shutter.unknownStage t s).log = s.log ∨ (Shutter.unknownStage t s).dir = .stop ∨ s.dir = .stop := by
  have h := redirect_start t (Shutter.blindDir s.target)
    { s with pos := Shutter.unknownPos, timeout := Shutter.defaultTimeout }
  unfold Shutter.unknownStage
  dsimp only
  split
  · split
    · exact h
    · exact h
  · exact .inl rfl

theorem calEnd_start (t : Nat) (s : RS) :
    (Shutter.calEnd t s).log = s.log ∨ (Shutter.calEnd t s).dir = .stop := by
  unfold Shutter.calEnd
  split
  · exact .inr rfl
  · exact .inl rfl

/-- A calibration is about to begin. -/
def begins (s : RS) : Bool := s.calRequested && s.calTime == 0 && s.target != stopPos

theorem body_start {F : Fp} {t : Nat} {s s' : RS} (h : Shutter.body F t s = some s') :
    s'.log = s.log ∨ s'.dir = .stop ∨ s.dir = .stop ∨ begins s = true := by
  unfold Shutter.body at h
  split at h
  · rename_i hq
    unfold Shutter.calStage at h
    split at h
    · rename_i ht
      split at h
      · rename_i hc
        exact .inr (.inr (.inr (by simp [begins, hq, hc, ht])))
      · injection h with h
        subst h
        rcases calEnd_start t s with h | h
        · exact .inl h
        · exact .inr (.inl h)
    · injection h with h
      subst h
      exact .inl rfl
  · split at h
    · rcases known_start h with h | h | h
      · exact .inl h
      · exact .inr (.inl h)
      · exact .inr (.inr (.inl h))
    · injection h with h
      subst h
      rcases unknown_start t s with h | h | h
      · exact .inl h
      · exact .inr (.inl h)
      · exact .inr (.inr (.inl h))

/-- A start in a pass while it moves is the beginning of a calibration. -/
theorem pass_start {F : Fp} {t : Nat} {s s' : RS} (h : Shutter.pass F t s = some s') :
    s'.log.length = s.log.length ∨ s'.dir = .stop ∨ s.dir = .stop ∨ begins s = true := by
  unfold Shutter.pass at h
  split at h
  · injection h with h
    subst h
    exact .inl rfl
  · cases hb : Shutter.body F t (Shutter.stopStage t { s with pause := 0 }) with
    | none => rw [hb] at h; cases h
    | some r =>
      rw [hb] at h
      injection h with h
      have hl : s'.log = r.log := by
        subst h; unfold Shutter.timeoutStage; split <;> rfl
      have hd : s'.dir = r.dir := by
        subst h; unfold Shutter.timeoutStage; split <;> rfl
      rw [hl, hd]
      unfold Shutter.stopStage at hb
      split at hb
      · rename_i ht
        split at hb
        · have := Shutter.body_stopped hb ((Shutter.stopMovement_target t _).trans ht) rfl rfl
          right; left
          have hi : r.dir = r.io.dir := rfl
          rw [hi, this]
          rfl
        · rename_i hm
          refine .inr (.inr (.inl ?_))
          have : s.inMove = false := by
            cases hs : s.inMove with
            | false => rfl
            | true => exact absurd hs hm
          revert this
          unfold Shutter.RS.inMove
          cases s.dir <;> decide
      · rcases body_start hb with h | h | h | h
        · exact .inl (by rw [h])
        · exact .inr (.inl h)
        · exact .inr (.inr (.inl h))
        · exact .inr (.inr (.inr h))

/-- What a pass does to the direction, from what it did to the outputs. -/
theorem pass_dir {F : Fp} {t : Nat} {s s' : RS} (h : Shutter.pass F t s = some s') :
    (s'.log.length = s.log.length → s'.dir = s.dir) ∧
    (s'.log.length ≠ s.log.length → (s'.dir = .up → s.dir ≠ .down) ∧ (s'.dir = .down → s.dir ≠ .up)) := by
  rcases Shutter.pass_act h with ⟨_, _, rfl⟩ | ⟨_, ha⟩
  · exact ⟨fun _ => rfl, fun h => absurd rfl h⟩
  · have h1 : s'.log = s'.io.log := rfl
    have h2 : s'.dir = s'.io.dir := rfl
    have h3 : s.log = ({ s.io with pause := 0 } : Shutter.Io).log := rfl
    have h4 : s.dir = ({ s.io with pause := 0 } : Shutter.Io).dir := rfl
    rw [h1, h2, h3, h4]
    generalize ({ s.io with pause := 0 } : Shutter.Io) = i at ha
    generalize s'.io = j at ha
    cases ha with
    | keep => exact ⟨fun _ => rfl, fun h => absurd rfl h⟩
    | stop =>
      refine ⟨fun h => ?_, fun _ => ⟨fun h => (by cases h), fun h => (by cases h)⟩⟩
      simp [Shutter.Io.stop] at h
    | «open» hd =>
      refine ⟨fun h => ?_, fun _ => ⟨fun _ => hd, fun h => (by cases h)⟩⟩
      simp [Shutter.Io.open] at h
    | close hd =>
      refine ⟨fun h => ?_, fun _ => ⟨fun h => (by cases h), fun _ => hd⟩⟩
      simp [Shutter.Io.close] at h

/-- A pass that starts or stops is not held back by the pause. -/
theorem pass_paused {F : Fp} {t : Nat} {s s' : RS} (h : Shutter.pass F t s = some s')
    (hp : paused t s = true) : s' = s := by
  unfold Shutter.pass at h
  rw [if_pos (by simpa [paused] using hp)] at h
  exact (Option.some.inj h).symm

/-- Without a stop asked for, a pass on a shutter that does not move and is to stay so leaves the outputs alone. -/
theorem pass_asked {F : Fp} {t : Nat} {s s' : RS} (h : Shutter.pass F t s = some s')
    (ht : s.target = stopPos) (hd : s.dir = .stop) : s'.dir = .stop := by
  rcases Shutter.pass_act h with ⟨_, _, rfl⟩ | _
  · exact hd
  · unfold Shutter.pass at h
    split at h
    · injection h with h; subst h; exact hd
    · cases hb : Shutter.body F t (Shutter.stopStage t { s with pause := 0 }) with
      | none => rw [hb] at h; cases h
      | some r =>
        rw [hb] at h
        injection h with h
        have hd' : s'.dir = r.dir := by
          subst h; unfold Shutter.timeoutStage; split <;> rfl
        have hss : Shutter.stopStage t { s with pause := 0 } = { s with pause := 0, newTarget := false } := by
          unfold Shutter.stopStage
          rw [if_pos ht, if_neg (by simp [Shutter.RS.inMove, hd])]
        rw [hss] at hb
        have := Shutter.body_stopped hb ht hd rfl
        rw [hd', show r.dir = r.io.dir from rfl, this]
        exact hd

/-- Other operations leave the direction and the pause alone. -/
theorem other_keeps {F : Fp} {k : Kind} {s r : RS} {e : Nat × Op} (he : e.2 ≠ .pass)
    (h : other F k s e = some r) : r.dir = s.dir ∧ r.pause = s.pause := by
  obtain ⟨t, o⟩ := e
  unfold other at h
  split at h
  · cases hs : Shutter.step F { s with dir := if s.dir = .stop then .up else s.dir } (t, o) with
    | none => rw [hs] at h; cases h
    | some q =>
      rw [hs] at h
      injection h with h
      subst h
      refine ⟨rfl, ?_⟩
      have := Shutter.other_io he hs
      show q.io.pause = _
      rw [this]
      rfl
  · have := Shutter.other_io he h
    exact ⟨by show r.io.dir = _; rw [this]; rfl, by show r.io.pause = _; rw [this]; rfl⟩

end Verif.Pulse
