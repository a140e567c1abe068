import Verif.Pulse.Props
/-!
# C96: histories in which nothing asks for a calibration
-/

namespace Verif.Pulse

open Verif.Shutter (RS Fp Op stopPos Ordered)

/-- The times are kept, and a calibration does not become needed. -/
structure Kept (s r : RS) : Prop where
  closing : r.closing = s.closing
  opening : r.opening = s.opening
  calibrate : s.calibrate = false → r.calibrate = false

theorem Kept.refl (s : RS) : Kept s s := ⟨rfl, rfl, id⟩

theorem Kept.trans {a b c : RS} (h : Kept a b) (g : Kept b c) : Kept a c :=
  ⟨g.closing.trans h.closing, g.opening.trans h.opening, fun x => g.calibrate (h.calibrate x)⟩

theorem write_kept (t : Nat) (p : Shutter.Pin) (on : Bool) (s : RS) : Kept s (Shutter.write t p on s) := by
  cases p <;> exact ⟨rfl, rfl, id⟩

theorem stopMovement_kept (t : Nat) (s : RS) : Kept s (Shutter.stopMovement t s) := by
  have h : Kept s (Shutter.switchOff t s) := (write_kept t _ _ s).trans (write_kept t _ _ _)
  exact ⟨h.closing, h.opening, h.calibrate⟩

theorem startClosing_kept (t : Nat) (s : RS) : Kept s (Shutter.startClosing t s) := by
  have h : Kept { s with started := clk t, dir := .down } (Shutter.startClosing t s) :=
    (write_kept t _ _ _).trans (write_kept t _ _ _)
  exact ⟨h.closing, h.opening, h.calibrate⟩

theorem startOpening_kept (t : Nat) (s : RS) : Kept s (Shutter.startOpening t s) := by
  have h : Kept { s with started := clk t, dir := .up } (Shutter.startOpening t s) :=
    (write_kept t _ _ _).trans (write_kept t _ _ _)
  exact ⟨h.closing, h.opening, h.calibrate⟩

theorem setTarget_kept (n : Int) (s : RS) : Kept s (Shutter.setTarget n s) := ⟨rfl, rfl, id⟩

theorem setPosition_kept (n : Int) (s : RS) : Kept s (Shutter.setPosition n s) := ⟨rfl, rfl, fun _ => rfl⟩

theorem redirect_kept (t : Nat) (d : Shutter.Dir) (s : RS) : Kept s (Shutter.redirect t d s) := by
  unfold Shutter.redirect
  split
  · exact ⟨rfl, rfl, id⟩
  · split
    · have h : Kept s { s with newTarget := false, startPos := s.pos } := ⟨rfl, rfl, id⟩
      dsimp only
      split
      · exact h.trans (startClosing_kept t _)
      · exact h.trans (startOpening_kept t _)
    · exact stopMovement_kept t s

theorem stopStage_kept (t : Nat) (s : RS) : Kept s (Shutter.stopStage t s) := by
  unfold Shutter.stopStage
  split
  · split
    · have h := stopMovement_kept t s
      exact ⟨h.closing, h.opening, h.calibrate⟩
    · exact ⟨rfl, rfl, id⟩
  · exact .refl s

theorem known_kept {F : Fp} {t : Nat} {s s' : RS} (h : Shutter.knownStage F t s = some s') : Kept s s' := by
  unfold Shutter.knownStage at h
  split at h
  · split at h
    · unfold Shutter.moveUpStage at h
      cases hp : Shutter.posUp F s.opening s.startPos (since (clk t) s.started) with
      | none => rw [hp] at h; cases h
      | some p =>
        rw [hp] at h
        simp only [Option.bind_eq_bind, Option.bind_some] at h
        split at h
        · split at h
          · cases hm : Shutter.marginValue F (Shutter.setPosition p s).margin
                (Shutter.setPosition p s).opening with
            | none => rw [hm] at h; cases h
            | some m => rw [hm] at h; injection h with h; subst h; exact ⟨rfl, rfl, fun _ => rfl⟩
          · injection h with h; subst h; exact (setPosition_kept p s).trans (stopMovement_kept t _)
        · injection h with h; subst h; exact setPosition_kept p s
    · split at h
      · unfold Shutter.moveDownStage at h
        cases hp : Shutter.posDown F s.closing s.startPos (since (clk t) s.started) with
        | none => rw [hp] at h; cases h
        | some p =>
          rw [hp] at h
          simp only [Option.bind_eq_bind, Option.bind_some] at h
          split at h
          · split at h
            · cases hm : Shutter.marginValue F (Shutter.setPosition p s).margin
                  (Shutter.setPosition p s).closing with
              | none => rw [hm] at h; cases h
              | some m => rw [hm] at h; injection h with h; subst h; exact ⟨rfl, rfl, fun _ => rfl⟩
            · injection h with h; subst h; exact (setPosition_kept p s).trans (stopMovement_kept t _)
          · injection h with h; subst h; exact setPosition_kept p s
      · injection h with h; subst h; exact .refl _
  · split at h
    · cases hc : Shutter.choose F s with
      | none => rw [hc] at h; cases h
      | some c =>
        rw [hc] at h
        injection h with h
        subst h
        have := redirect_kept t c.1 { s with timeout := c.2 }
        exact ⟨this.closing, this.opening, this.calibrate⟩
    · injection h with h; subst h; exact .refl _

theorem unknown_kept (t : Nat) (s : RS) : Kept s (Shutter.unknownStage t s) := by
  have h := redirect_kept t (Shutter.blindDir s.target)
    { s with pos := Shutter.unknownPos, timeout := Shutter.defaultTimeout }
  unfold Shutter.unknownStage
  dsimp only
  split
  · split
    · exact ⟨h.closing, h.opening, h.calibrate⟩
    · exact ⟨h.closing, h.opening, h.calibrate⟩
  · exact ⟨rfl, rfl, id⟩

/-- A pass while no calibration is needed. -/
theorem pass_kept {F : Fp} {t : Nat} {s s' : RS} (h : Shutter.pass F t s = some s') (hc : s.calibrate = false) :
    Kept s s' := by
  unfold Shutter.pass at h
  split at h
  · injection h with h; subst h; exact .refl s
  · have hk := stopStage_kept t { s with pause := 0 }
    have hk : Kept s (Shutter.stopStage t { s with pause := 0 }) := ⟨hk.closing, hk.opening, hk.calibrate⟩
    generalize Shutter.stopStage t { s with pause := 0 } = q at *
    cases hb : Shutter.body F t q with
    | none => rw [hb] at h; cases h
    | some r =>
      rw [hb] at h
      injection h with h
      have hr : Kept q r := by
        unfold Shutter.body at hb
        rw [if_neg (by simp [Shutter.RS.calRequested, hk.calibrate hc])] at hb
        split at hb
        · exact known_kept hb
        · injection hb with hb; subst hb; exact unknown_kept t q
      subst h
      refine (hk.trans hr).trans ?_
      unfold Shutter.timeoutStage
      split
      · exact ⟨rfl, rfl, id⟩
      · exact .refl r

/-- Operations that do not ask for a calibration, on a shutter with these times of closing and opening: everything but
the request for one, and messages that carry other times. -/
def Settled (closing opening : Nat) : Op → Prop
  | .server d _ => d % 65536 * 100 = closing ∧ d / 65536 % 65536 * 100 = opening
  | .times c o => c = closing ∧ o = opening
  | .config c => c.closing < 0 ∨ c.opening < 0 ∨ (c.closing.toNat = closing ∧ c.opening.toNat = opening)
  | .recalibrate => False
  | .calibrationNeeded => False
  | _ => True

instance (c o : Nat) (x : Op) : Decidable (Settled c o x) := by
  cases x <;> unfold Settled <;> infer_instance

theorem setTimes_same {c o : Nat} {s : RS} (hc : c = s.closing) (ho : o = s.opening) (h1 : c < 2 ^ 32)
    (h2 : o < 2 ^ 32) : Shutter.setTimes c o s = s := by
  unfold Shutter.setTimes
  rw [if_neg]
  rintro ⟨_, h⟩
  rw [Nat.mod_eq_of_lt h1, Nat.mod_eq_of_lt h2] at h
  rcases h with h | h
  · exact h hc
  · exact h ho

theorem orStop_kept (n : Int) (s : RS) : Kept s (Shutter.orStop n s) := by
  unfold Shutter.orStop; split <;> exact ⟨rfl, rfl, id⟩

theorem stepByStep_kept (s : RS) : Kept s (Shutter.stepByStep s) := by
  unfold Shutter.stepByStep; repeat' split
  all_goals exact ⟨rfl, rfl, id⟩

theorem step_kept {F : Fp} {e : Nat × Op} {s s' : RS} (h : Shutter.step F s e = some s') (hc : s.calibrate = false)
    (hs : Settled s.closing s.opening e.2) (h1 : s.closing < 2 ^ 32) (h2 : s.opening < 2 ^ 32) : Kept s s' := by
  obtain ⟨t, o⟩ := e
  cases o with
  | pass => exact pass_kept h hc
  | server d k =>
    injection h with h
    subst h
    unfold Shutter.server
    dsimp only
    rw [setTimes_same hs.1 hs.2 (hs.1 ▸ h1) (hs.2 ▸ h2)]
    repeat' split
    all_goals first
      | exact ⟨rfl, rfl, id⟩ | exact orStop_kept _ s | exact stepByStep_kept s
  | action a =>
    injection h with h
    subst h
    cases a
    all_goals first
      | exact ⟨rfl, rfl, id⟩ | exact orStop_kept _ s | exact stepByStep_kept s
  | target n => injection h with h; subst h; exact ⟨rfl, rfl, id⟩
  | times c o =>
    injection h with h
    subst h
    rw [setTimes_same hs.1 hs.2 (hs.1 ▸ h1) (hs.2 ▸ h2)]
    exact .refl s
  | config c =>
    injection h with h
    subst h
    unfold Shutter.applyConfig
    dsimp only
    have hq : (if c.opening ≥ 0 ∧ c.closing ≥ 0 then Shutter.setTimes c.closing.toNat c.opening.toNat s else s) = s := by
      split
      · rename_i hg
        rcases hs with hs | hs | hs
        · omega
        · omega
        · exact setTimes_same hs.1 hs.2 (hs.1 ▸ h1) (hs.2 ▸ h2)
      · rfl
    rw [hq]
    split <;> exact ⟨rfl, rfl, id⟩
  | recalibrate => exact hs.elim
  | calibrationNeeded => exact hs.elim
  | position n => injection h with h; subst h; exact setPosition_kept n s
  | notCalibrated => injection h with h; subst h; exact ⟨rfl, rfl, fun _ => rfl⟩
  | calibrationOngoing n => injection h with h; subst h; exact ⟨rfl, rfl, id⟩
  | calibrationFinished => injection h with h; subst h; exact ⟨rfl, rfl, fun _ => rfl⟩
  | motorEnabled b => injection h with h; subst h; exact ⟨rfl, rfl, id⟩
  | motorValue v => injection h with h; subst h; split <;> exact ⟨rfl, rfl, id⟩
  | marginEnabled b => injection h with h; subst h; exact ⟨rfl, rfl, id⟩
  | marginValue v => injection h with h; subst h; split <;> exact ⟨rfl, rfl, id⟩
  | comfortUp n => injection h with h; subst h; exact ⟨rfl, rfl, id⟩
  | comfortDown n => injection h with h; subst h; exact ⟨rfl, rfl, id⟩

theorem basePass_kept {F : Fp} {t : Nat} {b c : Bi} (h : basePass F .two t b = some c)
    (hc : b.rs.calibrate = false) : Kept b.rs c.rs := by
  unfold basePass at h
  cases hp : Shutter.pass F t b.rs with
  | none => rw [hp] at h; cases h
  | some r =>
    rw [hp] at h
    injection h with h
    subst h
    dsimp only
    rw [if_neg (by rintro ⟨h, _⟩; cases h)]
    exact pass_kept hp hc

theorem bistep_kept {F : Fp} {b c : Bi} {e : Nat × Op} (h : step F .two b e = some c) (hc : b.rs.calibrate = false)
    (hs : Settled b.rs.closing b.rs.opening e.2) (h1 : b.rs.closing < 2 ^ 32) (h2 : b.rs.opening < 2 ^ 32) :
    Kept b.rs c.rs := by
  unfold step at h
  split at h
  · have hk : Kept b.rs (endPress .two e.1 b).rs := by
      unfold endPress
      split
      · exact ⟨rfl, rfl, id⟩
      · exact .refl _
    unfold onTimer at h
    split at h
    · injection h with h; subst h; exact hk
    · exact hk.trans (basePass_kept h (hk.calibrate hc))
  · cases ho : other F .two b.rs e with
    | none => rw [ho] at h; cases h
    | some r =>
      rw [ho] at h
      injection h with h
      subst h
      unfold other at ho
      rw [if_neg (by rintro ⟨h, _⟩; cases h)] at ho
      exact step_kept ho hc hs h1 h2

theorem settled_unhurried {F : Fp} {cl op : Nat} (h1 : cl < 2 ^ 32) (h2 : op < 2 ^ 32) (h : List (Nat × Op)) :
    ∀ {b : Bi}, b.rs.calibrate = false → b.rs.closing = cl → b.rs.opening = op → (∀ e ∈ h, Settled cl op e.2) →
    Unhurried F .two b h := by
  induction h with
  | nil => intro b _ _ _ _; trivial
  | cons e h ih =>
    intro b hc h3 h4 hs
    refine ⟨fun _ _ => ?_, fun c hst => ?_⟩
    · unfold begins Shutter.RS.calRequested
      rw [hc]
      rfl
    · have hk := bistep_kept hst hc (by rw [h3, h4]; exact hs e (by simp)) (h3 ▸ h1) (h4 ▸ h2)
      exact ih (hk.calibrate hc) (hk.closing.trans h3) (hk.opening.trans h4) (fun e he => hs e (by simp [he]))

/-- With two buttons the drive moves as the program takes it to, as long as nothing asks for a calibration: neither a
request for one, nor a message with other times than those the device was started with. -/
theorem follows_settled (F : Fp) (o : Shutter.Boot) (h : List (Nat × Op)) (b : Bi) (ho : Ordered o.t h)
    (h1 : o.closing < 2 ^ 32) (h2 : o.opening < 2 ^ 32) (hs : ∀ e ∈ h, Settled o.closing o.opening e.2)
    (hr : run F .two (boot o) h = some b) : Kind.two.drive (presses (Level.free o.t) b.log) = motion b.rs.dir :=
  follows_two_partial F o h b ho (settled_unhurried h1 h2 h rfl rfl rfl hs) hr

/-- The demonstration is such a history, and ends with the shutter closing. -/
example : Ordered demoBoot.t demo ∧ (∀ e ∈ demo, Settled demoBoot.closing demoBoot.opening e.2) ∧
    (run ⟨.exact, .exact⟩ .two (boot demoBoot) demo).map (fun b => motion b.rs.dir) = some .falling := by
  refine ⟨by decide, by decide, by decide +kernel⟩

end Verif.Pulse
