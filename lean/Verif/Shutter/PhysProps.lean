import Verif.Shutter.Physical
/-!
# C114: the theorems
-/

namespace Verif.Shutter

theorem Set.calibrated {R : Rig} (hR : R.Real) {s : RS} (h : Set R s) : s.calRequested = false ∧ s.calibrated = true := by
  have h1 := h.calibrate
  have h2 := h.opening
  have h3 := h.closing
  have h4 : s.pos ≠ unknownPos := by have := h.low; unfold unknownPos; omega
  have ho : s.opening ≠ 0 := by have := hR.1; omega
  have hc : s.closing ≠ 0 := by have := hR.2.1; omega
  constructor
  · unfold RS.calRequested; rw [h1]; rfl
  · unfold RS.calibrated
    rw [h1]
    split <;> simp [ho, hc, h4]

/-- The last pass, after the stage for a known position. -/
def seen (v t : Nat) (s : RS) : Nat := if s.newTarget = false ∨ s.dir = .stop then t else v

theorem nMoves_same (n : Nat) {s s' : RS} (h : s'.off = s.off) : nMoves n s s' = n := by
  unfold nMoves
  rw [h]
  cases s.off <;> rfl

theorem nMoves_on (n : Nat) {s : RS} (s' : RS) (h : s.off = false) : nMoves n s s' = n := by
  unfold nMoves
  rw [h]
  rfl

theorem Good.known {F : Fp} (hF : F.Close) {R : Rig} (hR : R.Real) {n v t : Nat} {s s' : RS} {x : Rat} (h : Good R n v t s x)
    (hp : s.pause = 0) (hs : knownStage F t s = some s') : Good R (nMoves n s s') (seen v t s) t s' x := by
  unfold knownStage at hs
  unfold seen
  split at hs
  · rename_i hc
    have hoff : s.off = false := by
      cases ho : s.off with
      | false => rfl
      | true => exact absurd (h.offdir.mp ho) hc.2
    rw [if_pos (.inl hc.1), nMoves_on n s' hoff]
    split at hs
    · rename_i hu
      exact (h.moveUp hF hR hu.1 hc.1 hu.2 hs).1
    · rename_i hu
      split at hs
      · rename_i hd
        exact (h.moveDown hF hR hd.1 hc.1 hd.2 hs).1
      · rename_i hd
        have hs := Option.some.inj hs
        subst hs
        refine ⟨h.set, h.aim, h.x0, h.x1, h.stop, fun e => ?_, fun e => ?_⟩
        · have o := h.up e
          have hz : s.pos = 0 := by
            have := h.set.low
            by_contra hne
            exact hu ⟨e, by omega⟩
          have herr := o.err hR h.x0
          rw [hz] at herr
          have := (abs_le.mp herr).1
          push_cast at this
          exact ⟨o.outs, o.on, o.pause, o.some, .inl ⟨hz, by linarith⟩⟩
        · have o := h.down e
          have hz : s.pos = 100 := by
            have := h.set.high
            by_contra hne
            exact hd ⟨e, by omega⟩
          have herr := o.err hR h.x1
          rw [hz] at herr
          have := (abs_le.mp herr).2
          push_cast at this
          exact ⟨o.outs, o.on, o.pause, o.some, .inl ⟨hz, this⟩⟩
  · rename_i hc
    split at hs
    · rename_i hn
      cases hch : choose F s with
      | none => rw [hch] at hs; cases hs
      | some c =>
        rw [hch] at hs
        have hs := Option.some.inj hs
        subst hs
        have hg : Good R n v t { s with timeout := c.2 } x :=
          h.congr rfl rfl rfl rfl rfl rfl (.inl rfl) rfl rfl rfl rfl ⟨h.aim.stop, h.aim.up, h.aim.down⟩
        have := hg.redirect hR c.1 hn.1 (fun ht => choose_aim hch ht) hp
        have e1 : nMoves n s (Shutter.redirect t c.1 { s with timeout := c.2 }) =
            nMoves n { s with timeout := c.2 } (Shutter.redirect t c.1 { s with timeout := c.2 }) := rfl
        have e2 : (if s.newTarget = false ∨ s.dir = .stop then t else v) = (if s.dir = .stop then t else v) := by
          rw [hn.1]
          by_cases hd : s.dir = .stop
          · rw [if_pos (.inr hd), if_pos hd]
          · rw [if_neg (by simp [hd]), if_neg hd]
        rw [e1, e2]
        exact this
    · rename_i hn
      have hs := Option.some.inj hs
      subst hs
      rw [nMoves_same n rfl]
      by_cases hd : s.dir = .stop
      · exact h.anyv hd _ _
      · have : s.newTarget = true := by
          cases hb : s.newTarget with
          | true => rfl
          | false => exact absurd ⟨hb, hd⟩ hc
        rw [if_neg (by simp [this, hd])]
        exact h

/-- What the first stage does to the rest. -/
theorem stopStage_pause0 (t : Nat) (s : RS) : ((stopStage t { s with pause := 0 }).pause = 0 ∨
    ((stopStage t { s with pause := 0 }).dir = .stop ∧ (stopStage t { s with pause := 0 }).newTarget = false)) := by
  unfold stopStage
  split
  · split
    · right
      obtain ⟨l, e⟩ := stopMovement_eq t { s with pause := 0 }
      rw [e]
      exact ⟨rfl, rfl⟩
    · left; rfl
  · left; rfl

theorem Good.pass {F : Fp} (hF : F.Close) {R : Rig} (hR : R.Real) {n v t : Nat} {s s' : RS} {x : Rat} (h : Good R n v t s x)
    (hs : pass F t s = some s') : Good R (nMoves n s s') (if s.newTarget = false ∨ s.off = true then t else v) t s' x := by
  unfold Shutter.pass at hs
  split at hs
  · rename_i hc
    have hs := Option.some.inj hs
    subst hs
    rw [nMoves_same n rfl]
    refine h.anyv ?_ _ _
    cases hd : s.dir with
    | stop => rfl
    | up => exact absurd (h.up hd).pause hc.1
    | down => exact absurd (h.down hd).pause hc.1
  · have h1 := h.stopStage hR
    have hpz := stopStage_pause0 t s
    -- what the first stage did
    have hcase : (Shutter.stopStage t { s with pause := 0 } = { s with pause := 0 }) ∨
        ((Shutter.stopStage t { s with pause := 0 }).newTarget = false ∧ (Shutter.stopStage t { s with pause := 0 }).dir = .stop) := by
      unfold Shutter.stopStage
      split
      · split
        · right
          obtain ⟨l, e⟩ := stopMovement_eq t { s with pause := 0 }
          rw [e]
          exact ⟨rfl, rfl⟩
        · rename_i hm
          right
          refine ⟨rfl, ?_⟩
          show s.dir = .stop
          cases hd : s.dir with
          | stop => rfl
          | up => exact absurd (show ({ s with pause := 0 } : RS).inMove = true by unfold RS.inMove; simp [hd]) hm
          | down => exact absurd (show ({ s with pause := 0 } : RS).inMove = true by unfold RS.inMove; simp [hd]) hm
      · left; rfl
    generalize Shutter.stopStage t { s with pause := 0 } = s1 at *
    unfold body at hs
    rw [if_neg (by rw [(h1.set.calibrated hR).1]; simp), if_pos (h1.set.calibrated hR).2] at hs
    cases hk : knownStage F t s1 with
    | none => rw [hk] at hs; cases hs
    | some s2 =>
      rw [hk] at hs
      have hs := Option.some.inj hs
      subst hs
      have hoff2 : (Shutter.timeoutStage t s2).off = s2.off := by
        unfold Shutter.timeoutStage
        split <;> rfl
      have e2 : nMoves n s (Shutter.timeoutStage t s2) = nMoves n s s2 := by
        unfold nMoves
        rw [hoff2]
      rw [e2]
      refine Good.timeoutStage ?_
      rcases hcase with rfl | ⟨c1, c2⟩
      · have := h1.known hF hR rfl hk
        unfold seen at this
        have e3 : nMoves n { s with pause := 0 } s2 = nMoves n s s2 := rfl
        rw [e3] at this
        have e4 : (({ s with pause := 0 } : RS).newTarget = false ∨ ({ s with pause := 0 } : RS).dir = .stop) ↔
            (s.newTarget = false ∨ s.off = true) := by
          rw [h.offdir]
        rw [if_congr e4 rfl rfl] at this
        exact this
      · -- the motor is off and nothing is wanted
        have hk' : s2 = s1 := by
          unfold knownStage at hk
          rw [if_neg (by rw [c2]; simp), if_neg (by rw [c1]; simp)] at hk
          exact (Option.some.inj hk).symm
        rw [hk']
        have hn : nMoves n s s1 = n := by
          unfold nMoves
          rw [(h1.stop c2).1]
          simp
        rw [hn]
        exact h1.anyv c2 _ _

/-- A command is a new one, or changes nothing. -/
theorem other_target {F : Fp} {t : Nat} {o : Op} {s s' : RS} (ho : o ≠ .pass) (h : step F s (t, o) = some s') :
    s'.newTarget = true ∨ (s'.newTarget = s.newTarget ∧ s'.target = s.target) := by
  have hT : ∀ (c d : Nat) (q : RS), (setTimes c d q).newTarget = q.newTarget ∧ (setTimes c d q).target = q.target := by
    intro c d q
    unfold setTimes
    split <;> exact ⟨rfl, rfl⟩
  have hO : ∀ (n : Int) (q : RS), (orStop n q).newTarget = true := by
    intro n q
    unfold orStop
    split <;> rfl
  have hB : ∀ q : RS, (stepByStep q).newTarget = true := by
    intro q
    unfold stepByStep
    repeat' split
    all_goals rfl
  cases o with
  | pass => exact absurd rfl ho
  | server d k =>
    have h := Option.some.inj h
    subst h
    unfold server
    dsimp only
    have := hT (d % 65536 * 100) (d / 65536 % 65536 * 100) s
    generalize setTimes (d % 65536 * 100) (d / 65536 % 65536 * 100) s = q at *
    split
    · exact .inl rfl
    split
    · exact .inl rfl
    split
    · exact .inl rfl
    split
    · exact .inl (hO _ _)
    split
    · exact .inl (hO _ _)
    split
    · exact .inl (hB _)
    split
    · exact .inl rfl
    · exact .inr this
  | action a =>
    have h := Option.some.inj h
    subst h
    left
    cases a <;> first | rfl | exact hO _ _ | exact hB _
  | target n => have h := Option.some.inj h; subst h; exact .inl rfl
  | times c o => have h := Option.some.inj h; subst h; exact .inr (hT _ _ _)
  | config c =>
    have h := Option.some.inj h
    subst h
    unfold applyConfig
    dsimp only
    have hq : (if c.opening ≥ 0 ∧ c.closing ≥ 0 then setTimes c.closing.toNat c.opening.toNat s else s).newTarget = s.newTarget ∧
        (if c.opening ≥ 0 ∧ c.closing ≥ 0 then setTimes c.closing.toNat c.opening.toNat s else s).target = s.target := by
      split
      · exact hT _ _ _
      · exact ⟨rfl, rfl⟩
    generalize (if c.opening ≥ 0 ∧ c.closing ≥ 0 then setTimes c.closing.toNat c.opening.toNat s else s) = q at *
    by_cases hm : q.inMove = true
    · rw [if_pos hm]; exact .inr hq
    · rw [if_neg hm]; exact .inl rfl
  | recalibrate => have h := Option.some.inj h; subst h; exact .inl rfl
  | calibrationNeeded => have h := Option.some.inj h; subst h; exact .inr ⟨rfl, rfl⟩
  | position n => have h := Option.some.inj h; subst h; exact .inr ⟨rfl, rfl⟩
  | notCalibrated => have h := Option.some.inj h; subst h; exact .inr ⟨rfl, rfl⟩
  | motorValue v => have h := Option.some.inj h; subst h; right; split <;> exact ⟨rfl, rfl⟩
  | marginValue v => have h := Option.some.inj h; subst h; right; split <;> exact ⟨rfl, rfl⟩
  | _ => have h := Option.some.inj h; subst h; exact .inr ⟨rfl, rfl⟩

theorem Good.other {F : Fp} {R : Rig} {n v t : Nat} {o : Op} {s s' : RS} {x : Rat} (h : Good R n v t s x) (ho : o ≠ .pass)
    (hs : step F s (t, o) = some s') (e2 : s'.pos = s.pos) (e8 : s'.opening = s.opening)
    (e9 : s'.closing = s.closing) (e10 : s'.calibrate = s.calibrate) (e11 : s'.motor = s.motor) :
    Good R n v t s' x ∧ s'.off = s.off := by
  obtain ⟨f1, f2, f3, _, f5⟩ := other_frame ho hs
  have hio := other_io ho hs
  have e5 : s'.upOn = s.upOn := congrArg Io.up hio
  have e6 : s'.downOn = s.downOn := congrArg Io.down hio
  refine ⟨h.congr f1 e2 f2 f3 e5 e6 (.inl f5) e8 e9 e10 e11 ?_, by unfold RS.off; rw [e5, e6]⟩
  rcases other_target ho hs with hn | ⟨hn, ht⟩
  · exact Aim.none fun e => (by rw [hn] at e; cases e)
  · exact ⟨by rw [hn, ht, f1, e2]; exact h.aim.stop, by rw [hn, ht, f1, e2]; exact h.aim.up, by rw [hn, ht, f1, e2]; exact h.aim.down⟩

/-- The invariant of a world. -/
def World.Ok (R : Rig) (w : World) : Prop := Good R w.moves w.fresh w.now w.s w.x

theorem good_count {R : Rig} {n v u : Nat} {s s' : RS} {x : Rat} (h : Good R (nMoves n s s') v u s' x) :
    Good R (count n s s' x) v u s' x := by
  unfold count
  by_cases he : atEnd s' x = true
  · rw [if_pos he]
    unfold atEnd at he
    rw [Bool.and_eq_true, Bool.or_eq_true, decide_eq_true_eq, decide_eq_true_eq] at he
    have hd := h.offdir.mp he.1
    have hx : (s'.pos : Rat) = x := by
      rcases he.2 with ⟨a, b⟩ | ⟨a, b⟩ <;> rw [a, b] <;> rfl
    refine ⟨h.set, h.aim, h.x0, h.x1, fun _ => ⟨he.1, ?_⟩, fun e => (by rw [hd] at e; cases e), fun e => (by rw [hd] at e; cases e)⟩
    rw [hx, sub_self, abs_zero]
    simp
  · rw [if_neg he]
    exact h

theorem Good.next {F : Fp} (hF : F.Close) {R : Rig} (hR : R.Real) {w : World} (h : w.Ok R) {e : Nat × Op} {s' : RS}
    (hs : step F w.s e = some s') (hf : R.Fair w e s') : (R.next w e s').Ok R := by
  obtain ⟨t, o⟩ := e
  obtain ⟨f1, f2, f3⟩ := hf
  have ha := Good.advance h f1 f2
  unfold World.Ok Rig.next
  dsimp only at *
  refine good_count ?_
  unfold freshAt
  by_cases ho : o = .pass
  · subst ho
    have := ha.pass hF hR hs
    have ei : ((t, Op.pass).2 = .pass ∧ (w.s.newTarget = false ∨ w.s.off = true)) ↔ (w.s.newTarget = false ∨ w.s.off = true) :=
      ⟨fun h => h.2, fun h => ⟨rfl, h⟩⟩
    rw [if_congr ei rfl rfl]
    exact this
  · obtain ⟨g1, g2, g3, g4, g5⟩ := f3 ho
    obtain ⟨k1, k2⟩ := ha.other ho hs g1 g2 g3 g4 g5
    rw [if_neg (fun h => ho h.1), nMoves_same _ k2]
    exact k1

theorem Good.run {F : Fp} (hF : F.Close) {R : Rig} (hR : R.Real) (h : List (Nat × Op)) : ∀ {w w' : World}, w.Ok R →
    R.FairRun F w h → R.run F w h = some w' → w'.Ok R := by
  induction h with
  | nil =>
    intro w w' hw _ hr
    have := Option.some.inj hr
    rw [← this]
    exact hw
  | cons e h ih =>
    intro w w' hw hf hr
    unfold Rig.run Rig.step at hr
    unfold Rig.FairRun at hf
    cases hs : step F w.s e with
    | none => rw [hs] at hr; cases hr
    | some s' =>
      rw [hs] at hr
      obtain ⟨hf1, hf2⟩ := hf s' hs
      exact ih (Good.next hF hR hw hs hf1) hf2 hr

theorem begin_ok {R : Rig} {b : Boot} (h : R.Fits b) : (Rig.begin b).Ok R := by
  obtain ⟨h1, h2, h3, h4, h5⟩ := h
  refine ⟨⟨h1, h2, rfl, h3, h4, h5⟩, Aim.none fun _ => (show stopPos < 0 by decide), show (0 : Rat) ≤ (b.pos : Rat) by exact_mod_cast h4,
    show (b.pos : Rat) ≤ 100 by exact_mod_cast h5, fun _ => ⟨rfl, ?_⟩,
    fun e => (by cases e), fun e => (by cases e)⟩
  show |((b.pos : Int) : Rat) - (b.pos : Rat)| ≤ _
  rw [sub_self, abs_zero]
  exact mul_nonneg (by positivity) R.unsure_pos.le

/-- **C114.** The position the device shows is where the shutter is, up to a bounded error for each movement since they last
agreed on an end position. -/
theorem shown_is_true_partial (F : Fp) (hF : F.Close) (R : Rig) (hR : R.Real) (b : Boot) (hb : R.Fits b) (h : List (Nat × Op))
    (hf : R.FairRun F (Rig.begin b) h) (w : World) (hr : R.run F (Rig.begin b) h = some w) :
    |(w.s.pos : Rat) - w.x| ≤ w.moves * R.unsure :=
  Good.err hR (Good.run hF hR h (begin_ok hb) hf hr)

/-- **C114.** When the motor is off and no command is waiting, a shutter that was sent to a position is there. -/
theorem sent_is_there_partial (F : Fp) (hF : F.Close) (R : Rig) (hR : R.Real) (b : Boot) (hb : R.Fits b) (h : List (Nat × Op))
    (hf : R.FairRun F (Rig.begin b) h) (w : World) (hr : R.run F (Rig.begin b) h = some w) (ho : w.s.off = true)
    (hn : w.s.newTarget = false) (ht : 0 ≤ w.s.target) :
    |(w.s.pos : Rat) - w.s.target| ≤ R.late ∧ |w.x - w.s.target| ≤ w.moves * R.unsure + R.late := by
  have hg := Good.run hF hR h (begin_ok hb) hf hr
  have h1 := Good.err hR hg
  have h2 := (Good.aim hg).stop hn ht ((Good.offdir hg).mp ho)
  refine ⟨h2, ?_⟩
  rw [abs_le] at *
  constructor <;> linarith [h1.1, h1.2, h2.1, h2.2]

end Verif.Shutter
