import Verif.Shutter.Stops
/-!
# C144: a command to move is carried out

The commands of the main loop and the timer passes of one shutter. The first part uses the model of C25 to C28, in which a
command and a timer pass do not overlap. The second part lets them overlap: the timer interrupts the main loop between the
two assignments of a command, or, with the timer on another core, a command arrives in the middle of a timer pass.
-/

namespace Verif.Shutter.Obey

/-! ## Specification -/

/-- The direction a command asks for when the shutter is at `p`: "up" is −3, "down" is −4, other numbers are positions,
0 being open and 100 closed. -/
def asked (n p : Int) : Dir :=
  if n = -3 then .up else if n = -4 then .down else if p < n then .down else if n < p then .up else .stop

/-- The timer passes at the times `ts`. -/
def passes (ts : List Nat) : List (Nat × Op) := ts.map fun t => (t, .pass)

/-- After the command `n` and the first `k` of the passes `ts`, for some `k`, the shutter moves in the direction `d`. -/
def Obeyed (F : Fp) (s : RS) (n : Int) (d : Dir) (ts : List Nat) : Prop :=
  ∃ k r, run F (setTarget n s) (passes (ts.take k)) = some r ∧ r.dir = d

/-- C144 in full: a calibrated shutter that is told to move does so, within 1 s and four timer periods. -/
def CommandsObeyed : Prop :=
  ∀ F b h s n d g u ts r, run F (boot b) h = some s → s.calibrated = true → (n = -3 ∨ n = -4 ∨ (0 ≤ n ∧ n ≤ 100)) →
    asked n s.pos = d → d ≠ .stop → g ≤ 2 ^ 30 → Every g u ts → u + 1000 + 4 * g ≤ lastTime u ts →
    run F (setTarget n s) (passes ts) = some r → Obeyed F s n d ts

/-- The travel time in the direction `d`. -/
def travel (s : RS) (d : Dir) : Nat := if d = .up then s.opening else s.closing

/-! ## Passes -/

/-- The pass at `t` falls into the pause after a stop (RS lines 136-141). -/
def pausing (s : RS) (t : Nat) : Prop := s.pause ≠ 0 ∧ since (clk t) s.pause < 500

instance (s : RS) (t : Nat) : Decidable (pausing s t) := inferInstanceAs (Decidable (_ ∧ _))

theorem pass_pausing {F : Fp} {s : RS} {t : Nat} (h : pausing s t) : pass F t s = some s := if_pos h

theorem not_calRequested {s : RS} (h : s.calibrate = false) : s.calRequested = false := by
  unfold RS.calRequested
  rw [h]
  rfl

theorem calibrated_calibrate {s : RS} (h : s.calibrated = true) : s.calibrate = false := by
  unfold RS.calibrated at h
  cases hc : s.calibrate with
  | false => rfl
  | true => rw [hc] at h; simp at h

/-- Waiting: there is a pass outside the pause, and those before it change nothing. -/
theorem wait_until {F : Fp} {s : RS} {g D : Nat} (hD : ∀ t, D ≤ t → t ≤ D + g → ¬ pausing s t) (ts : List Nat) :
    ∀ u, u < D → Every g u ts → D ≤ lastTime u ts →
      ∃ pre t post, ts = pre ++ t :: post ∧ u ≤ t ∧ t ≤ D + g ∧ ¬ pausing s t ∧ run F s (passes pre) = some s ∧
        Every g t post ∧ lastTime u ts = lastTime t post := by
  induction ts with
  | nil => intro u hu _ hl; exact absurd hl (by show ¬ D ≤ u; omega)
  | cons t ts ih =>
    intro u hu he hl
    obtain ⟨h1, h2, h3⟩ := he
    rw [lastTime_cons] at hl
    by_cases hp : pausing s t
    · have ht : t < D := Nat.lt_of_not_le fun hc => hD t hc (by omega) hp
      obtain ⟨pre, t', post, e, a1, a2, a3, a4, a5, a6⟩ := ih t ht h3 hl
      refine ⟨t :: pre, t', post, by rw [e]; rfl, by omega, a2, a3, ?_, a5, by rw [lastTime_cons]; exact a6⟩
      show ((pass F t s).bind fun s => run F s (passes pre)) = some s
      rw [pass_pausing hp]
      exact a4
    · exact ⟨[], t, ts, rfl, h1, by omega, hp, rfl, h3, lastTime_cons u t ts⟩

/-- Half a second and two timer periods are enough to wait. -/
theorem wait_short {F : Fp} {s : RS} {g u : Nat} (h32 : s.pause < 2 ^ 32) (hg : g ≤ 2 ^ 30) (ts : List Nat) (he : Every g u ts)
    (hl : u + 500 + g ≤ lastTime u ts) :
    ∃ pre t post, ts = pre ++ t :: post ∧ u ≤ t ∧ t ≤ u + 500 + 2 * g ∧ ¬ pausing s t ∧ run F s (passes pre) = some s ∧
      Every g t post ∧ lastTime u ts = lastTime t post := by
  cases ts with
  | nil => exact absurd hl (by show ¬ _ ≤ u; omega)
  | cons t0 ts =>
    by_cases hp : pausing s t0
    · obtain ⟨h1, h2, h3⟩ := he
      have hD : ∀ t, t0 + 500 ≤ t → t ≤ t0 + 500 + g → ¬ pausing s t := by
        intro t a b hc
        obtain ⟨p1, p2⟩ := hp
        obtain ⟨c1, c2⟩ := hc
        unfold since clk at *
        omega
      rw [lastTime_cons] at hl
      obtain ⟨pre, t', post, e, a1, a2, a3, a4, a5, a6⟩ := wait_until (F := F) hD ts t0 (by omega) h3 (by omega)
      refine ⟨t0 :: pre, t', post, by rw [e]; rfl, by omega, by omega, a3, ?_, a5, by rw [lastTime_cons]; exact a6⟩
      show ((pass F t0 s).bind fun s => run F s (passes pre)) = some s
      rw [pass_pausing hp]
      exact a4
    · exact ⟨[], t0, ts, rfl, he.1, by have := he.2.1; omega, hp, rfl, he.2.2, lastTime_cons u t0 ts⟩

theorem run_append {F : Fp} (a b : List (Nat × Op)) : ∀ s, run F s (a ++ b) = (run F s a).bind fun s => run F s b := by
  induction a with
  | nil => intro s; rfl
  | cons e a ih =>
    intro s
    show ((step F s e).bind fun s => run F s (a ++ b)) = ((step F s e).bind fun s => run F s a).bind _
    cases step F s e with
    | none => rfl
    | some q => exact ih q

theorem passes_append (a b : List Nat) : passes (a ++ b) = passes a ++ passes b := List.map_append ..

/-! ## The pass that takes the command -/

/-- The pass outside the pause, with a waiting command that is not "stop", in a calibrated shutter. -/
theorem pass_command {F : Fp} {s : RS} {t : Nat} (hc : s.calibrated = true) (hn : s.newTarget = true) (ht : s.target ≠ stopPos)
    (hp : ¬ pausing s t) :
    pass F t s = ((choose F s).map fun c => timeoutStage t (redirect t c.1 { s with pause := 0, timeout := c.2 })) := by
  have e0 : stopStage t { s with pause := 0 } = { s with pause := 0 } := if_neg ht
  have e1 : ({ s with pause := 0 } : RS).calRequested = false := not_calRequested (calibrated_calibrate (s := s) hc)
  have e2 : ({ s with pause := 0 } : RS).calibrated = true := hc
  have e3 : choose F { s with pause := 0 } = choose F s := rfl
  unfold pass
  rw [if_neg (show ¬ (s.pause ≠ 0 ∧ since (clk t) s.pause < 500) from hp), e0]
  unfold body
  rw [if_neg (by rw [e1]; decide), if_pos e2]
  unfold knownStage
  rw [if_neg (show ¬ (({ s with pause := 0 } : RS).newTarget = false ∧ _) from fun h => by have := h.1; rw [show ({ s with pause := 0 } : RS).newTarget = s.newTarget from rfl, hn] at this; cases this),
    if_pos (show ({ s with pause := 0 } : RS).newTarget = true ∧ _ from ⟨hn, ht⟩), e3]
  cases choose F s with
  | none => rfl
  | some c => rfl

/-- What the choice of direction gives. -/
theorem choose_asked {F : Fp} {s : RS} {c : Dir × Nat} (h : choose F s = some c) : c.1 = asked s.target s.pos ∧
    (s.target ≠ -3 → s.target ≠ -4 → c.2 = 0) ∧
    ((s.target = -3 ∨ s.target = -4) → ∃ m, marginValue F s.margin (travel s c.1) = some m ∧ c.2 = (travel s c.1 + m) % 2 ^ 32) := by
  unfold choose moveUpPos moveDownPos at h
  unfold asked
  split at h
  · rename_i e
    rw [if_pos e]
    cases hm : marginValue F s.margin s.opening with
    | none => rw [hm] at h; cases h
    | some m =>
      rw [hm] at h
      injection h with h
      subst h
      exact ⟨rfl, fun a => absurd e a, fun _ => ⟨m, hm, rfl⟩⟩
  · rename_i e
    rw [if_neg e]
    split at h
    · rename_i e'
      rw [if_pos e']
      cases hm : marginValue F s.margin s.closing with
      | none => rw [hm] at h; cases h
      | some m =>
        rw [hm] at h
        injection h with h
        subst h
        exact ⟨rfl, fun _ a => absurd e' a, fun _ => ⟨m, hm, rfl⟩⟩
    · rename_i e'
      rw [if_neg e']
      have hx : ¬ (s.target = -3 ∨ s.target = -4) := fun h => h.elim e e'
      split at h
      · rename_i e1
        injection h with h
        subst h
        exact ⟨(if_pos (show s.pos < s.target by omega)).symm, fun _ _ => rfl, fun h => absurd h hx⟩
      · rename_i e1
        rw [if_neg (show ¬ s.pos < s.target by omega)]
        split at h
        · rename_i e2
          injection h with h
          subst h
          exact ⟨(if_pos (show s.target < s.pos by omega)).symm, fun _ _ => rfl, fun h => absurd h hx⟩
        · rename_i e2
          injection h with h
          subst h
          exact ⟨(if_neg (show ¬ s.target < s.pos by omega)).symm, fun _ _ => rfl, fun h => absurd h hx⟩

theorem timeoutStage_dir (t : Nat) (s : RS) : (timeoutStage t s).dir = s.dir := by
  unfold timeoutStage
  split <;> rfl

/-- From a standstill a pass outside the pause starts the motor in the direction asked for. -/
theorem starts {F : Fp} {s r : RS} {t : Nat} (hc : s.calibrated = true) (hn : s.newTarget = true) (ht : s.target ≠ stopPos)
    (hp : ¬ pausing s t) (hs : s.dir = .stop) (hd : asked s.target s.pos ≠ .stop) (h : pass F t s = some r) :
    r.dir = asked s.target s.pos := by
  rw [pass_command hc hn ht hp] at h
  cases hch : choose F s with
  | none => rw [hch] at h; cases h
  | some c =>
    rw [hch] at h
    injection h with h
    rw [← h, timeoutStage_dir]
    have e := (choose_asked hch).1
    rw [← e] at hd ⊢
    unfold redirect
    rw [if_neg (show ¬ c.1 = ({ s with pause := 0, timeout := c.2 } : RS).dir from fun x => hd (x.trans hs)), if_pos (show ({ s with pause := 0, timeout := c.2 } : RS).dir = .stop from hs)]
    dsimp only
    cases hcd : c.1 with
    | stop => exact absurd hcd hd
    | down =>
      rw [if_pos rfl]
      obtain ⟨a, b, l, e⟩ := startClosing_eq t { s with pause := 0, timeout := c.2, newTarget := false, startPos := s.pos }
      rw [e]
    | up =>
      rw [if_neg (by decide)]
      obtain ⟨a, b, l, e⟩ := startOpening_eq t { s with pause := 0, timeout := c.2, newTarget := false, startPos := s.pos }
      rw [e]

/-- In a movement in the other direction a pass outside the pause stops the motor first; the command waits unless the
operation timeout it has just set is already over. -/
theorem reverses {F : Fp} {s r : RS} {t : Nat} (hc : s.calibrated = true) (hn : s.newTarget = true) (ht : s.target ≠ stopPos)
    (hp : ¬ pausing s t) (hs : s.dir ≠ .stop) (hd : asked s.target s.pos ≠ s.dir) (h : pass F t s = some r) :
    ∃ c, choose F s = some c ∧ r.dir = .stop ∧ r.pause = clk t ∧
      (¬ (c.2 ≠ 0 ∧ since (clk t) s.started > c.2) → r.calibrated = true ∧ r.newTarget = true ∧ r.target = s.target ∧ r.pos = s.pos) ∧
      (c.2 ≠ 0 ∧ since (clk t) s.started > c.2 → r.target = stopPos ∧ r.calibrate = false) := by
  rw [pass_command hc hn ht hp] at h
  cases hch : choose F s with
  | none => rw [hch] at h; cases h
  | some c =>
    rw [hch] at h
    injection h with h
    refine ⟨c, rfl, ?_⟩
    have e := (choose_asked hch).1
    have er : redirect t c.1 { s with pause := 0, timeout := c.2 } = stopMovement t { s with pause := 0, timeout := c.2 } := by
      unfold redirect
      rw [if_neg (show ¬ c.1 = ({ s with pause := 0, timeout := c.2 } : RS).dir from fun x => hd (e.symm.trans x)), if_neg (show ¬ ({ s with pause := 0, timeout := c.2 } : RS).dir = .stop from hs)]
    dsimp only at h
    rw [er] at h
    obtain ⟨l, es⟩ := stopMovement_eq t { s with pause := 0, timeout := c.2 }
    rw [es] at h
    dsimp only at h
    unfold timeoutStage at h
    dsimp only at h
    split at h
    · rename_i hx
      subst h
      exact ⟨rfl, rfl, fun x => absurd hx x, fun _ => ⟨rfl, calibrated_calibrate hc⟩⟩
    · rename_i hx
      subst h
      exact ⟨rfl, rfl, fun _ => ⟨hc, hn, rfl, rfl⟩, fun x => absurd x hx⟩

theorem toInt8_valid {n : Int} (h : n = -3 ∨ n = -4 ∨ (0 ≤ n ∧ n ≤ 100)) : toInt8 n = n := by
  unfold toInt8
  omega

/-- One command from any state. -/
theorem obeyed (F : Fp) (s : RS) (n : Int) (d : Dir) (g u : Nat) (ts : List Nat) (r : RS)
    (h32 : s.pause < 2 ^ 32) (hc : s.calibrated = true) (hv : n = -3 ∨ n = -4 ∨ (0 ≤ n ∧ n ≤ 100)) (hd : asked n s.pos = d) (hds : d ≠ .stop)
    (hg : g ≤ 2 ^ 30) (he : Every g u ts) (hl : u + 1000 + 4 * g ≤ lastTime u ts)
    (hr : run F (setTarget n s) (passes ts) = some r)
    (hlong : 0 ≤ n ∨ s.dir = .stop ∨ ∀ t m, u ≤ t → t ≤ u + 500 + 2 * g → marginValue F s.margin (travel s d) = some m →
      since (clk t) s.started ≤ (travel s d + m) % 2 ^ 32) :
    Obeyed F s n d ts := by
  by_cases hsame : s.dir = d
  · exact ⟨0, setTarget n s, rfl, hsame⟩
  have hq1 : (setTarget n s).target = n := toInt8_valid hv
  have hq2 : (setTarget n s).newTarget = true := rfl
  have hq3 : (setTarget n s).calibrated = true := hc
  have hq4 : (setTarget n s).pos = s.pos := rfl
  have hq5 : (setTarget n s).dir = s.dir := rfl
  have hq6 : (setTarget n s).started = s.started := rfl
  have hq7 : (setTarget n s).margin = s.margin := rfl
  have hq9 : (setTarget n s).pause < 2 ^ 32 := h32
  have hq8 : travel (setTarget n s) d = travel s d := rfl
  unfold Obeyed
  generalize setTarget n s = q at *
  have hstop : q.target ≠ stopPos := by rw [hq1]; unfold stopPos; omega
  have hne : 0 ≤ n → q.target ≠ -3 ∧ q.target ≠ -4 := by rw [hq1]; omega
  have hmv : ¬ 0 ≤ n → q.target = -3 ∨ q.target = -4 := by rw [hq1]; omega
  have hask : asked q.target q.pos = d := by rw [hq1, hq4]; exact hd
  obtain ⟨pre, t, post, e, a1, a2, a3, a4, a5, a6⟩ := wait_short (F := F) (s := q) hq9 hg ts he (by omega)
  have hrun : run F q (passes (pre ++ t :: post)) = (pass F t q).bind fun s => run F s (passes post) := by
    rw [passes_append, run_append, a4]
    rfl
  have htake : ts.take (pre.length + 1) = pre ++ [t] := by
    rw [e, List.append_cons]
    exact List.take_left' (by simp)
  have hfirst : run F q (passes (pre ++ [t])) = pass F t q := by
    rw [passes_append, run_append, a4]
    show (pass F t q).bind some = _
    cases pass F t q <;> rfl
  rw [e, hrun] at hr
  cases hp : pass F t q with
  | none => rw [hp] at hr; cases hr
  | some r1 =>
    rw [hp] at hr
    by_cases hst : q.dir = .stop
    · refine ⟨pre.length + 1, r1, by rw [htake, hfirst, hp], ?_⟩
      rw [starts hq3 hq2 hstop a3 hst (by rw [hask]; exact hds) hp, hask]
    · obtain ⟨c, hch, b1, b0, b2, -⟩ := reverses hq3 hq2 hstop a3 hst (by rw [hask, hq5]; exact fun x => hsame x.symm) hp
      have hin : ¬ (c.2 ≠ 0 ∧ since (clk t) q.started > c.2) := by
        obtain ⟨c1, c2, c3⟩ := choose_asked hch
        rw [hask] at c1
        rcases hlong with hl0 | hl0 | hl0
        · intro hx
          exact hx.1 (c2 (hne hl0).1 (hne hl0).2)
        · exact absurd (hq5.trans hl0) hst
        · intro hx
          by_cases hpn : 0 ≤ n
          · exact hx.1 (c2 (hne hpn).1 (hne hpn).2)
          · obtain ⟨m, m1, m2⟩ := c3 (hmv hpn)
            rw [c1, hq8, hq7] at m1
            rw [c1, hq8] at m2
            have := hl0 t m a1 a2 m1
            rw [hq6, m2] at hx
            omega
      obtain ⟨d1, d2, d3, d4⟩ := b2 hin
      obtain ⟨pre', t', post', e', x1, x2, x3, x4, -, -⟩ := wait_short (F := F) (s := r1) (by rw [b0]; unfold clk; omega) hg post a5 (by omega)
      have hr' : run F r1 (passes (pre' ++ t' :: post')) = (pass F t' r1).bind fun s => run F s (passes post') := by
        rw [passes_append, run_append, x4]
        rfl
      have hr2 : run F r1 (passes post) = some r := hr
      rw [e', hr'] at hr2
      cases hp2 : pass F t' r1 with
      | none => rw [hp2] at hr2; cases hr2
      | some r2 =>
        refine ⟨pre.length + 1 + (pre'.length + 1), r2, ?_, ?_⟩
        · have : ts.take (pre.length + 1 + (pre'.length + 1)) = (pre ++ [t]) ++ (pre' ++ [t']) := by
            rw [e, e', List.append_cons pre, List.append_cons pre', ← List.append_assoc (pre ++ [t])]
            exact List.take_left' (by rw [List.length_append, List.length_append, List.length_append]; rfl)
          rw [this, passes_append, run_append, hfirst, hp]
          show run F r1 (passes (pre' ++ [t'])) = _
          rw [passes_append, run_append, x4]
          show (pass F t' r1).bind some = _
          rw [hp2]
          rfl
        · rw [starts d1 d2 (by rw [d3]; exact hstop) x3 b1 (by rw [d3, d4, hask]; exact hds) hp2, d3, d4, hask]

theorem run_pause {F : Fp} (h : List (Nat × Op)) : ∀ {s s' : RS}, run F s h = some s' → s.pause < 2 ^ 32 → s'.pause < 2 ^ 32 := by
  induction h with
  | nil => intro s s' hr hs; injection hr with hr; subst hr; exact hs
  | cons e h ih =>
    intro s s' hr hs
    unfold run at hr
    cases he : step F s e with
    | none => rw [he] at hr; cases hr
    | some q =>
      rw [he] at hr
      refine ih hr ?_
      obtain ⟨t, o⟩ := e
      by_cases ho : o = .pass
      · subst ho
        rcases pass_act (show pass F t s = some q from he) with ⟨_, _, rfl⟩ | ⟨_, ha⟩
        · exact hs
        · show q.io.pause < 2 ^ 32
          generalize q.io = i at ha
          cases ha with
          | keep => show 0 < 2 ^ 32; decide
          | stop => show clk t < 2 ^ 32; unfold clk; omega
          | «open» => show 0 < 2 ^ 32; decide
          | close => show 0 < 2 ^ 32; decide
      · have hx : q.pause = s.pause := congrArg Io.pause (other_io ho he)
        rw [hx]
        exact hs

/-- **C144 (partial).** A calibrated shutter, in any state, that is told to move to a position, or up or down, does so within
1 s and four timer periods; for a reversal by "up" or "down" provided that the movement under way has not lasted longer than
the travel time in the new direction and its margin. Missing: exactly that case, see `reversal_lost`. -/
theorem command_obeyed_partial (F : Fp) (b : Boot) (h : List (Nat × Op)) (s : RS) (n : Int) (d : Dir) (g u : Nat) (ts : List Nat)
    (r : RS) (hb : run F (boot b) h = some s) (hc : s.calibrated = true) (hv : n = -3 ∨ n = -4 ∨ (0 ≤ n ∧ n ≤ 100))
    (hd : asked n s.pos = d) (hds : d ≠ .stop) (hg : g ≤ 2 ^ 30) (he : Every g u ts) (hl : u + 1000 + 4 * g ≤ lastTime u ts)
    (hr : run F (setTarget n s) (passes ts) = some r)
    (hlong : 0 ≤ n ∨ s.dir = .stop ∨ ∀ t m, u ≤ t → t ≤ u + 500 + 2 * g → marginValue F s.margin (travel s d) = some m →
      since (clk t) s.started ≤ (travel s d + m) % 2 ^ 32) :
    Obeyed F s n d ts :=
  obeyed F s n d g u ts r (run_pause h hb (show 0 < 2 ^ 32 by decide)) hc hv hd hds hg he hl hr hlong

/-- The ideal arithmetic, for the examples. -/
def exactFp : Fp := ⟨.exact, .exact⟩

/-- A shutter that closes in 15 s and opens in 10 s, told to go down when open; `h` ms later. -/
def example1 (h : Nat) : Option RS :=
  run exactFp (boot { t := 1, closing := 15000, opening := 10000, pos := 0 }) [(5, .action .moveDown), (10, .pass), (10 + h, .pass)]

/-- Told to go up 5 s later, it is going up within the second. -/
example : ((example1 5000).map fun s => (s.calibrated, s.dir, asked (-3) s.pos)) = some (true, .down, .up) ∧
    ((example1 5000).bind fun s => (run exactFp (setTarget (-3) s) (passes [5100, 5300, 5500, 5700])).map RS.dir) = some .up := by
  decide +kernel

/-! ## The command that is lost -/

/-- No command waits, and no calibration is asked for. -/
def Done (s : RS) : Prop := s.calibrate = false ∧ (s.newTarget = false ∨ s.target = stopPos)

theorem timeoutStage_done {t : Nat} {s : RS} (h : Done s) : Done (timeoutStage t s) := by
  unfold timeoutStage
  split
  · exact ⟨h.1, .inr rfl⟩
  · exact h

theorem known_done {F : Fp} {t : Nat} {s r : RS} (hc : s.calibrate = false) (hn : s.newTarget = false)
    (h : knownStage F t s = some r) : Done r ∧ (r.dir = s.dir ∨ r.dir = .stop) := by
  unfold knownStage at h
  split at h
  · split at h
    · obtain ⟨p, -, h | ⟨-, -, m, -, h⟩ | ⟨-, -, -, h⟩⟩ := moveUpStage_cases h
      · rw [h.2]; exact ⟨⟨rfl, .inl hn⟩, .inl rfl⟩
      · rw [h]; exact ⟨⟨rfl, .inl hn⟩, .inl rfl⟩
      · obtain ⟨l, e⟩ := stopMovement_eq t (setPosition p s)
        rw [h, e]; exact ⟨⟨rfl, .inl hn⟩, .inr rfl⟩
    · split at h
      · obtain ⟨p, -, h | ⟨-, -, m, -, h⟩ | ⟨-, -, -, h⟩⟩ := moveDownStage_cases h
        · rw [h.2]; exact ⟨⟨rfl, .inl hn⟩, .inl rfl⟩
        · rw [h]; exact ⟨⟨rfl, .inl hn⟩, .inl rfl⟩
        · obtain ⟨l, e⟩ := stopMovement_eq t (setPosition p s)
          rw [h, e]; exact ⟨⟨rfl, .inl hn⟩, .inr rfl⟩
      · injection h with h
        rw [← h]; exact ⟨⟨hc, .inl hn⟩, .inl rfl⟩
  · rw [if_neg (by rw [hn]; exact fun x => absurd x.1 (by decide))] at h
    injection h with h
    rw [← h]; exact ⟨⟨hc, .inl hn⟩, .inl rfl⟩

theorem body_done {F : Fp} {t : Nat} {q r : RS} (q1 : q.calibrate = false) (q2 : q.newTarget = false) (hb : body F t q = some r) :
    Done r ∧ (r.dir = q.dir ∨ r.dir = .stop) := by
  unfold body at hb
  rw [if_neg (by rw [not_calRequested q1]; decide)] at hb
  split at hb
  · exact known_done q1 q2 hb
  · injection hb with hb
    unfold unknownStage at hb
    rw [if_neg (by rw [q2]; decide)] at hb
    rw [← hb]
    exact ⟨⟨q1, .inl q2⟩, .inl rfl⟩

/-- When no command waits, a pass never starts the motor nor changes its direction. -/
theorem pass_done {F : Fp} {t : Nat} {s r : RS} (hd : Done s) (h : pass F t s = some r) :
    Done r ∧ (r.dir = s.dir ∨ r.dir = .stop) := by
  unfold pass at h
  split at h
  · injection h with h
    rw [← h]
    exact ⟨hd, .inl rfl⟩
  · have hq : (stopStage t { s with pause := 0 }).calibrate = false ∧ (stopStage t { s with pause := 0 }).newTarget = false ∧
        ((stopStage t { s with pause := 0 }).dir = s.dir ∨ (stopStage t { s with pause := 0 }).dir = .stop) := by
      unfold stopStage
      split
      · split
        · obtain ⟨l, e⟩ := stopMovement_eq t { s with pause := 0 }
          rw [e]
          exact ⟨hd.1, rfl, .inr rfl⟩
        · exact ⟨hd.1, rfl, .inl rfl⟩
      · rename_i hx
        exact ⟨hd.1, hd.2.resolve_right hx, .inl rfl⟩
    generalize stopStage t { s with pause := 0 } = q at *
    obtain ⟨q1, q2, q3⟩ := hq
    cases hb : body F t q with
    | none => rw [hb] at h; cases h
    | some r1 =>
      rw [hb] at h
      injection h with h
      have hr1 : Done r1 ∧ (r1.dir = q.dir ∨ r1.dir = .stop) := body_done q1 q2 hb
      rw [← h, timeoutStage_dir]
      refine ⟨timeoutStage_done hr1.1, ?_⟩
      rcases hr1.2 with x | x
      · rcases q3 with y | y
        · exact .inl (x.trans y)
        · exact .inr (x.trans y)
      · exact .inr x

/-- When no command waits, the direction stays as it is until the motor stops, under every schedule of passes. -/
theorem run_done {F : Fp} (ts : List Nat) : ∀ {s r : RS}, Done s → run F s (passes ts) = some r →
    Done r ∧ (r.dir = s.dir ∨ r.dir = .stop) := by
  induction ts with
  | nil => intro s r hs h; injection h with h; rw [← h]; exact ⟨hs, .inl rfl⟩
  | cons t ts ih =>
    intro s r hs h
    have h' : ((pass F t s).bind fun s => run F s (passes ts)) = some r := h
    cases hp : pass F t s with
    | none => rw [hp] at h'; cases h'
    | some q =>
      rw [hp] at h'
      obtain ⟨a, b⟩ := pass_done hs hp
      obtain ⟨c, e⟩ := ih a h'
      refine ⟨c, ?_⟩
      rcases e with e | e
      · rcases b with b | b
        · exact .inl (e.trans b)
        · exact .inr (e.trans b)
      · exact .inr e

/-- **C144, refuted.** The command "up" (or "down") given to a calibrated shutter that has been moving the other way for longer
than the travel time in the new direction and its margin is lost, always: the next pass stops the motor, and under every
schedule of further passes it never moves. -/
theorem reversal_lost (F : Fp) (s : RS) (n : Int) (m t : Nat) (ts : List Nat) (r : RS) (hc : s.calibrated = true)
    (hn : n = -3 ∨ n = -4) (hs : s.dir ≠ .stop) (hd : asked n s.pos ≠ s.dir)
    (hm : marginValue F s.margin (travel s (asked n s.pos)) = some m) (h0 : (travel s (asked n s.pos) + m) % 2 ^ 32 ≠ 0)
    (hlong : since (clk t) s.started > (travel s (asked n s.pos) + m) % 2 ^ 32) (hp : ¬ pausing s t)
    (hr : run F (setTarget n s) (passes (t :: ts)) = some r) : r.dir = .stop := by
  have hq1 : (setTarget n s).target = n := toInt8_valid (by omega)
  have hq2 : (setTarget n s).newTarget = true := rfl
  have hq3 : (setTarget n s).calibrated = true := hc
  have hq4 : (setTarget n s).pos = s.pos := rfl
  have hq5 : (setTarget n s).dir = s.dir := rfl
  have hq6 : (setTarget n s).started = s.started := rfl
  have hq7 : (setTarget n s).margin = s.margin := rfl
  have hq8 : travel (setTarget n s) = travel s := rfl
  have hq9 : ¬ pausing (setTarget n s) t := hp
  generalize setTarget n s = q at *
  have hr' : ((pass F t q).bind fun s => run F s (passes ts)) = some r := hr
  have hask : asked q.target q.pos = asked n s.pos := by rw [hq1, hq4]
  cases hp' : pass F t q with
  | none => rw [hp'] at hr'; cases hr'
  | some r1 =>
    rw [hp'] at hr'
    obtain ⟨c, hch, b1, -, -, b3⟩ := reverses hq3 hq2 (by rw [hq1]; unfold stopPos; omega) hq9 (by rw [hq5]; exact hs)
      (by rw [hask, hq5]; exact hd) hp'
    obtain ⟨c1, -, c3⟩ := choose_asked hch
    obtain ⟨m', m1, m2⟩ := c3 (by rw [hq1]; exact hn)
    rw [c1, hask, hq8, hq7, hm] at m1
    injection m1 with m1
    rw [c1, hask, hq8, ← m1] at m2
    obtain ⟨d1, d2⟩ := b3 (by rw [hq6, m2]; exact ⟨h0, hlong⟩)
    rcases (run_done ts ⟨d2, .inr d1⟩ hr').2 with e | e
    · exact e.trans b1
    · exact e

/-- **C144, refuted.** A shutter that closes in 15 s and opens in 10 s is told to go up after closing for 14 s: it stops and
stays. -/
theorem commands_obeyed_violation : ¬ CommandsObeyed := by
  intro h
  cases hs : example1 14000 with
  | none => exact absurd hs (by decide +kernel)
  | some s =>
    have hf : (s.calibrated, s.dir, s.started, s.margin, s.opening, s.pause) = (true, Dir.down, 10, -1, 10000, 0) := by
      have : (example1 14000).map (fun s => (s.calibrated, s.dir, s.started, s.margin, s.opening, s.pause)) =
        some (true, Dir.down, 10, -1, 10000, 0) := by decide +kernel
      rw [hs] at this
      exact Option.some.inj this
    simp only [Prod.mk.injEq] at hf
    obtain ⟨f1, f2, f3, f4, f5, f6⟩ := hf
    have ha : asked (-3) s.pos = .up := if_pos rfl
    cases hr : run exactFp (setTarget (-3) s) (passes [14020, 15000, 16000, 17000, 18000, 19000, 20000]) with
    | none =>
      have : (example1 14000).bind (fun s => run exactFp (setTarget (-3) s) (passes [14020, 15000, 16000, 17000, 18000, 19000, 20000])) ≠ none := by
        decide +kernel
      rw [hs] at this
      exact absurd hr this
    | some r =>
      obtain ⟨k, r', h1, h2⟩ := h exactFp _ _ s (-3) .up 1000 14010 [14020, 15000, 16000, 17000, 18000, 19000, 20000] r hs f1 (.inl rfl) ha
        (by decide) (by decide) (by decide) (by decide) hr
      cases k with
      | zero =>
        have e : setTarget (-3) s = r' := Option.some.inj h1
        rw [← e] at h2
        have e2 : (setTarget (-3) s).dir = s.dir := rfl
        rw [e2, f2] at h2
        cases h2
      | succ k =>
        have := reversal_lost exactFp s (-3) 3000 14020 _ r' f1 (.inl rfl) (by rw [f2]; decide) (by rw [ha, f2]; decide)
          (by rw [ha]; show marginValue exactFp s.margin s.opening = _; rw [f4, f5]; decide +kernel)
          (by rw [ha]; show (s.opening + 3000) % 2 ^ 32 ≠ 0; rw [f5]; decide)
          (by rw [ha]; show since (clk 14020) s.started > (s.opening + 3000) % 2 ^ 32; rw [f5, f3]; decide)
          (fun x => x.1 f6) h1
        rw [this] at h2
        cases h2

/-! ## Commands and timer passes that overlap -/

/-- The first assignment of a command (RSI line 378). -/
def half (n : Int) (s : RS) : RS := { s with target := toInt8 n }

/-- The rest of a command (RSI lines 379-391), which reads the target again. -/
def rest (s : RS) : RS :=
  { s with newTarget := true, lastDir := if s.target = moveUpPos then Dir.up
    else if s.target = moveDownPos then .down
    else if s.target ≥ 0 then (if s.target < s.pos then .up else if s.target > s.pos then .down else s.lastDir)
    else s.lastDir }

/-- The two parts are the command. -/
theorem half_rest (n : Int) (s : RS) : rest (half n s) = setTarget n s := rfl

/-- A timer pass of a calibrated shutter outside the pause, taking a waiting command, with another command `n` arriving from
another core after the direction has been chosen and before the flag is cleared (RS lines 264-306 and 345-350, with RSI
lines 377-392 executed at line 291). On the ESP32 the timer runs in the task of the timer service (`timer.cpp` line 56,
`Ticker`), which is on core 0, and the main loop on core 1. -/
def passMid (F : Fp) (t : Nat) (n : Option Int) (s : RS) : Option RS :=
  (choose F s).map fun c => timeoutStage t (redirect t c.1 (n.elim id setTarget { s with pause := 0, timeout := c.2 }))

/-- Without the other command it is the pass. -/
theorem passMid_none {F : Fp} {s : RS} {t : Nat} (hc : s.calibrated = true) (hn : s.newTarget = true) (ht : s.target ≠ stopPos)
    (hp : ¬ pausing s t) : passMid F t none s = pass F t s := (pass_command hc hn ht hp).symm

/-- Steps with overlaps. -/
inductive Ov
  | op (o : Op)
  | half (n : Int)
  | rest
  | mid (n : Option Int)

/-- One step at the time `t`. -/
def ovStep (F : Fp) (s : RS) : Nat × Ov → Option RS
  | (t, .op o) => step F s (t, o)
  | (_, .half n) => some (half n s)
  | (_, .rest) => some (rest s)
  | (t, .mid n) => if s.calibrated = true ∧ s.newTarget = true ∧ s.target ≠ stopPos ∧ ¬ pausing s t then passMid F t n s else pass F t s

/-- A history of steps. -/
def ovRun (F : Fp) : RS → List (Nat × Ov) → Option RS
  | s, [] => some s
  | s, e :: h => (ovStep F s e).bind fun s => ovRun F s h

theorem ovStep_safe {F : Fp} {e : Nat × Ov} {s r : RS} (h : ovStep F s e = some r) (hs : Safe s.io) : Safe r.io := by
  obtain ⟨t, o⟩ := e
  cases o with
  | op o => exact step_safe (show step F s (t, o) = some r from h) hs
  | half n => have e : half n s = r := Option.some.inj h; rw [← e]; exact hs
  | rest => have e : rest s = r := Option.some.inj h; rw [← e]; exact hs
  | mid n =>
    have h' : (if s.calibrated = true ∧ s.newTarget = true ∧ s.target ≠ stopPos ∧ ¬ pausing s t then passMid F t n s else pass F t s) = some r := h
    split at h'
    · unfold passMid at h'
      cases hch : choose F s with
      | none => rw [hch] at h'; cases h'
      | some c =>
        rw [hch] at h'
        have e := Option.some.inj h'
        rw [← e]
        dsimp only
        rw [timeoutStage_io]
        have hq : Safe (n.elim id setTarget { s with pause := 0, timeout := c.2 } : RS).io := by
          cases n with
          | none => exact hs
          | some n => exact hs
        exact act_safe (redirect_act t c.1 _) hq
    · exact step_safe (show step F s (t, .pass) = some r from h') hs

/-- The two motor outputs are never on together, with commands and timer passes overlapping in any way. -/
theorem overlapping_interlocked (F : Fp) (b : Boot) (h : List (Nat × Ov)) : ∀ s, ovRun F (boot b) h = some s →
    Interlock s.log ∧ ¬ (s.upOn = true ∧ s.downOn = true) := by
  have key : ∀ (h : List (Nat × Ov)) (q s : RS), Safe q.io → ovRun F q h = some s → Safe s.io := by
    intro h
    induction h with
    | nil => intro q s hq hr; have e : q = s := Option.some.inj hr; rw [← e]; exact hq
    | cons e h ih =>
      intro q s hq hr
      have hr' : ((ovStep F q e).bind fun s => ovRun F s h) = some s := hr
      cases he : ovStep F q e with
      | none => rw [he] at hr'; cases hr'
      | some q' => rw [he] at hr'; exact ih q' s (ovStep_safe he hq) hr'
  intro s hr
  exact key h _ s ⟨by intro x hx; simp [boot, RS.io] at hx; subst hx; simp, by simp [boot, RS.io]⟩ hr

/-- A history in which everything overlaps. -/
example : ((ovRun exactFp (boot { t := 1, closing := 10000, opening := 10000, pos := 50 })
    [(5, .half (-4)), (10, .op .pass), (11, .rest), (20, .mid (some (-3))), (30, .op .pass), (40, .op (.target (-3))), (50, .op .pass),
     (60, .mid (some 70)), (700, .mid (some 20)), (800, .op .pass)]).map (fun s => (s.upOn, s.downOn, s.target))) = some (true, false, 20) := by
  decide +kernel

/-- A command from the other core that arrives while the timer takes an earlier one is lost, always: the flag is cleared, the
shutter moves the way of the earlier command and under every schedule of passes never turns round. -/
theorem mid_lost (F : Fp) (s : RS) (n : Int) (t : Nat) (ts : List Nat) (q r : RS) (hc : s.calibrated = true)
    (hs : s.dir = .stop) (hd : asked s.target s.pos ≠ .stop)
    (h : passMid F t (some n) s = some q) (hr : run F q (passes ts) = some r) :
    q.dir = asked s.target s.pos ∧ (r.dir = asked s.target s.pos ∨ r.dir = .stop) := by
  unfold passMid at h
  cases hch : choose F s with
  | none => rw [hch] at h; cases h
  | some c =>
    rw [hch] at h
    have e := Option.some.inj h
    dsimp only [Option.elim] at e
    have ec := (choose_asked hch).1
    rw [← ec] at hd ⊢
    have hx1 : (setTarget n { s with pause := 0, timeout := c.2 }).dir = .stop := hs
    have hx2 : (setTarget n { s with pause := 0, timeout := c.2 }).calibrate = false := calibrated_calibrate hc
    generalize setTarget n { s with pause := 0, timeout := c.2 } = x at *
    have hz : (redirect t c.1 x).dir = c.1 ∧ Done (redirect t c.1 x) := by
      unfold redirect
      rw [if_neg (show ¬ c.1 = x.dir from fun y => hd (y.trans hx1)), if_pos hx1]
      dsimp only
      cases hcd : c.1 with
      | stop => exact absurd hcd hd
      | down =>
        rw [if_pos rfl]
        obtain ⟨a, b, l, e⟩ := startClosing_eq t { x with newTarget := false, startPos := x.pos }
        rw [e]
        exact ⟨rfl, hx2, .inl rfl⟩
      | up =>
        rw [if_neg (by decide)]
        obtain ⟨a, b, l, e⟩ := startOpening_eq t { x with newTarget := false, startPos := x.pos }
        rw [e]
        exact ⟨rfl, hx2, .inl rfl⟩
    have hq : q.dir = c.1 := by rw [← e, timeoutStage_dir]; exact hz.1
    have hdn : Done q := by rw [← e]; exact timeoutStage_done hz.2
    refine ⟨hq, ?_⟩
    rcases (run_done ts hdn hr).2 with y | y
    · exact .inl (y.trans hq)
    · exact .inr y

/-- A shutter told "up" and, during the pass that takes this, "down": it goes up to the end and rests there, told "down". -/
example : ((run exactFp (boot { t := 1, closing := 10000, opening := 10000, pos := 50 }) [(5, .action .moveUp)]).bind fun s =>
    (passMid exactFp 10 (some (-4)) s).bind fun s => (run exactFp s (passes [3000, 6000, 14000, 14010])).map fun s => (s.dir, s.pos, s.newTarget)) =
    some (.stop, 0, false) := by decide +kernel

/-- The timer interrupts a command between its two assignments: a pass changes the target only to "stop". -/
theorem pass_target {F : Fp} {t : Nat} {s r : RS} (hc : s.calibrate = false) (h : pass F t s = some r) :
    (r.target = s.target ∨ r.target = stopPos) ∧ r.calibrate = false := by
  have hre : ∀ d (x : RS), (redirect t d x).target = x.target ∧ (redirect t d x).calibrate = x.calibrate := by
    intro d x
    unfold redirect
    split
    · exact ⟨rfl, rfl⟩
    · split
      · dsimp only
        split
        · obtain ⟨a, b, l, e⟩ := startClosing_eq t { x with newTarget := false, startPos := x.pos }
          rw [e]
          exact ⟨rfl, rfl⟩
        · obtain ⟨a, b, l, e⟩ := startOpening_eq t { x with newTarget := false, startPos := x.pos }
          rw [e]
          exact ⟨rfl, rfl⟩
      · obtain ⟨l, e⟩ := stopMovement_eq t x
        rw [e]
        exact ⟨rfl, rfl⟩
  unfold pass at h
  split at h
  · injection h with h
    rw [← h]
    exact ⟨.inl rfl, hc⟩
  · have hq : (stopStage t { s with pause := 0 }).calibrate = false ∧ (stopStage t { s with pause := 0 }).target = s.target := by
      unfold stopStage
      split
      · split
        · obtain ⟨l, e⟩ := stopMovement_eq t { s with pause := 0 }
          rw [e]
          exact ⟨hc, rfl⟩
        · exact ⟨hc, rfl⟩
      · exact ⟨hc, rfl⟩
    generalize stopStage t { s with pause := 0 } = q at *
    obtain ⟨q1, q2⟩ := hq
    cases hb : body F t q with
    | none => rw [hb] at h; cases h
    | some r1 =>
      rw [hb] at h
      injection h with h
      have hr1 : r1.target = q.target ∧ r1.calibrate = false := by
        unfold body at hb
        rw [if_neg (by rw [not_calRequested q1]; decide)] at hb
        split at hb
        · unfold knownStage at hb
          split at hb
          · split at hb
            · obtain ⟨p, -, h | ⟨-, -, m, -, h⟩ | ⟨-, -, -, h⟩⟩ := moveUpStage_cases hb
              · rw [h.2]; exact ⟨rfl, rfl⟩
              · rw [h]; exact ⟨rfl, rfl⟩
              · obtain ⟨l, e⟩ := stopMovement_eq t (setPosition p q)
                rw [h, e]; exact ⟨rfl, rfl⟩
            · split at hb
              · obtain ⟨p, -, h | ⟨-, -, m, -, h⟩ | ⟨-, -, -, h⟩⟩ := moveDownStage_cases hb
                · rw [h.2]; exact ⟨rfl, rfl⟩
                · rw [h]; exact ⟨rfl, rfl⟩
                · obtain ⟨l, e⟩ := stopMovement_eq t (setPosition p q)
                  rw [h, e]; exact ⟨rfl, rfl⟩
              · injection hb with hb
                rw [← hb]; exact ⟨rfl, q1⟩
          · split at hb
            · cases hch : choose F q with
              | none => rw [hch] at hb; cases hb
              | some c =>
                rw [hch] at hb
                have e := Option.some.inj hb
                rw [← e]
                exact ⟨(hre _ _).1, (hre _ _).2.trans q1⟩
            · injection hb with hb
              rw [← hb]; exact ⟨rfl, q1⟩
        · injection hb with hb
          unfold unknownStage at hb
          split at hb
          · dsimp only at hb
            split at hb
            · rw [← hb]; exact ⟨(hre _ _).1, (hre _ _).2.trans q1⟩
            · rw [← hb]; exact ⟨(hre _ _).1, (hre _ _).2.trans q1⟩
          · rw [← hb]; exact ⟨rfl, q1⟩
      rw [← h]
      unfold timeoutStage
      split
      · exact ⟨.inr rfl, hr1.2⟩
      · exact ⟨.inl (hr1.1.trans q2), hr1.2⟩

/-- **C144 (partial).** A command interrupted by the timer between its two assignments waits in full afterwards, unless the
operation timeout of the movement under way ended in that very pass. -/
theorem split_command_partial (F : Fp) (s : RS) (n : Int) (t : Nat) (r : RS) (hc : s.calibrate = false)
    (h : pass F t (half n s) = some r) (hx : r.target ≠ stopPos) :
    (rest r).target = toInt8 n ∧ (rest r).newTarget = true :=
  ⟨(pass_target (s := half n s) hc h).1.resolve_right hx, rfl⟩

/-- "Stop" is carried out by the first pass outside the pause. -/
theorem stop_obeyed (F : Fp) (s : RS) (t : Nat) (r : RS) (hc : s.calibrate = false) (ht : s.target = stopPos) (hp : ¬ pausing s t)
    (h : pass F t s = some r) : r.dir = .stop ∧ Done r := by
  unfold pass at h
  rw [if_neg (show ¬ (s.pause ≠ 0 ∧ since (clk t) s.pause < 500) from hp)] at h
  have hq : (stopStage t { s with pause := 0 }).calibrate = false ∧ (stopStage t { s with pause := 0 }).newTarget = false ∧
      (stopStage t { s with pause := 0 }).dir = .stop := by
    unfold stopStage
    rw [if_pos (show ({ s with pause := 0 } : RS).target = stopPos from ht)]
    split
    · obtain ⟨l, e⟩ := stopMovement_eq t { s with pause := 0 }
      rw [e]
      exact ⟨hc, rfl, rfl⟩
    · rename_i hm
      refine ⟨hc, rfl, ?_⟩
      have hm' : ¬ (s.dir != .stop) = true := hm
      show s.dir = .stop
      cases hd : s.dir with
      | stop => rfl
      | down => rw [hd] at hm'; exact absurd rfl hm'
      | up => rw [hd] at hm'; exact absurd rfl hm'
  generalize stopStage t { s with pause := 0 } = q at *
  obtain ⟨q1, q2, q3⟩ := hq
  cases hb : body F t q with
  | none => rw [hb] at h; cases h
  | some r1 =>
    rw [hb] at h
    injection h with h
    obtain ⟨a, b⟩ := body_done q1 q2 hb
    rw [← h, timeoutStage_dir]
    refine ⟨?_, timeoutStage_done a⟩
    rcases b with b | b
    · exact b.trans q3
    · exact b

/-- **C144, refuted.** When the timeout ends in that pass, the command is lost, always: under every schedule of passes the
motor stops and never moves. -/
theorem split_lost (F : Fp) (s : RS) (n : Int) (t t' : Nat) (ts : List Nat) (q r : RS) (hc : s.calibrate = false)
    (h : pass F t (half n s) = some q) (hx : q.target = stopPos) (hp : ¬ pausing q t')
    (hr : run F (rest q) (passes (t' :: ts)) = some r) : r.dir = .stop := by
  have hr' : ((pass F t' (rest q)).bind fun s => run F s (passes ts)) = some r := hr
  cases h1 : pass F t' (rest q) with
  | none => rw [h1] at hr'; cases hr'
  | some q1 =>
    rw [h1] at hr'
    obtain ⟨a, b⟩ := stop_obeyed F (rest q) t' q1 (pass_target (s := half n s) hc h).2 hx hp h1
    rcases (run_done ts b hr').2 with e | e
    · exact e.trans a
    · exact e

/-- A shutter that opens in 10 s with a margin of 3 s, open and pressing on for the margin: told "down" when the margin ends,
between the two assignments it is interrupted, and never goes down. One pass later the same command is carried out. -/
example : ((run exactFp (boot { t := 1, closing := 10000, opening := 10000, pos := 50 }) [(5, .action .open), (10, .pass), (5020, .pass)]).bind fun s =>
    ((pass exactFp 8030 (half (-4) s)).bind fun q => (run exactFp (rest q) (passes [8040, 9000, 9010])).map fun r => (r.dir, r.newTarget)).bind fun a =>
    (run exactFp (setTarget (-4) s) (passes [8030, 9000, 9010])).map fun r => (a, r.dir)) = some ((.stop, false), .down) := by decide +kernel

end Verif.Shutter.Obey
