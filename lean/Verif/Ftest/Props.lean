import Verif.Common.Clock

/-!
# C105: the factory test

`/repo/src/supla/device/factory_test.cpp` (FT below) and `.h`: a new device is tested on a machine; one that passes is
reset to factory settings and leaves the factory.

Simplified: `testStep` stays 0 (only derived classes set it); the twelve checks of `onInit` are one list of results; reasons
and texts are left out. `checkTestStep` of a derived class is a result given from outside.
-/

namespace Verif.Ftest

/-- What happens to the test. -/
inductive Op
  /-- `onInit` at a time, with the results of the checks. -/
  | init (t : Nat) (checks : List Bool)
  /-- A pass of the main loop: whether the device is in configuration mode, what the step of the device says. -/
  | pass (t : Nat) (config step : Bool)
  /-- The device's status has changed; whether it is registered and ready now. -/
  | status (ready : Bool)
  /-- The configuration button. -/
  | button
  /-- Any other action. -/
  | other
  /-- The device's own test is done, and waits for the button. -/
  | wait
  /-- The device's own test has failed. -/
  | fail
deriving DecidableEq

/-! ## What is meant -/

/-- Something that must not happen in a test that is passed. -/
def Bad : Op → Prop
  | .init _ checks => ∃ c ∈ checks, c = false
  | .pass _ config step => config = false ∧ step = false
  | .other => True
  | .fail => True
  | _ => False

/-- The test as it should go (newest first): checks, registration, the device's own test, the button; nothing bad. -/
def Passed (ops : List Op) : Prop :=
  (∃ t checks, [Op.button, Op.wait, Op.status true, Op.init t checks].Sublist ops) ∧ ∀ o ∈ ops, ¬ Bad o

/-! ## The code -/

/-- How a test ends: reset to factory settings and restart, or just restart. -/
inductive End | success | restart
deriving DecidableEq

/-- FT.h lines 61-69, and what was ordered. -/
structure St where
  failed : Bool
  finished : Bool
  waitReg : Bool
  enabled : Bool
  timeout : Nat
  ts : Nat
  stage : Nat
  out : List End
deriving DecidableEq

/-- A new test. -/
def new (timeout : Nat) : St := ⟨false, false, true, true, timeout, 0, 0, []⟩

/-- `onInit`, FT lines 43-141. -/
def onInit (t : Nat) (checks : List Bool) (s : St) : St :=
  if s.stage ≠ 0 then { s with ts := clk t, failed := true }
  else if checks.all id then { s with ts := clk t, stage := 1 } else { s with ts := clk t, stage := 1, failed := true }

/-- FT lines 152-161. -/
def stepResult (step : Bool) (s : St) : St := if step then s else { s with failed := true }

/-- FT lines 163-172. -/
def overdue (t : Nat) (s : St) : St := if since (clk t) s.ts > s.timeout * 1000 % 2 ^ 32 then { s with failed := true } else s

/-- FT lines 173-180: a failed test ends in a restart. -/
def close (s : St) : St := if s.failed then { s with finished := true, enabled := false, out := .restart :: s.out } else s

/-- FT lines 163-189. -/
def verdict (t : Nat) (s : St) : St :=
  if s.finished = false then close (overdue t s)
  else if s.failed = false then { s with enabled := false, out := .success :: s.out }
  else s

/-- `iterateAlways`, FT lines 143-190. -/
def pass (t : Nat) (config step : Bool) (s : St) : St :=
  if s.enabled = false then s else if config then s else verdict t (stepResult step s)

/-- `handleAction`: a new status, FT lines 198-215. -/
def status (ready : Bool) (s : St) : St :=
  if s.enabled = false then s
  else if s.waitReg && ready then (if s.stage ≠ 1 then { s with waitReg := false, failed := true } else { s with waitReg := false, stage := 2 })
  else s

/-- `handleAction`: the button, FT lines 216-231. -/
def button (s : St) : St :=
  if s.enabled = false then s
  else if s.stage < 2 then s else if s.stage ≠ 3 then { s with failed := true } else { s with finished := true }

/-- `handleAction`: anything else, FT lines 232-241. -/
def other (s : St) : St := if s.enabled = false then s else { s with failed := true }

/-- `waitForConfigButtonPress`, FT lines 245-260. -/
def wait (s : St) : St := if s.stage ≠ 2 then { s with failed := true } else { s with stage := 3 }

/-- `setTestFailed`, FT lines 266-269. -/
def fail (s : St) : St := { s with failed := true }

/-- One event, each the function cited above. -/
def step (s : St) : Op → St
  | .init t checks => onInit t checks s
  | .pass t config ok => pass t config ok s
  | .status ready => status ready s
  | .button => button s
  | .other => other s
  | .wait => wait s
  | .fail => fail s

/-- A history, newest first. -/
def run (timeout : Nat) : List Op → St
  | [] => new timeout
  | o :: ops => step (run timeout ops) o

/-! ## Only good devices pass -/

/-- What a stage says about the history. -/
def StageOk (n : Nat) (ops : List Op) : Prop :=
  n = 0 ∨ (n = 1 ∧ ∃ t c, [Op.init t c].Sublist ops) ∨ (n = 2 ∧ ∃ t c, [Op.status true, Op.init t c].Sublist ops) ∨
    (n = 3 ∧ ∃ t c, [Op.wait, Op.status true, Op.init t c].Sublist ops)

theorem StageOk.cons {n : Nat} {ops : List Op} (h : StageOk n ops) (o : Op) : StageOk n (o :: ops) := by
  rcases h with h | ⟨h, t, c, e⟩ | ⟨h, t, c, e⟩ | ⟨h, t, c, e⟩
  · exact Or.inl h
  · exact Or.inr (Or.inl ⟨h, t, c, e.cons o⟩)
  · exact Or.inr (Or.inr (Or.inl ⟨h, t, c, e.cons o⟩))
  · exact Or.inr (Or.inr (Or.inr ⟨h, t, c, e.cons o⟩))

/-- A test without failure so far. -/
structure Good (s : St) (ops : List Op) : Prop where
  enabled : s.enabled = true
  clean : ∀ o ∈ ops, ¬ Bad o
  stage : StageOk s.stage ops
  done : s.finished = true → ∃ t c, [Op.button, Op.wait, Op.status true, Op.init t c].Sublist ops

/-- The invariant: either the test has passed, after a good history, or the state tells how far it got. -/
structure Inv (s : St) (ops : List Op) : Prop where
  good : .success ∉ s.out → s.failed = false → Good s ops
  passed : .success ∈ s.out → ∃ pre, pre <:+ ops ∧ Passed pre

/-- An operation that is not bad and leaves the verdict alone. -/
theorem Good.keep {s s' : St} {ops : List Op} (g : Good s ops) (o : Op) (hb : ¬ Bad o) (he : s'.enabled = s.enabled) (hst : s'.stage = s.stage) (hf : s'.finished = s.finished) :
    Good s' (o :: ops) :=
  ⟨by rw [he]; exact g.enabled, by
    intro x hx
    rcases List.mem_cons.mp hx with rfl | hx
    · exact hb
    · exact g.clean x hx, by rw [hst]; exact g.stage.cons o, by
    intro h
    rw [hf] at h
    obtain ⟨t, c, e⟩ := g.done h
    exact ⟨t, c, e.cons o⟩⟩

theorem clean_cons {ops : List Op} (h : ∀ o ∈ ops, ¬ Bad o) (o : Op) (hb : ¬ Bad o) : ∀ x ∈ o :: ops, ¬ Bad x := by
  intro x hx
  rcases List.mem_cons.mp hx with rfl | hx
  · exact hb
  · exact h x hx

/-- An operation that orders nothing. -/
theorem Inv.quiet {s s' : St} {ops : List Op} (i : Inv s ops) (o : Op) (ho : s'.out = s.out)
    (h : .success ∉ s.out → s'.failed = false → Good s' (o :: ops)) : Inv s' (o :: ops) := by
  refine ⟨?_, ?_⟩
  · rw [ho]; exact h
  · rw [ho]
    intro hs
    obtain ⟨pre, h1, h2⟩ := i.passed hs
    exact ⟨pre, h1.trans (List.suffix_cons o ops), h2⟩

/-- A test is overdue or not. -/
theorem overdue_cases (t : Nat) (s : St) : overdue t s = { s with failed := true } ∨ overdue t s = s := by
  unfold overdue
  generalize since (clk t) s.ts = a
  generalize s.timeout * 1000 % 2 ^ 32 = b
  by_cases hx : a > b
  · rw [if_pos hx]; exact Or.inl rfl
  · rw [if_neg hx]; exact Or.inr rfl

theorem close_cases (s : St) : ((close s).failed = true ∧ (close s).out = .restart :: s.out ∧ (close s).enabled = false) ∨ (s.failed = false ∧ close s = s) := by
  unfold close
  by_cases h : s.failed = true
  · rw [if_pos h]; exact Or.inl ⟨h, rfl, rfl⟩
  · rw [if_neg h]; exact Or.inr ⟨by simpa using h, rfl⟩

/-- The three ways a verdict goes. -/
theorem verdict_cases (t : Nat) (s : St) :
    (s.finished = false ∧ (verdict t s).failed = true ∧ (verdict t s).out = .restart :: s.out) ∨
    (s.finished = true ∧ s.failed = false ∧ (verdict t s).out = .success :: s.out) ∨
    verdict t s = s := by
  unfold verdict
  by_cases hf : s.finished = false
  · rw [if_pos hf]
    rcases overdue_cases t s with h | h <;> rw [h]
    · rcases close_cases { s with failed := true } with ⟨h1, h2, _⟩ | ⟨h1, _⟩
      · exact Or.inl ⟨hf, h1, h2⟩
      · cases h1
    · rcases close_cases s with ⟨h1, h2, _⟩ | ⟨_, h2⟩
      · exact Or.inl ⟨hf, h1, h2⟩
      · exact Or.inr (Or.inr h2)
  · rw [if_neg hf]
    by_cases hx : s.failed = false
    · rw [if_pos hx]
      exact Or.inr (Or.inl ⟨by simpa using hf, hx, rfl⟩)
    · rw [if_neg hx]
      exact Or.inr (Or.inr rfl)

theorem pass_inv (t : Nat) (config ok : Bool) (s : St) (ops : List Op) (i : Inv s ops) : Inv (pass t config ok s) (.pass t config ok :: ops) := by
  unfold pass
  by_cases he : s.enabled = false
  · rw [if_pos he]
    refine i.quiet _ rfl (fun h1 h2 => ?_)
    have := (i.good h1 h2).enabled
    rw [he] at this; cases this
  rw [if_neg he]
  by_cases hc : config = true
  · rw [if_pos hc]
    refine i.quiet _ rfl (fun h1 h2 => (i.good h1 h2).keep _ ?_ rfl rfl rfl)
    rintro ⟨h, _⟩
    rw [hc] at h; cases h
  rw [if_neg hc]
  have hout : (stepResult ok s).out = s.out := by unfold stepResult; split <;> rfl
  have hfail : (stepResult ok s).failed = false → s.failed = false ∧ ok = true := by
    unfold stepResult
    cases ok
    · intro h; cases h
    · intro h; exact ⟨h, rfl⟩
  have hsame : ok = true → stepResult ok s = s := by intro h; unfold stepResult; rw [if_pos h]
  have hnb : ok = true → ¬ Bad (.pass t config ok) := by rintro h ⟨_, h2⟩; rw [h] at h2; cases h2
  have hv := verdict_cases t (stepResult ok s)
  generalize verdict t (stepResult ok s) = v at *
  generalize stepResult ok s = x at *
  rcases hv with ⟨_, h2, h3⟩ | ⟨h1, h2, h3⟩ | h
  · refine ⟨fun _ h => ?_, fun h => ?_⟩
    · rw [h2] at h; cases h
    · rw [h3, hout] at h
      rcases List.mem_cons.mp h with h | h
      · cases h
      · obtain ⟨pre, p1, p2⟩ := i.passed h
        exact ⟨pre, p1.trans (List.suffix_cons _ ops), p2⟩
  · obtain ⟨f1, f2⟩ := hfail h2
    rw [hsame f2] at h1 h3
    refine ⟨fun h => absurd (by rw [h3]; exact List.mem_cons_self) h, fun _ => ?_⟩
    by_cases hs : .success ∈ s.out
    · obtain ⟨pre, p1, p2⟩ := i.passed hs
      exact ⟨pre, p1.trans (List.suffix_cons _ ops), p2⟩
    · have g := i.good hs f1
      obtain ⟨t', c, e⟩ := g.done h1
      exact ⟨ops, List.suffix_cons _ ops, ⟨t', c, e⟩, g.clean⟩
  · rw [h]
    refine i.quiet _ hout (fun h1 h2 => ?_)
    obtain ⟨f1, f2⟩ := hfail h2
    rw [hsame f2]
    exact (i.good h1 f1).keep _ (hnb f2) rfl rfl rfl

theorem run_inv (timeout : Nat) (ops : List Op) : Inv (run timeout ops) ops := by
  induction ops with
  | nil => exact ⟨fun _ _ => ⟨rfl, fun o ho => (by cases ho), Or.inl rfl, fun h => (by cases h)⟩, fun h => (by cases h)⟩
  | cons o ops ih =>
    show Inv (step (run timeout ops) o) _
    generalize run timeout ops = s at *
    cases o with
    | init t checks =>
      show Inv (onInit t checks s) _
      unfold onInit
      split
      · exact ih.quiet _ rfl (fun _ h => by cases h)
      · split
        · next hc =>
          refine ih.quiet _ rfl (fun h1 h2 => ?_)
          have g := ih.good h1 h2
          refine ⟨g.enabled, clean_cons g.clean _ ?_, Or.inr (Or.inl ⟨rfl, t, checks, (List.nil_sublist ops).cons_cons _⟩), ?_⟩
          · rintro ⟨c, h3, h4⟩
            have := List.all_eq_true.mp hc c h3
            rw [h4] at this; cases this
          · intro h
            obtain ⟨t', c, e⟩ := g.done h
            exact ⟨t', c, e.cons _⟩
        · exact ih.quiet _ rfl (fun _ h => by cases h)
    | pass t config ok => exact pass_inv t config ok s ops ih
    | status ready =>
      show Inv (status ready s) _
      unfold status
      split
      · exact ih.quiet _ rfl (fun h1 h2 => (ih.good h1 h2).keep _ (fun h => h) rfl rfl rfl)
      · split
        · next hr =>
          split
          · exact ih.quiet _ rfl (fun _ h => by cases h)
          · next hs =>
            refine ih.quiet _ rfl (fun h1 h2 => ?_)
            have g := ih.good h1 h2
            have hrt : ready = true := by cases ready <;> simp_all
            refine ⟨g.enabled, clean_cons g.clean _ (fun h => h), Or.inr (Or.inr (Or.inl ⟨rfl, ?_⟩)), ?_⟩
            · rcases g.stage with h | ⟨_, t, c, e⟩ | ⟨h, _⟩ | ⟨h, _⟩
              · omega
              · rw [hrt]; exact ⟨t, c, e.cons_cons _⟩
              · omega
              · omega
            · intro h
              obtain ⟨t', c, e⟩ := g.done h
              exact ⟨t', c, e.cons _⟩
        · exact ih.quiet _ rfl (fun h1 h2 => (ih.good h1 h2).keep _ (fun h => h) rfl rfl rfl)
    | button =>
      show Inv (button s) _
      unfold button
      split
      · exact ih.quiet _ rfl (fun h1 h2 => (ih.good h1 h2).keep _ (fun h => h) rfl rfl rfl)
      · split
        · exact ih.quiet _ rfl (fun h1 h2 => (ih.good h1 h2).keep _ (fun h => h) rfl rfl rfl)
        · split
          · exact ih.quiet _ rfl (fun _ h => by cases h)
          · next hs =>
            refine ih.quiet _ rfl (fun h1 h2 => ?_)
            have g := ih.good h1 h2
            refine ⟨g.enabled, clean_cons g.clean _ (fun h => h), g.stage.cons _, fun _ => ?_⟩
            rcases g.stage with h | ⟨h, _⟩ | ⟨h, _⟩ | ⟨_, t, c, e⟩
            · omega
            · omega
            · omega
            · exact ⟨t, c, e.cons_cons _⟩
    | other =>
      show Inv (other s) _
      unfold other
      split
      · next he =>
        refine ih.quiet _ rfl (fun h1 h2 => ?_)
        have := (ih.good h1 h2).enabled
        rw [he] at this; cases this
      · exact ih.quiet _ rfl (fun _ h => by cases h)
    | wait =>
      show Inv (wait s) _
      unfold wait
      split
      · exact ih.quiet _ rfl (fun _ h => by cases h)
      · next hs =>
        refine ih.quiet _ rfl (fun h1 h2 => ?_)
        have g := ih.good h1 h2
        refine ⟨g.enabled, clean_cons g.clean _ (fun h => h), Or.inr (Or.inr (Or.inr ⟨rfl, ?_⟩)), ?_⟩
        · rcases g.stage with h | ⟨h, _⟩ | ⟨_, t, c, e⟩ | ⟨h, _⟩
          · omega
          · omega
          · exact ⟨t, c, e.cons_cons _⟩
          · omega
        · intro h
          obtain ⟨t', c, e⟩ := g.done h
          exact ⟨t', c, e.cons _⟩
    | fail => exact ih.quiet _ rfl (fun _ h => by cases h)

/-- **C105.** Only a device whose checks were all right, that was registered, whose own test was done and whose button was
pressed, in this order and with nothing bad in between, is reset and leaves the factory. -/
theorem only_good (timeout : Nat) (ops : List Op) (h : .success ∈ (run timeout ops).out) : ∃ pre, pre <:+ ops ∧ Passed pre :=
  (run_inv timeout ops).passed h

/-! ## Good devices do pass -/

/-- Passes that find nothing wrong, in time. -/
def Fine (t0 timeout : Nat) (ops : List Op) : Prop := ∀ o ∈ ops, (∃ t config, o = .pass t config true ∧ t0 ≤ t ∧ t - t0 ≤ timeout * 1000) ∨ o = .status false

theorem fine_keeps (t0 timeout : Nat) (hb : timeout * 1000 < 2 ^ 32) (s : St) (h1 : s.failed = false) (h2 : s.finished = false) (ht : s.ts = clk t0) (hto : s.timeout = timeout)
    (ops : List Op) (h : Fine t0 timeout ops) : ops.foldr (fun o s => step s o) s = s := by
  induction ops with
  | nil => rfl
  | cons o ops ih =>
    rw [List.foldr_cons, ih (fun o ho => h o (List.mem_cons_of_mem _ ho))]
    rcases h o List.mem_cons_self with ⟨t, config, rfl, a, b⟩ | rfl
    · show pass t config true s = s
      unfold pass
      split
      · rfl
      · split
        · rfl
        · rw [show stepResult true s = s from rfl]
          unfold verdict
          have ho : overdue t s = s := by
            unfold overdue
            rw [ht, hto, since_clk_eq t t0 a (by omega), Nat.mod_eq_of_lt hb, if_neg (by omega)]
          rw [if_pos h2, ho]
          rcases close_cases s with ⟨_, _⟩ | ⟨_, h⟩
          · unfold close; rw [if_neg (by rw [h1]; exact Bool.false_ne_true)]
          · exact h
    · show status false s = s
      unfold status
      simp

theorem run_append (timeout : Nat) (a b : List Op) : run timeout (a ++ b) = a.foldr (fun o s => step s o) (run timeout b) := by
  induction a with
  | nil => rfl
  | cons o a ih => rw [List.cons_append, List.foldr_cons, ← ih]; rfl

/-- **C105.** A device for which everything goes well in time passes: the pass after the button resets it. -/
theorem good_passes (timeout t0 t : Nat) (hb : timeout * 1000 < 2 ^ 32) (checks : List Bool) (hc : ∀ c ∈ checks, c = true) (A B C : List Op)
    (hA : Fine t0 timeout A) (hB : Fine t0 timeout B) (hC : Fine t0 timeout C) :
    (run timeout (.pass t false true :: .button :: (C ++ .wait :: (B ++ .status true :: (A ++ [.init t0 checks]))))).out = [.success] := by
  have hall : checks.all id = true := by
    rw [List.all_eq_true]
    intro c h
    rw [hc c h]; rfl
  have e1 : run timeout [.init t0 checks] = { new timeout with ts := clk t0, stage := 1 } := by
    show onInit t0 checks (new timeout) = _
    unfold onInit
    rw [if_neg (show ¬ (new timeout).stage ≠ 0 from fun h => h rfl), if_pos hall]
  have e2 : run timeout (A ++ [.init t0 checks]) = { new timeout with ts := clk t0, stage := 1 } := by
    rw [run_append, e1]
    exact fine_keeps t0 timeout hb _ rfl rfl rfl rfl A hA
  have e3 : run timeout (.status true :: (A ++ [.init t0 checks])) = { new timeout with ts := clk t0, stage := 2, waitReg := false } := by
    show status true (run timeout (A ++ [.init t0 checks])) = _
    rw [e2]; rfl
  have e4 : run timeout (B ++ .status true :: (A ++ [.init t0 checks])) = { new timeout with ts := clk t0, stage := 2, waitReg := false } := by
    rw [run_append, e3]
    exact fine_keeps t0 timeout hb _ rfl rfl rfl rfl B hB
  have e5 : run timeout (.wait :: (B ++ .status true :: (A ++ [.init t0 checks]))) = { new timeout with ts := clk t0, stage := 3, waitReg := false } := by
    show wait (run timeout (B ++ .status true :: (A ++ [.init t0 checks]))) = _
    rw [e4]; rfl
  have e6 : run timeout (C ++ .wait :: (B ++ .status true :: (A ++ [.init t0 checks]))) = { new timeout with ts := clk t0, stage := 3, waitReg := false } := by
    rw [run_append, e5]
    exact fine_keeps t0 timeout hb _ rfl rfl rfl rfl C hC
  show (pass t false true (button (run timeout (C ++ .wait :: (B ++ .status true :: (A ++ [.init t0 checks])))))).out = _
  rw [e6]
  rfl

/-! ## A test that fails ends -/

/-- **C105.** A test that is not done in time fails at the next pass, and the device restarts. -/
theorem late (t t0 : Nat) (s : St) (he : s.enabled = true) (hf : s.finished = false) (ht : s.ts = clk t0) (h0 : t0 ≤ t) (h1 : t - t0 < 2 ^ 32) (hl : s.timeout * 1000 < t - t0) (ok : Bool) :
    (pass t false ok s).out = .restart :: s.out ∧ (pass t false ok s).enabled = false ∧ (pass t false ok s).failed = true := by
  have hs : (stepResult ok s).ts = s.ts ∧ (stepResult ok s).timeout = s.timeout ∧ (stepResult ok s).finished = s.finished ∧ (stepResult ok s).out = s.out := by
    unfold stepResult; split <;> exact ⟨rfl, rfl, rfl, rfl⟩
  have hp : pass t false ok s = verdict t (stepResult ok s) := by
    unfold pass
    rw [if_neg (by rw [he]; decide), if_neg Bool.false_ne_true]
  rw [hp, ← hs.2.2.2]
  rw [← hs.2.2.1] at hf
  rw [← hs.1] at ht
  rw [← hs.2.1] at hl
  generalize stepResult ok s = x at *
  have ho : overdue t x = { x with failed := true } := by
    unfold overdue
    have e : since (clk t) x.ts = t - t0 := by rw [ht]; exact since_clk_eq t t0 h0 h1
    rw [if_pos (by rw [e]; omega)]
  unfold verdict
  rw [if_pos hf, ho]
  rcases close_cases { x with failed := true } with ⟨h1, h2, h3⟩ | ⟨h1, _⟩
  · exact ⟨h2, h3, h1⟩
  · cases h1

/-- The full claim: a test that has failed ends at the next pass outside configuration mode. -/
def FailureEnds : Prop := ∀ timeout ops t ok, (run timeout ops).failed = true → (run timeout (.pass t false ok :: ops)).enabled = false

/-- **C105.** It does unless the button was pressed. -/
theorem failure_partial (t : Nat) (ok : Bool) (s : St) (he : s.enabled = true) (hf : s.finished = false) (hx : s.failed = true ∨ ok = false) :
    (pass t false ok s).enabled = false ∧ (pass t false ok s).out = .restart :: s.out := by
  have hs : (stepResult ok s).failed = true ∧ (stepResult ok s).finished = false ∧ (stepResult ok s).out = s.out := by
    unfold stepResult
    cases ok
    · exact ⟨rfl, hf, rfl⟩
    · rcases hx with hx | hx
      · exact ⟨hx, hf, rfl⟩
      · cases hx
  have hp : pass t false ok s = verdict t (stepResult ok s) := by
    unfold pass
    rw [if_neg (by rw [he]; decide), if_neg Bool.false_ne_true]
  rw [hp, ← hs.2.2]
  obtain ⟨s1, s2, _⟩ := hs
  generalize stepResult ok s = x at *
  unfold verdict
  rw [if_pos s2]
  rcases overdue_cases t x with h | h <;> rw [h]
  · rcases close_cases { x with failed := true } with ⟨_, h2, h3⟩ | ⟨h1, _⟩
    · exact ⟨h3, h2⟩
    · cases h1
  · rcases close_cases x with ⟨_, h2, h3⟩ | ⟨h1, _⟩
    · exact ⟨h3, h2⟩
    · rw [s1] at h1; cases h1

/-- **Finding.** If something goes wrong between the button and the next pass, the device neither passes nor restarts, ever. -/
theorem stuck (s : St) (hf : s.failed = true) (hd : s.finished = true) (ops : List Op) : (ops.foldr (fun o s => step s o) s).out = s.out := by
  have : ∀ ops : List Op, (ops.foldr (fun o s => step s o) s).out = s.out ∧ (ops.foldr (fun o s => step s o) s).failed = true ∧ (ops.foldr (fun o s => step s o) s).finished = true := by
    intro ops
    induction ops with
    | nil => exact ⟨rfl, hf, hd⟩
    | cons o ops ih =>
      rw [List.foldr_cons]
      generalize ops.foldr (fun o s => step s o) s = x at *
      obtain ⟨i1, i2, i3⟩ := ih
      cases o with
      | init t checks =>
        show (onInit t checks x).out = _ ∧ (onInit t checks x).failed = _ ∧ (onInit t checks x).finished = _
        unfold onInit
        split
        · exact ⟨i1, rfl, i3⟩
        · split
          · exact ⟨i1, i2, i3⟩
          · exact ⟨i1, rfl, i3⟩
      | pass t config ok =>
        show (pass t config ok x).out = _ ∧ (pass t config ok x).failed = _ ∧ (pass t config ok x).finished = _
        have hs : (stepResult ok x).failed = true ∧ (stepResult ok x).finished = true ∧ (stepResult ok x).out = x.out := by
          unfold stepResult
          split
          · exact ⟨i2, i3, rfl⟩
          · exact ⟨rfl, i3, rfl⟩
        unfold pass verdict
        split
        · exact ⟨i1, i2, i3⟩
        · split
          · exact ⟨i1, i2, i3⟩
          · rw [if_neg (by rw [hs.2.1]; decide), if_neg (by rw [hs.1]; decide), hs.2.2]
            exact ⟨i1, hs.1, hs.2.1⟩
      | status ready =>
        show (status ready x).out = _ ∧ (status ready x).failed = _ ∧ (status ready x).finished = _
        unfold status
        split
        · exact ⟨i1, i2, i3⟩
        · split
          · split
            · exact ⟨i1, rfl, i3⟩
            · exact ⟨i1, i2, i3⟩
          · exact ⟨i1, i2, i3⟩
      | button =>
        show (button x).out = _ ∧ (button x).failed = _ ∧ (button x).finished = _
        unfold button
        split
        · exact ⟨i1, i2, i3⟩
        · split
          · exact ⟨i1, i2, i3⟩
          · split
            · exact ⟨i1, rfl, i3⟩
            · exact ⟨i1, i2, rfl⟩
      | other =>
        show (other x).out = _ ∧ (other x).failed = _ ∧ (other x).finished = _
        unfold other
        split
        · exact ⟨i1, i2, i3⟩
        · exact ⟨i1, rfl, i3⟩
      | wait =>
        show (wait x).out = _ ∧ (wait x).failed = _ ∧ (wait x).finished = _
        unfold wait
        split
        · exact ⟨i1, rfl, i3⟩
        · exact ⟨i1, i2, i3⟩
      | fail => exact ⟨i1, rfl, i3⟩
  exact (this ops).1

/-- The history of such a device: everything well, then an unexpected action after the button. -/
def unlucky : List Op := [.other, .button, .wait, .status true, .init 0 (List.replicate 12 true)]

theorem failure_violation : ¬ FailureEnds := by
  intro h
  have := h 30 unlucky 1000 true (by decide)
  revert this
  decide +kernel

example : (run 30 unlucky).failed = true ∧ (run 30 unlucky).finished = true := by decide
example : (run 30 (.pass 900 false true :: unlucky.tail)).out = [.success] := by decide +kernel
example : Fine 0 30 [.pass 29000 false true, .status false] := by
  intro o ho
  simp at ho
  rcases ho with rfl | rfl
  · exact Or.inl ⟨_, _, rfl, by omega, by omega⟩
  · exact Or.inr rfl

end Verif.Ftest
