import Verif.Pulse.Steps
import Mathlib.Data.List.Forall2
/-!
# C96: roller shutters operated by presses of buttons
-/

namespace Verif.Pulse

open Verif.Shutter (RS Fp Op stopPos Ordered)

/-! ## The invariant -/

/-- No press is under way: every press was released, and if `Z` then the presses are apart and the pause after the
last of them, which ended at `R`, is kept or over. -/
structure Rest (Z : Prop) (u n : Nat) (b : Bi) : Prop where
  inactive : b.active = false
  free : b.now = Level.free b.now.t
  held : List.Forall₂ Held (pressed u b) (released u b)
  apart : Z → Apart (pressed u b)
  pause : Z → pressed u b = [] ∨ ∃ R ≤ n, (∀ p ∈ pressed u b, p.1 + 200 < R) ∧
    ((b.rs.pause = clk R ∧ clk R ≠ 0) ∨ R + 500 ≤ n)

/-- The press of `x` at `T` is under way, after the presses `ps`. -/
structure Hold (Z : Prop) (k : Kind) (u n : Nat) (b : Bi) (ps : List (Nat × Btn)) (T : Nat) (x : Btn) : Prop where
  active : b.active = true
  toggle : b.toggle = clk T
  past : T ≤ n
  only : b.now = only b.now.t (some x)
  button : k = .two → x ≠ .stop
  last : pressed u b = ps ++ [(T, x)]
  held : List.Forall₂ Held ps (released u b)
  apart : Z → Apart (pressed u b) ∧ ∀ p ∈ pressed u b, p.1 ≤ T

/-- The invariant, at the time `n`. -/
structure Inv (Z : Prop) (k : Kind) (u n : Nat) (b : Bi) : Prop where
  linked : Linked u b
  lonely : Lonely b
  phase : Rest Z u n b ∨ ∃ ps T x, Hold Z k u n b ps T x

theorem Inv.later {Z : Prop} {k : Kind} {u n m : Nat} {b : Bi} (h : Inv Z k u n b) (hm : n ≤ m) : Inv Z k u m b := by
  refine ⟨h.linked, h.lonely, ?_⟩
  rcases h.phase with hr | ⟨ps, T, x, hh⟩
  · left
    refine ⟨hr.inactive, hr.free, hr.held, hr.apart, fun z => ?_⟩
    rcases hr.pause z with hp | ⟨R, hR, h1, h2⟩
    · exact .inl hp
    · refine .inr ⟨R, by omega, h1, ?_⟩
      rcases h2 with h2 | h2
      · exact .inl h2
      · exact .inr (by omega)
  · right
    have := hh.past
    exact ⟨ps, T, x, hh.active, hh.toggle, by omega, hh.only, hh.button, hh.last, hh.held, hh.apart⟩

theorem apart_snoc {ps : List (Nat × Btn)} {T : Nat} {x : Btn} (h : Apart ps) (hT : ∀ p ∈ ps, p.1 + 200 + 500 < T) :
    Apart (ps ++ [(T, x)]) := by
  unfold Apart
  rw [List.pairwise_append]
  refine ⟨h, List.pairwise_singleton _ _, ?_⟩
  intro a ha c hc
  rw [List.mem_singleton.1 hc]
  exact hT a ha

theorem since_gt {n T x : Nat} (hT : T ≤ n) (h : since (clk n) (clk T) > x) : T + x < n := by
  have := since_clk_le n T hT
  omega

theorem since_ge {n T x : Nat} (hT : T ≤ n) (h : since (clk n) (clk T) ≥ x) : T + x ≤ n := by
  have := since_clk_le n T hT
  omega

/-- The end of a press. -/
theorem endPress_inv {Z : Prop} {k : Kind} {u t : Nat} {b : Bi} (h : Inv Z k u t b) (hz : Z → clk t ≠ 0) :
    Inv Z k u t (endPress k t b) := by
  unfold endPress
  split
  · rename_i hc
    rcases h.phase with hr | ⟨ps, T, x, hh⟩
    · rw [hr.inactive] at hc; cases hc.1
    · obtain ⟨h1, h2, h3, h4, h5⟩ := switchOff_held h.linked hh.only hh.button t
      have hT := hc.2
      rw [hh.toggle] at hT
      have hT := since_gt hh.past hT
      refine ⟨h1, switchOff_lonely h.lonely ⟨some x, hh.only⟩ t, .inl ⟨h2, h3, ?_, ?_, ?_⟩⟩
      · show List.Forall₂ Held (pressed u (switchOff k t b)) (released u (switchOff k t b))
        rw [h4, h5, hh.last]
        exact List.rel_append hh.held (.cons ⟨rfl, hT⟩ .nil)
      · intro z
        show Apart (pressed u (switchOff k t b))
        rw [h4]
        exact (hh.apart z).1
      · intro z
        right
        refine ⟨t, Nat.le_refl _, ?_, .inl ⟨rfl, hz z⟩⟩
        show ∀ p ∈ pressed u (switchOff k t b), _
        rw [h4]
        intro p hp
        have := (hh.apart z).2 p hp
        omega
  · exact h

/-- A pass of the common code while no button is held. -/
theorem basePass_inv {Z : Prop} {F : Fp} {k : Kind} {u t : Nat} {b c : Bi} (h : Inv Z k u t b)
    (ha : b.active = false) (hc : basePass F k t b = some c) : Inv Z k u t c := by
  rcases h.phase with hr | ⟨ps, T, x, hh⟩
  · have hlone := basePass_lonely h.lonely hr.free hc
    have hgap : paused t b.rs = false → Z → ∀ p ∈ pressed u b, p.1 + 200 + 500 < t := by
      intro hp z p hm
      rcases hr.pause z with hn | ⟨R, hR, h1, h2⟩
      · rw [hn] at hm; cases hm
      · have := h1 p hm
        rcases h2 with ⟨h2, h3⟩ | h2
        · have hs : since (clk t) (clk R) ≥ 500 := by
            unfold paused at hp
            rw [h2] at hp
            simp only [Bool.and_eq_false_iff, bne_eq_false_iff_eq, decide_eq_false_iff_not] at hp
            rcases hp with hp | hp
            · exact absurd hp h3
            · omega
          have := since_ge hR hs
          omega
        · omega
    rcases basePass_cases h.linked ha hr.free hc with ⟨hq, _, hp⟩ | ⟨hp, x, hq, hx, _⟩
    · refine ⟨hq.1, hlone, .inl ⟨hq.2.1, hq.2.2.1, ?_, ?_, ?_⟩⟩
      · rw [hq.2.2.2.1, hq.2.2.2.2]; exact hr.held
      · rw [hq.2.2.2.1]; exact hr.apart
      · rw [hq.2.2.2.1]
        intro z
        cases hpd : paused t b.rs with
        | true =>
          rw [hp hpd]
          exact hr.pause z
        | false =>
          rcases hr.pause z with hn | ⟨R, hR, h1, h2⟩
          · exact .inl hn
          · rcases h2 with ⟨h2, h3⟩ | h2
            · have hs : since (clk t) (clk R) ≥ 500 := by
                unfold paused at hpd
                rw [h2] at hpd
                simp only [Bool.and_eq_false_iff, bne_eq_false_iff_eq, decide_eq_false_iff_not] at hpd
                rcases hpd with hpd | hpd
                · exact absurd hpd h3
                · omega
              have := since_ge hR hs
              exact .inr ⟨R, hR, h1, .inr this⟩
            · exact .inr ⟨R, hR, h1, .inr h2⟩
    · refine ⟨hq.1, hlone, .inr ⟨pressed u b, t, x, hq.2.1, hq.2.2.1, Nat.le_refl _, hq.2.2.2.1, hx, hq.2.2.2.2.1, ?_, ?_⟩⟩
      · rw [hq.2.2.2.2.2]; exact hr.held
      · intro z
        rw [hq.2.2.2.2.1]
        have := hgap hp z
        refine ⟨apart_snoc (hr.apart z) this, ?_⟩
        intro p hm
        rcases List.mem_append.1 hm with hm | hm
        · have := this p hm; omega
        · rw [List.mem_singleton.1 hm]; exact Nat.le_refl _
  · rw [hh.active] at ha; cases ha

theorem onTimer_inv {Z : Prop} {F : Fp} {k : Kind} {u t : Nat} {b c : Bi} (h : Inv Z k u t b) (hz : Z → clk t ≠ 0)
    (hc : onTimer F k t b = some c) : Inv Z k u t c := by
  have h' := endPress_inv h hz
  unfold onTimer at hc
  split at hc
  · injection hc with hc; subst hc; exact h'
  · rename_i ha
    exact basePass_inv h' (by simpa using ha) hc

theorem step_inv {Z : Prop} {F : Fp} {k : Kind} {u n : Nat} {b c : Bi} {e : Nat × Op} (h : Inv Z k u n b)
    (hn : n ≤ e.1) (hz : Z → clk e.1 ≠ 0) (hc : step F k b e = some c) : Inv Z k u e.1 c := by
  have h := h.later hn
  unfold step at hc
  split at hc
  · exact onTimer_inv h hz hc
  · rename_i he
    cases ho : other F k b.rs e with
    | none => rw [ho] at hc; cases hc
    | some r =>
      rw [ho] at hc
      injection hc with hc
      subst hc
      have hk := other_keeps he ho
      refine ⟨h.linked, h.lonely, ?_⟩
      rcases h.phase with hr | ⟨ps, T, x, hh⟩
      · refine .inl ⟨hr.inactive, hr.free, hr.held, hr.apart, fun z => ?_⟩
        have := hr.pause z
        rw [← hk.2] at this
        exact this
      · exact .inr ⟨ps, T, x, hh.active, hh.toggle, hh.past, hh.only, hh.button, hh.last, hh.held, hh.apart⟩

theorem run_inv {Z : Prop} {F : Fp} {k : Kind} {u : Nat} (h : List (Nat × Op)) : ∀ {n : Nat} {b c : Bi},
    Inv Z k u n b → Ordered n h → (Z → ∀ e ∈ h, clk e.1 ≠ 0) → run F k b h = some c → ∃ m, Inv Z k u m c := by
  induction h with
  | nil => intro n b c hi _ _ hr; injection hr with hr; subst hr; exact ⟨n, hi⟩
  | cons e h ih =>
    intro n b c hi ho hz hr
    unfold run at hr
    cases hs : step F k b e with
    | none => rw [hs] at hr; cases hr
    | some d =>
      rw [hs] at hr
      exact ih (step_inv hi ho.1 (fun z => hz z e (by simp)) hs) ho.2 (fun z e he => hz z e (by simp [he])) hr

theorem boot_inv (Z : Prop) (k : Kind) (o : Shutter.Boot) : Inv Z k o.t o.t (boot o) := by
  refine ⟨rfl, ?_, .inl ⟨rfl, rfl, .nil, ?_, ?_⟩⟩
  · intro l hl; cases hl
  · intro _; exact List.Pairwise.nil
  · intro _; exact .inl rfl

/-! ## C96: presses -/

/-- A history with two starts and a stop, for each kind of drive. -/
def demo : List (Nat × Op) := [(5, .action .moveUp), (10, .pass), (20, .pass), (220, .pass), (700, .pass), (800, .pass),
  (900, .action .moveDown), (1000, .pass), (1300, .pass), (1900, .pass), (2200, .pass)]

/-- The start of the examples. -/
def demoBoot : Shutter.Boot := { t := 1, closing := 10000, opening := 10000, pos := 50 }

/-- At any time at most one button is held down. -/
theorem one_button (F : Fp) (k : Kind) (o : Shutter.Boot) (h : List (Nat × Op)) (b : Bi) (hr : run F k (boot o) h = some b)
    (ho : Ordered o.t h) : ∀ l ∈ b.log, ∀ x y, l.held x = true → l.held y = true → x = y := by
  obtain ⟨m, hi⟩ := run_inv (Z := False) h (boot_inv False k o) ho (fun z => z.elim) hr
  intro l hl x y hx hy
  obtain ⟨p, hp⟩ := hi.lonely l hl
  rw [hp] at hx hy
  cases p with
  | none => cases x <;> cases hx
  | some p => cases p <;> cases x <;> cases y <;> first | rfl | exact absurd hx Bool.false_ne_true | exact absurd hy Bool.false_ne_true

/-- Every button that is pressed is released more than 200 ms later, before another one is pressed: the `i`-th release
is of the button of the `i`-th press, and at most the last press is not released yet. -/
theorem released_after (F : Fp) (k : Kind) (o : Shutter.Boot) (h : List (Nat × Op)) (b : Bi)
    (hr : run F k (boot o) h = some b) (ho : Ordered o.t h) :
    ∃ ps qs, presses (Level.free o.t) b.log = ps ++ qs ∧ qs.length ≤ 1 ∧
      List.Forall₂ Held ps (releases (Level.free o.t) b.log) := by
  obtain ⟨m, hi⟩ := run_inv (Z := False) h (boot_inv False k o) ho (fun z => z.elim) hr
  rcases hi.phase with hp | ⟨ps, T, x, hh⟩
  · exact ⟨_, [], (List.append_nil _).symm, by simp, hp.held⟩
  · exact ⟨ps, [(T, x)], hh.last, by simp, hh.held⟩

/-- A timer pass more than 200 ms after a button was pressed, and before the clock of 32 bits went round, releases it:
after the pass every press made before it is released. -/
theorem released_in_time (F : Fp) (k : Kind) (o : Shutter.Boot) (h : List (Nat × Op)) (b c : Bi) (t : Nat)
    (hr : run F k (boot o) h = some b) (ho : Ordered o.t h) (hc : step F k b (t, .pass) = some c)
    (ha : ∀ p ∈ presses (Level.free o.t) b.log, p.1 + 200 < t ∧ t < p.1 + 2 ^ 32) :
    (releases (Level.free o.t) c.log).length = (presses (Level.free o.t) b.log).length := by
  obtain ⟨m, hi⟩ := run_inv (Z := False) h (boot_inv False k o) ho (fun z => z.elim) hr
  have hc : onTimer F k t b = some c := by
    unfold step at hc
    rw [if_pos rfl] at hc
    exact hc
  show (released o.t c).length = (pressed o.t b).length
  have base : ∀ d, Inv False k o.t (max m t) d → d.active = false → basePass F k t d = some c →
      (released o.t c).length = (pressed o.t d).length := by
    intro d hd had hcd
    rcases hd.phase with hp | ⟨ps, T, x, hh⟩
    · have hlen := hp.held.length_eq
      rcases basePass_cases hd.linked had hp.free hcd with ⟨hq, _⟩ | ⟨_, x, hq, _⟩
      · rw [hq.2.2.2.2]; exact hlen.symm
      · rw [hq.2.2.2.2.2]; exact hlen.symm
    · rw [hh.active] at had; cases had
  have hi := hi.later (Nat.le_max_left m t)
  unfold onTimer at hc
  rcases hi.phase with hp | ⟨ps, T, x, hh⟩
  · have he : endPress k t b = b := by
      unfold endPress
      rw [if_neg (by rw [hp.inactive]; rintro ⟨h, _⟩; cases h)]
    rw [he, if_neg (by rw [hp.inactive]; exact Bool.false_ne_true)] at hc
    exact base b hi hp.inactive hc
  · have hT : T + 200 < t ∧ t < T + 2 ^ 32 := ha (T, x) (by
      show (T, x) ∈ pressed o.t b
      rw [hh.last]
      simp)
    have hs : since (clk t) (clk T) > 200 := by
      rw [since_clk_eq t T (by omega) (by omega)]
      omega
    obtain ⟨h1, h2, h3, h4, h5⟩ := switchOff_held hi.linked hh.only hh.button t
    have he : endPress k t b = (switchOff k t b).withRs { b.rs with pause := clk t } := by
      unfold endPress
      rw [if_pos ⟨hh.active, by rw [hh.toggle]; exact hs⟩]
    have hb : Inv False k o.t (max m t) (endPress k t b) := by
      rw [he]
      refine ⟨h1, switchOff_lonely hi.lonely ⟨some x, hh.only⟩ t, .inl ⟨h2, h3, ?_, fun z => z.elim, fun z => z.elim⟩⟩
      show List.Forall₂ Held (pressed o.t (switchOff k t b)) (released o.t (switchOff k t b))
      rw [h4, h5, hh.last]
      exact List.rel_append hh.held (.cons ⟨rfl, hT.1⟩ .nil)
    have hai : (endPress k t b).active = false := by rw [he]; exact h2
    rw [if_neg (by rw [hai]; exact Bool.false_ne_true)] at hc
    have := base _ hb hai hc
    rw [this, he]
    show (pressed o.t (switchOff k t b)).length = _
    rw [h4]

/-- The drive is given the time it needs: between two presses there are more than 700 ms. -/
def KeepsApart : Prop :=
  ∀ F k o h b, Ordered o.t h → run F k (boot o) h = some b → Apart (presses (Level.free o.t) b.log)

/-- It is not, if the press ends at the millisecond at which the clock of 32 bits reads 0. -/
theorem apart_violation : ¬ KeepsApart := by
  intro h
  have := h ⟨.exact, .exact⟩ .two demoBoot [(2 ^ 32 - 310, .action .moveUp), (2 ^ 32 - 300, .pass),
    (2 ^ 32 - 5, .action .stop), (2 ^ 32, .pass)]
  cases hr : run ⟨.exact, .exact⟩ .two (boot demoBoot) [(2 ^ 32 - 310, .action .moveUp), (2 ^ 32 - 300, .pass),
    (2 ^ 32 - 5, .action .stop), (2 ^ 32, .pass)] with
  | none => exact absurd hr (by decide +kernel)
  | some b =>
    have hp : (run ⟨.exact, .exact⟩ .two (boot demoBoot) [(2 ^ 32 - 310, .action .moveUp), (2 ^ 32 - 300, .pass),
        (2 ^ 32 - 5, .action .stop), (2 ^ 32, .pass)]).map (fun b => presses (Level.free 1) b.log) =
        some [(2 ^ 32 - 300, .up), (2 ^ 32, .up)] := by decide +kernel
    rw [hr] at hp
    have ha := this b (by simp [Ordered, demoBoot]) hr
    rw [show presses (Level.free demoBoot.t) b.log = _ from Option.some.inj hp] at ha
    unfold Apart at ha
    have := List.rel_of_pairwise_cons ha (a' := (2 ^ 32, .up)) (by simp)
    revert this
    decide

/-- Otherwise it is. -/
theorem apart_partial (F : Fp) (k : Kind) (o : Shutter.Boot) (h : List (Nat × Op)) (b : Bi)
    (hr : run F k (boot o) h = some b) (ho : Ordered o.t h) (hz : ∀ e ∈ h, clk e.1 ≠ 0) :
    Apart (presses (Level.free o.t) b.log) := by
  obtain ⟨m, hi⟩ := run_inv (Z := True) h (boot_inv True k o) ho (fun _ => hz) hr
  rcases hi.phase with hp | ⟨ps, T, x, hh⟩
  · exact hp.apart trivial
  · exact (hh.apart trivial).1

/-- The demonstration: what is pressed and released, with two and with three buttons. -/
example : (run ⟨.exact, .exact⟩ .two (boot demoBoot) demo).map (fun b =>
      (presses (Level.free 1) b.log, releases (Level.free 1) b.log)) =
    some ([(10, .up), (1000, .up), (1900, .down)], [(220, .up), (1300, .up), (2200, .down)]) := by decide +kernel

example : (run ⟨.exact, .exact⟩ .three (boot demoBoot) demo).map (fun b =>
      (presses (Level.free 1) b.log, releases (Level.free 1) b.log)) =
    some ([(10, .up), (1000, .stop), (1900, .down)], [(220, .up), (1300, .stop), (2200, .down)]) := by decide +kernel

/-! ## C96: the drive does what the program takes it to do -/

/-- In every history: the drive moves as the program takes it to. -/
def Follows (k : Kind) : Prop :=
  ∀ F o h b, Ordered o.t h → run F k (boot o) h = some b →
    k.drive (presses (Level.free o.t) b.log) = motion b.rs.dir

/-- In each timer pass of a history: no calibration begins while the program takes the drive to move. -/
def Unhurried (F : Fp) (k : Kind) : Bi → List (Nat × Op) → Prop
  | _, [] => True
  | b, e :: h => (e.2 = .pass → b.rs.dir ≠ .stop → begins b.rs = false) ∧
    ∀ c, step F k b e = some c → Unhurried F k c h

theorem drive_snoc (k : Kind) (ps : List (Nat × Btn)) (p : Nat × Btn) :
    k.drive (ps ++ [p]) = k.press (k.drive ps) p.2 := by
  simp [Kind.drive, List.foldl_append]

theorem endPress_same {Z : Prop} {k : Kind} {u n t : Nat} {b : Bi} (h : Inv Z k u n b) :
    pressed u (endPress k t b) = pressed u b ∧ (endPress k t b).rs.dir = b.rs.dir ∧
      begins (endPress k t b).rs = begins b.rs := by
  unfold endPress
  split
  · rename_i hc
    rcases h.phase with hr | ⟨ps, T, x, hh⟩
    · rw [hr.inactive] at hc; cases hc.1
    · exact ⟨(switchOff_held h.linked hh.only hh.button t).2.2.2.1, rfl, rfl⟩
  · exact ⟨rfl, rfl, rfl⟩

theorem step_follows {F : Fp} {k : Kind} {u n : Nat} {b c : Bi} {e : Nat × Op} (hi : Inv False k u n b)
    (hn : n ≤ e.1) (hf : k.drive (pressed u b) = motion b.rs.dir)
    (hu : k = .three ∨ (e.2 = .pass → b.rs.dir ≠ .stop → begins b.rs = false)) (hc : step F k b e = some c) :
    k.drive (pressed u c) = motion c.rs.dir := by
  have hi := hi.later hn
  unfold step at hc
  split at hc
  · rename_i he
    have hs := endPress_same (t := e.1) hi
    have hi' := endPress_inv hi (fun z => z.elim)
    rw [← hs.1, ← hs.2.1] at hf
    rw [← hs.2.1, ← hs.2.2] at hu
    unfold onTimer at hc
    generalize endPress k e.1 b = d at *
    split at hc
    · injection hc with hc; subst hc; exact hf
    · rename_i ha
      have ha : d.active = false := by simpa using ha
      rcases hi'.phase with hr | ⟨ps, T, x, hh⟩
      · rcases basePass_cases hi'.linked ha hr.free hc with ⟨hq, hd, _⟩ | ⟨_, x, hq, _, hm⟩
        · rw [hq.2.2.2.1, hd]; exact hf
        · rw [hq.2.2.2.2.1, drive_snoc, hf]
          rcases hm with hm | ⟨hk, hb, hd⟩
          · exact hm.symm
          · rcases hu with hu | hu
            · rw [hk] at hu; cases hu
            · rw [hu he hd] at hb; cases hb
      · rw [hh.active] at ha; cases ha
  · rename_i he
    cases ho : other F k b.rs e with
    | none => rw [ho] at hc; cases hc
    | some r =>
      rw [ho] at hc
      injection hc with hc
      subst hc
      show k.drive (pressed u b) = motion r.dir
      rw [(other_keeps he ho).1]
      exact hf

theorem run_follows {F : Fp} {k : Kind} {u : Nat} (h : List (Nat × Op)) : ∀ {n : Nat} {b c : Bi}, Inv False k u n b →
    Ordered n h → k.drive (pressed u b) = motion b.rs.dir → (k = .three ∨ Unhurried F k b h) →
    run F k b h = some c → k.drive (pressed u c) = motion c.rs.dir := by
  induction h with
  | nil => intro n b c _ _ hf _ hr; injection hr with hr; subst hr; exact hf
  | cons e h ih =>
    intro n b c hi ho hf hu hr
    unfold run at hr
    cases hs : step F k b e with
    | none => rw [hs] at hr; cases hr
    | some d =>
      rw [hs] at hr
      refine ih (step_inv hi ho.1 (fun z => z.elim) hs) ho.2 (step_follows hi ho.1 hf ?_ hs) ?_ hr
      · rcases hu with hu | hu
        · exact .inl hu
        · exact .inr hu.1
      · rcases hu with hu | hu
        · exact .inl hu
        · exact .inr (hu.2 d hs)

/-- With three buttons the drive always moves as the program takes it to. -/
theorem follows_three : Follows .three := fun _ o h _ ho hr =>
  run_follows h (boot_inv False .three o) ho rfl (.inl rfl) hr

/-- With two buttons it does not: a calibration asked for while the shutter opens presses "up" again, which stops the
drive, and the program takes it to open. -/
theorem follows_two_violation : ¬ Follows .two := by
  intro h
  have := h ⟨.exact, .exact⟩ demoBoot [(5, .action .moveUp), (10, .pass), (300, .pass), (400, .recalibrate), (900, .pass)]
  cases hr : run ⟨.exact, .exact⟩ .two (boot demoBoot)
    [(5, .action .moveUp), (10, .pass), (300, .pass), (400, .recalibrate), (900, .pass)] with
  | none => exact absurd hr (by decide +kernel)
  | some b =>
    have hp : (run ⟨.exact, .exact⟩ .two (boot demoBoot)
        [(5, .action .moveUp), (10, .pass), (300, .pass), (400, .recalibrate), (900, .pass)]).map
        (fun b => (Kind.two.drive (presses (Level.free 1) b.log), motion b.rs.dir)) = some (.still, .rising) := by
      decide +kernel
    rw [hr] at hp
    have hp := Option.some.inj hp
    have hf := this b (by simp [Ordered, demoBoot]) hr
    have h1 : Kind.two.drive (presses (Level.free 1) b.log) = .still := congrArg Prod.fst hp
    have h2 : motion b.rs.dir = .rising := congrArg Prod.snd hp
    rw [show demoBoot.t = 1 from rfl, h1, h2] at hf
    cases hf

/-- With two buttons it does if no calibration begins while the shutter moves. -/
theorem follows_two_partial (F : Fp) (o : Shutter.Boot) (h : List (Nat × Op)) (b : Bi) (ho : Ordered o.t h)
    (hu : Unhurried F .two (boot o) h) (hr : run F .two (boot o) h = some b) :
    Kind.two.drive (presses (Level.free o.t) b.log) = motion b.rs.dir :=
  run_follows h (boot_inv False .two o) ho rfl (.inr hu) hr

/-- The drive is still when the program takes the movement to be over. -/
def RestsWhenStopped : Prop :=
  ∀ F o h b, Ordered o.t h → run F .two (boot o) h = some b → b.rs.dir = .stop →
    Kind.two.drive (presses (Level.free o.t) b.log) = .still

/-- It is not: at the end of such a calibration the program presses "up" to stop the drive, which starts it; the
program then takes the shutter to be still and open. -/
theorem rests_violation : ¬ RestsWhenStopped := by
  intro h
  have key : (run ⟨.exact, .exact⟩ .two (boot demoBoot) [(5, .action .moveUp), (10, .pass), (300, .pass),
      (400, .recalibrate), (900, .pass), (1200, .pass), (13000, .pass)]).map
      (fun b => (Kind.two.drive (presses (Level.free 1) b.log), b.rs.dir, b.rs.pos, b.rs.calibrated)) =
      some (.rising, .stop, 0, true) := by decide +kernel
  cases hr : run ⟨.exact, .exact⟩ .two (boot demoBoot) [(5, .action .moveUp), (10, .pass), (300, .pass),
      (400, .recalibrate), (900, .pass), (1200, .pass), (13000, .pass)] with
  | none => rw [hr] at key; cases key
  | some b =>
    rw [hr] at key
    have key := Option.some.inj key
    have h1 := h ⟨.exact, .exact⟩ demoBoot _ b (by simp [Ordered, demoBoot]) hr
      (congrArg (fun p => p.2.1) key)
    have h2 : Kind.two.drive (presses (Level.free 1) b.log) = .rising := congrArg Prod.fst key
    rw [show demoBoot.t = 1 from rfl, h2] at h1
    cases h1

/-- After a restart in the middle of a movement the program takes the drive to be still, and the next "up" stops it:
the presses before and after the restart, put together. -/
theorem restart_violation : ∃ o h b o' h' b', run ⟨.exact, .exact⟩ .two (boot o) h = some b ∧
    run ⟨.exact, .exact⟩ .two (boot o') h' = some b' ∧ o.t ≤ o'.t ∧ b.active = false ∧
    motion b'.rs.dir = .rising ∧
    Kind.two.drive (presses (Level.free o.t) b.log ++ presses (Level.free o'.t) b'.log) = .still := by
  have h1 : (run ⟨.exact, .exact⟩ .two (boot demoBoot) [(5, .action .moveUp), (10, .pass), (300, .pass)]).map
      (fun b => (presses (Level.free 1) b.log, b.active)) = some ([(10, .up)], false) := by decide +kernel
  have h2 : (run ⟨.exact, .exact⟩ .two (boot { demoBoot with t := 1000 }) [(1005, .action .moveUp), (1010, .pass)]).map
      (fun b => (presses (Level.free 1000) b.log, motion b.rs.dir)) = some ([(1010, .up)], .rising) := by decide +kernel
  cases hr1 : run ⟨.exact, .exact⟩ .two (boot demoBoot) [(5, .action .moveUp), (10, .pass), (300, .pass)] with
  | none => rw [hr1] at h1; cases h1
  | some b =>
    cases hr2 : run ⟨.exact, .exact⟩ .two (boot { demoBoot with t := 1000 }) [(1005, .action .moveUp), (1010, .pass)] with
    | none => rw [hr2] at h2; cases h2
    | some b' =>
      rw [hr1] at h1
      rw [hr2] at h2
      have h1 := Option.some.inj h1
      have h2 := Option.some.inj h2
      refine ⟨_, _, b, _, _, b', hr1, hr2, by decide, congrArg Prod.snd h1, congrArg Prod.snd h2, ?_⟩
      have e1 : presses (Level.free 1) b.log = [(10, .up)] := congrArg Prod.fst h1
      have e2 : presses (Level.free 1000) b'.log = [(1010, .up)] := congrArg Prod.fst h2
      show Kind.two.drive (presses (Level.free 1) b.log ++ presses (Level.free 1000) b'.log) = .still
      rw [e1, e2]
      rfl

/-! ## C96: a motor that is mounted upside down -/

/-- The first button that is pressed after "move up": "down" if the motor is set to be upside down. -/
def Reversible (k : Kind) : Prop :=
  ∀ F o t b, o.motor = 2 → o.t ≤ t → run F k (boot o) [(t, .action .moveUp), (t, .pass)] = some b →
    presses (Level.free o.t) b.log = [(t, .down)]

/-- The setting has no effect, while it has one on a roller shutter with plain relays. -/
theorem reversible_violation (k : Kind) : ¬ Reversible k := by
  intro h
  have key : (run ⟨.exact, .exact⟩ k (boot { demoBoot with motor := 2 }) [(10, .action .moveUp), (10, .pass)]).map
      (fun b => presses (Level.free 1) b.log) = some [(10, .up)] := by cases k <;> decide +kernel
  cases hr : run ⟨.exact, .exact⟩ k (boot { demoBoot with motor := 2 }) [(10, .action .moveUp), (10, .pass)] with
  | none => rw [hr] at key; cases key
  | some b =>
    rw [hr] at key
    have h1 := h ⟨.exact, .exact⟩ { demoBoot with motor := 2 } 10 b rfl (by decide) hr
    have h2 : presses (Level.free 1) b.log = [(10, .up)] := Option.some.inj key
    rw [show ({ demoBoot with motor := 2 } : Shutter.Boot).t = 1 from rfl, h2] at h1
    revert h1
    decide

example : (Shutter.run ⟨.exact, .exact⟩ (Shutter.boot { demoBoot with motor := 2 })
    [(10, .action .moveUp), (10, .pass)]).map (fun s => (s.upOn, s.downOn)) = some (false, true) := by decide +kernel

end Verif.Pulse
