import Verif.Shutter.Accuracy
import Verif.Shutter.PhysSpec
/-!
# C114: the position shown is the position of the shutter

The invariant `Good` says how the shutter and the state of the program are related; it is kept by time passing, by each stage
of a timer pass, and by commands.
-/

namespace Verif.Shutter

/-! ## The shutter -/

theorem opensTo_zero (o : Nat) {x : Rat} (h : 0 ≤ x) : opensTo o x 0 = x := by
  unfold opensTo
  simp [h]

theorem closesTo_zero (o : Nat) {x : Rat} (h : x ≤ 100) : closesTo o x 0 = x := by
  unfold closesTo
  simp [h]

theorem opensTo_add (o : Nat) (x : Rat) (a b : Nat) : max 0 (opensTo o x a - 100 * b / o) = opensTo o x (a + b) := by
  unfold opensTo
  have hb : (0 : Rat) ≤ 100 * b / o := by positivity
  have e : x - 100 * ((a + b : Nat) : Rat) / o = x - 100 * a / o - 100 * b / o := by push_cast; ring
  rw [e]
  rcases le_total 0 (x - 100 * a / o) with h | h
  · rw [max_eq_right h]
  · rw [max_eq_left h, max_eq_left (by linarith), max_eq_left (by linarith)]

theorem closesTo_add (o : Nat) (x : Rat) (a b : Nat) : min 100 (closesTo o x a + 100 * b / o) = closesTo o x (a + b) := by
  unfold closesTo
  have hb : (0 : Rat) ≤ 100 * b / o := by positivity
  have e : x + 100 * ((a + b : Nat) : Rat) / o = x + 100 * a / o + 100 * b / o := by push_cast; ring
  rw [e]
  rcases le_total (x + 100 * a / o) 100 with h | h
  · rw [min_eq_right h]
  · rw [min_eq_left h, min_eq_left (by linarith), min_eq_left (by linarith)]

theorem opensTo_range (o : Nat) {x : Rat} (h0 : 0 ≤ x) (a : Nat) : 0 ≤ opensTo o x a ∧ opensTo o x a ≤ x := by
  unfold opensTo
  have hb : (0 : Rat) ≤ 100 * a / o := by positivity
  exact ⟨le_max_left _ _, max_le h0 (by linarith)⟩

theorem closesTo_range (o : Nat) {x : Rat} (h0 : x ≤ 100) (a : Nat) : x ≤ closesTo o x a ∧ closesTo o x a ≤ 100 := by
  unfold closesTo
  have hb : (0 : Rat) ≤ 100 * a / o := by positivity
  exact ⟨le_min h0 (by linarith), min_le_left _ _⟩

/-- Two shutters get no further apart. -/
theorem opensTo_lip (o : Nat) {x y d : Rat} (a : Nat) (h : |x - y| ≤ d) : |opensTo o x a - opensTo o y a| ≤ d := by
  unfold opensTo
  rw [abs_le] at *
  obtain ⟨h1, h2⟩ := h
  rcases le_total 0 (x - 100 * a / o) with p | p <;> rcases le_total 0 (y - 100 * a / o) with q | q <;>
    simp only [max_eq_left, max_eq_right, p, q] <;> constructor <;> linarith

theorem closesTo_lip (o : Nat) {x y d : Rat} (a : Nat) (h : |x - y| ≤ d) : |closesTo o x a - closesTo o y a| ≤ d := by
  unfold closesTo
  rw [abs_le] at *
  obtain ⟨h1, h2⟩ := h
  rcases le_total (x + 100 * a / o) 100 with p | p <;> rcases le_total (y + 100 * a / o) 100 with q | q <;>
    simp only [min_eq_left, min_eq_right, p, q] <;> constructor <;> linarith

/-- How far it gets in a short time. -/
theorem opensTo_lag {o : Nat} {x k : Rat} {a b g : Nat} (hk : 100 / (o : Rat) ≤ k) (hab : a ≤ b) (hg : b ≤ a + g) :
    opensTo o x b ≤ opensTo o x a ∧ opensTo o x a - k * g ≤ opensTo o x b := by
  have h0 : (0 : Rat) ≤ 100 / o := by positivity
  have h1 : (100 : Rat) * a / o ≤ 100 * b / o := by
    have : (a : Rat) ≤ b := by exact_mod_cast hab
    rw [mul_div_right_comm, mul_div_right_comm]
    exact mul_le_mul_of_nonneg_left this h0
  have h2 : (100 : Rat) * b / o ≤ 100 * a / o + k * g := by
    have e : (b : Rat) ≤ a + g := by exact_mod_cast hg
    have f : (100 / o : Rat) * b ≤ (100 / o) * (a + g) := mul_le_mul_of_nonneg_left e h0
    have f2 : (100 / o : Rat) * g ≤ k * g := mul_le_mul_of_nonneg_right hk (by positivity)
    rw [mul_div_right_comm, mul_div_right_comm]
    linarith
  have hkg : 0 ≤ k * g := mul_nonneg (by linarith) (by positivity)
  unfold opensTo
  refine ⟨max_le_max le_rfl (by linarith), ?_⟩
  rcases le_total 0 (x - 100 * a / o) with p | p
  · rw [max_eq_right p]
    exact le_trans (by linarith) (le_max_right _ _)
  · rw [max_eq_left p]
    exact le_trans (by linarith) (le_max_left _ _)

theorem closesTo_lag {o : Nat} {x k : Rat} {a b g : Nat} (hk : 100 / (o : Rat) ≤ k) (hab : a ≤ b) (hg : b ≤ a + g) :
    closesTo o x a ≤ closesTo o x b ∧ closesTo o x b ≤ closesTo o x a + k * g := by
  have h0 : (0 : Rat) ≤ 100 / o := by positivity
  have h1 : (100 : Rat) * a / o ≤ 100 * b / o := by
    have : (a : Rat) ≤ b := by exact_mod_cast hab
    rw [mul_div_right_comm, mul_div_right_comm]
    exact mul_le_mul_of_nonneg_left this h0
  have h2 : (100 : Rat) * b / o ≤ 100 * a / o + k * g := by
    have e : (b : Rat) ≤ a + g := by exact_mod_cast hg
    have f : (100 / o : Rat) * b ≤ (100 / o) * (a + g) := mul_le_mul_of_nonneg_left e h0
    have f2 : (100 / o : Rat) * g ≤ k * g := mul_le_mul_of_nonneg_right hk (by positivity)
    rw [mul_div_right_comm, mul_div_right_comm]
    linarith
  have hkg : 0 ≤ k * g := mul_nonneg (by linarith) (by positivity)
  unfold closesTo
  refine ⟨min_le_min le_rfl (by linarith), ?_⟩
  rcases le_total (x + 100 * a / o) 100 with p | p
  · rw [min_eq_right p]
    exact le_trans (min_le_right _ _) (by linarith)
  · rw [min_eq_left p]
    exact le_trans (min_le_left _ _) (by linarith)

/-- A fit installation: it takes some time to open and close, and the clock is not too short. -/
def Rig.Real (R : Rig) : Prop :=
  0 < R.opening ∧ 0 < R.closing ∧ R.opening + R.gap < 2 ^ 32 ∧ R.closing + R.gap < 2 ^ 32

theorem Rig.speed_open {R : Rig} (h : R.Real) : 100 / (R.opening : Rat) ≤ R.speed := by
  unfold Rig.speed
  have h1 : 0 < min R.opening R.closing := by have := h.1; have := h.2.1; omega
  exact div_le_div_of_nonneg_left (by norm_num) (by exact_mod_cast h1) (by exact_mod_cast Nat.min_le_left _ _)

theorem Rig.speed_close {R : Rig} (h : R.Real) : 100 / (R.closing : Rat) ≤ R.speed := by
  unfold Rig.speed
  have h1 : 0 < min R.opening R.closing := by have := h.1; have := h.2.1; omega
  exact div_le_div_of_nonneg_left (by norm_num) (by exact_mod_cast h1) (by exact_mod_cast Nat.min_le_right _ _)

theorem Rig.speed_nonneg (R : Rig) : 0 ≤ R.speed := by unfold Rig.speed; positivity

theorem Rig.unsure_pos (R : Rig) : 0 < R.unsure := by
  have := mul_nonneg R.speed_nonneg (show (0 : Rat) ≤ R.gap + 1 by positivity)
  unfold Rig.unsure
  linarith

/-! ## The invariant -/

/-- While opening. `v` is the last pass that computed the position, `u` the time. -/
structure Opening (R : Rig) (n v u : Nat) (s : RS) (x : Rat) : Prop where
  outs : R.opens s = true
  on : s.off = false
  pause : s.pause = 0
  some : 1 ≤ n
  near : (s.pos = 0 ∧ x ≤ n * R.unsure) ∨ ∃ (τ : Nat) (x0 : Rat), s.started = clk τ ∧ τ ≤ v ∧ v ≤ u ∧ u ≤ v + R.gap ∧
    v ≤ τ + R.opening ∧ 0 ≤ s.startPos ∧ s.startPos ≤ 100 ∧ |(s.startPos : Rat) - x0| ≤ (n - 1) * R.unsure ∧
    x = opensTo R.opening x0 (u - τ) ∧
    opensTo R.opening s.startPos (v - τ) - (1 + R.speed + 1 / 500) ≤ s.pos ∧
    (s.pos : Rat) ≤ opensTo R.opening s.startPos (v - τ) + 1 / 500

/-- While closing. -/
structure Closing (R : Rig) (n v u : Nat) (s : RS) (x : Rat) : Prop where
  outs : R.closes s = true
  on : s.off = false
  pause : s.pause = 0
  some : 1 ≤ n
  near : (s.pos = 100 ∧ 100 - x ≤ n * R.unsure) ∨ ∃ (τ : Nat) (x0 : Rat), s.started = clk τ ∧ τ ≤ v ∧ v ≤ u ∧ u ≤ v + R.gap ∧
    v ≤ τ + R.closing ∧ 0 ≤ s.startPos ∧ s.startPos ≤ 100 ∧ |(s.startPos : Rat) - x0| ≤ (n - 1) * R.unsure ∧
    x = closesTo R.closing x0 (u - τ) ∧
    closesTo R.closing s.startPos (v - τ) - (1 + 1 / 500) ≤ s.pos ∧
    (s.pos : Rat) ≤ closesTo R.closing s.startPos (v - τ) + (R.speed + 1 / 500)

/-- With no command waiting and a position wanted: it is there, or on the way. -/
structure Aim (R : Rig) (s : RS) : Prop where
  stop : s.newTarget = false → 0 ≤ s.target → s.dir = .stop → |(s.pos : Rat) - s.target| ≤ R.late
  up : s.newTarget = false → 0 ≤ s.target → s.dir = .up → s.target < s.pos ∨ (s.target = 0 ∧ s.pos = 0)
  down : s.newTarget = false → 0 ≤ s.target → s.dir = .down → s.pos < s.target ∨ (s.target = 100 ∧ s.pos = 100)

/-- What does not change. -/
structure Set (R : Rig) (s : RS) : Prop where
  opening : s.opening = R.opening
  closing : s.closing = R.closing
  calibrate : s.calibrate = false
  motor : s.motor = 2 ↔ R.swapped = true
  low : 0 ≤ s.pos
  high : s.pos ≤ 100

/-- The shutter and the state of the program. -/
structure Good (R : Rig) (n v u : Nat) (s : RS) (x : Rat) : Prop where
  set : Set R s
  aim : Aim R s
  x0 : 0 ≤ x
  x1 : x ≤ 100
  stop : s.dir = .stop → s.off = true ∧ |(s.pos : Rat) - x| ≤ n * R.unsure
  up : s.dir = .up → Opening R n v u s x
  down : s.dir = .down → Closing R n v u s x

theorem open_near {R : Rig} (hR : R.Real) {n v u τ : Nat} {p a : Rat} {x x0 : Rat} (h2 : τ ≤ v) (h3 : v ≤ u)
    (h4 : u ≤ v + R.gap) (h8 : |a - x0| ≤ (n - 1) * R.unsure) (h9 : x = opensTo R.opening x0 (u - τ))
    (h10 : opensTo R.opening a (v - τ) - (1 + R.speed + 1 / 500) ≤ p) (h11 : p ≤ opensTo R.opening a (v - τ) + 1 / 500) :
    |p - x| ≤ n * R.unsure := by
  have l1 := opensTo_lip R.opening (v - τ) h8
  have l2 := opensTo_lag (x := x0) (a := v - τ) (b := u - τ) (g := R.gap) (Rig.speed_open hR) (by omega) (by omega)
  rw [← h9] at l2
  have e : (n : Rat) * R.unsure = (n - 1) * R.unsure + R.unsure := by ring
  rw [e]
  generalize ((n : Rat) - 1) * R.unsure = m at *
  unfold Rig.unsure
  rw [abs_le] at *
  generalize opensTo R.opening a (v - τ) = y at *
  generalize opensTo R.opening x0 (v - τ) = z at *
  have := R.speed_nonneg
  constructor <;> linarith [l1.1, l1.2, l2.1, l2.2]

theorem close_near {R : Rig} (hR : R.Real) {n v u τ : Nat} {p a : Rat} {x x0 : Rat} (h2 : τ ≤ v) (h3 : v ≤ u)
    (h4 : u ≤ v + R.gap) (h8 : |a - x0| ≤ (n - 1) * R.unsure) (h9 : x = closesTo R.closing x0 (u - τ))
    (h10 : closesTo R.closing a (v - τ) - (1 + 1 / 500) ≤ p) (h11 : p ≤ closesTo R.closing a (v - τ) + (R.speed + 1 / 500)) :
    |p - x| ≤ n * R.unsure := by
  have l1 := closesTo_lip R.closing (v - τ) h8
  have l2 := closesTo_lag (x := x0) (a := v - τ) (b := u - τ) (g := R.gap) (Rig.speed_close hR) (by omega) (by omega)
  rw [← h9] at l2
  have e : (n : Rat) * R.unsure = (n - 1) * R.unsure + R.unsure := by ring
  rw [e]
  generalize ((n : Rat) - 1) * R.unsure = m at *
  unfold Rig.unsure
  rw [abs_le] at *
  generalize closesTo R.closing a (v - τ) = y at *
  generalize closesTo R.closing x0 (v - τ) = z at *
  have := R.speed_nonneg
  constructor <;> linarith [l1.1, l1.2, l2.1, l2.2]

theorem Opening.err {R : Rig} (hR : R.Real) {n v u : Nat} {s : RS} {x : Rat} (h : Opening R n v u s x) (hx : 0 ≤ x) :
    |(s.pos : Rat) - x| ≤ n * R.unsure := by
  rcases h.near with ⟨h1, h2⟩ | ⟨τ, x0, _, h2, h3, h4, _, _, _, h8, h9, h10, h11⟩
  · rw [h1]
    have : ((0 : Int) : Rat) - x = -x := by simp
    rw [this, abs_neg, abs_of_nonneg hx]
    exact h2
  · exact open_near hR h2 h3 h4 h8 h9 h10 h11

theorem Closing.err {R : Rig} (hR : R.Real) {n v u : Nat} {s : RS} {x : Rat} (h : Closing R n v u s x) (hx : x ≤ 100) :
    |(s.pos : Rat) - x| ≤ n * R.unsure := by
  rcases h.near with ⟨h1, h2⟩ | ⟨τ, x0, _, h2, h3, h4, _, _, _, h8, h9, h10, h11⟩
  · rw [h1]
    have : ((100 : Int) : Rat) - x = 100 - x := rfl
    rw [this, abs_of_nonneg (by linarith)]
    exact h2
  · exact close_near hR h2 h3 h4 h8 h9 h10 h11

theorem Good.err {R : Rig} (hR : R.Real) {n v u : Nat} {s : RS} {x : Rat} (h : Good R n v u s x) :
    |(s.pos : Rat) - x| ≤ n * R.unsure := by
  cases hd : s.dir with
  | stop => exact (h.stop hd).2
  | up => exact (h.up hd).err hR h.x0
  | down => exact (h.down hd).err hR h.x1

/-! ## Time passes -/

theorem off_still {R : Rig} {s : RS} (h : s.off = true) : R.opens s = false ∧ R.closes s = false := by
  unfold RS.off at h
  unfold Rig.opens Rig.closes
  cases hu : s.upOn <;> cases hd : s.downOn <;> simp [hu, hd] at h ⊢

theorem opens_not {R : Rig} {s : RS} (h : R.closes s = true) : R.opens s = false := by
  unfold Rig.closes at h
  unfold Rig.opens
  cases hu : s.upOn <;> cases hd : s.downOn <;> cases hs : R.swapped <;> simp [hu, hd, hs] at h ⊢

theorem Good.advance {R : Rig} {n v u t : Nat} {s : RS} {x : Rat} (h : Good R n v u s x) (hu : u ≤ t) (ht : t ≤ v + R.gap) :
    Good R n v t s (R.shift s x (t - u)) := by
  cases hd : s.dir with
  | stop =>
    obtain ⟨h1, h2⟩ := h.stop hd
    have hs : R.shift s x (t - u) = x := by
      unfold Rig.shift
      rw [(off_still h1).1, (off_still h1).2]
      rfl
    rw [hs]
    exact ⟨h.set, h.aim, h.x0, h.x1, fun _ => ⟨h1, h2⟩, fun e => (by rw [hd] at e; cases e), fun e => (by rw [hd] at e; cases e)⟩
  | up =>
    have o := h.up hd
    have hs : R.shift s x (t - u) = max 0 (x - 100 * ((t - u : Nat) : Rat) / R.opening) := by
      unfold Rig.shift
      rw [o.outs]
      rfl
    have hb : (0 : Rat) ≤ 100 * ((t - u : Nat) : Rat) / R.opening := by positivity
    have hle : R.shift s x (t - u) ≤ x := by rw [hs]; exact max_le h.x0 (by linarith)
    refine ⟨h.set, h.aim, by rw [hs]; exact le_max_left _ _, le_trans hle h.x1, fun e => (by rw [hd] at e; cases e), fun _ => ?_,
      fun e => (by rw [hd] at e; cases e)⟩
    refine ⟨o.outs, o.on, o.pause, o.some, ?_⟩
    rcases o.near with ⟨h1, h2⟩ | ⟨τ, x0, h1, h2, h3, h4, h5, h6, h7, h8, h9, h10, h11⟩
    · exact .inl ⟨h1, le_trans hle h2⟩
    · refine .inr ⟨τ, x0, h1, h2, by omega, ht, h5, h6, h7, h8, ?_, h10, h11⟩
      rw [hs, h9, opensTo_add]
      congr 1
      omega
  | down =>
    have o := h.down hd
    have hs : R.shift s x (t - u) = min 100 (x + 100 * ((t - u : Nat) : Rat) / R.closing) := by
      unfold Rig.shift
      rw [opens_not o.outs, o.outs]
      rfl
    have hb : (0 : Rat) ≤ 100 * ((t - u : Nat) : Rat) / R.closing := by positivity
    have hle : x ≤ R.shift s x (t - u) := by rw [hs]; exact le_min h.x1 (by linarith)
    refine ⟨h.set, h.aim, le_trans h.x0 hle, by rw [hs]; exact min_le_left _ _, fun e => (by rw [hd] at e; cases e),
      fun e => (by rw [hd] at e; cases e), fun _ => ?_⟩
    refine ⟨o.outs, o.on, o.pause, o.some, ?_⟩
    rcases o.near with ⟨h1, h2⟩ | ⟨τ, x0, h1, h2, h3, h4, h5, h6, h7, h8, h9, h10, h11⟩
    · exact .inl ⟨h1, by linarith⟩
    · refine .inr ⟨τ, x0, h1, h2, by omega, ht, h5, h6, h7, h8, ?_, h10, h11⟩
      rw [hs, h9, closesTo_add]
      congr 1
      omega

/-! ## The stages -/

/-- `Good` depends only on these, and the command may be a new one. -/
theorem Good.congr {R : Rig} {n v u : Nat} {s s' : RS} {x : Rat} (h : Good R n v u s x)
    (e1 : s'.dir = s.dir) (e2 : s'.pos = s.pos) (e3 : s'.startPos = s.startPos) (e4 : s'.started = s.started)
    (e5 : s'.upOn = s.upOn) (e6 : s'.downOn = s.downOn) (e7 : s'.pause = s.pause ∨ s'.pause = 0) (e8 : s'.opening = s.opening)
    (e9 : s'.closing = s.closing) (e10 : s'.calibrate = s.calibrate) (e11 : s'.motor = s.motor) (ha : Aim R s') :
    Good R n v u s' x := by
  have eo : s'.off = s.off := by unfold RS.off; rw [e5, e6]
  have e1' : R.opens s' = R.opens s := by unfold Rig.opens; rw [e5, e6]
  have e2' : R.closes s' = R.closes s := by unfold Rig.closes; rw [e5, e6]
  refine ⟨⟨by rw [e8]; exact h.set.opening, by rw [e9]; exact h.set.closing, by rw [e10]; exact h.set.calibrate,
    by rw [e11]; exact h.set.motor, by rw [e2]; exact h.set.low, by rw [e2]; exact h.set.high⟩, ha, h.x0, h.x1, ?_, ?_, ?_⟩
  · rw [e1, eo, e2]; exact h.stop
  · rw [e1]
    intro hd
    have o := h.up hd
    refine ⟨by rw [e1']; exact o.outs, by rw [eo]; exact o.on, ?_, o.some, by rw [e2, e3, e4]; exact o.near⟩
    rcases e7 with e | e
    · rw [e]; exact o.pause
    · exact e
  · rw [e1]
    intro hd
    have o := h.down hd
    refine ⟨by rw [e2']; exact o.outs, by rw [eo]; exact o.on, ?_, o.some, by rw [e2, e3, e4]; exact o.near⟩
    rcases e7 with e | e
    · rw [e]; exact o.pause
    · exact e

/-- No position is wanted. -/
theorem Aim.none {R : Rig} {s : RS} (h : s.newTarget = false → s.target < 0) : Aim R s :=
  ⟨fun a b => absurd (h a) (by omega), fun a b => absurd (h a) (by omega), fun a b => absurd (h a) (by omega)⟩

/-- The motor stops. -/
theorem Good.halt {R : Rig} (hR : R.Real) {n v u t : Nat} {s : RS} {x : Rat} (h : Good R n v u s x) (v' : Nat) {s' : RS}
    (e1 : s'.dir = .stop) (e2 : s'.pos = s.pos) (e5 : s'.upOn = false) (e6 : s'.downOn = false) (e8 : s'.opening = s.opening)
    (e9 : s'.closing = s.closing) (e10 : s'.calibrate = s.calibrate) (e11 : s'.motor = s.motor) (ha : Aim R s') :
    Good R n v' t s' x := by
  refine ⟨⟨by rw [e8]; exact h.set.opening, by rw [e9]; exact h.set.closing, by rw [e10]; exact h.set.calibrate,
    by rw [e11]; exact h.set.motor, by rw [e2]; exact h.set.low, by rw [e2]; exact h.set.high⟩, ha, h.x0, h.x1, fun _ => ?_,
    fun e => (by rw [e1] at e; cases e), fun e => (by rw [e1] at e; cases e)⟩
  refine ⟨by unfold RS.off; rw [e5, e6]; rfl, ?_⟩
  rw [e2]
  exact h.err hR

theorem Good.stopStage {R : Rig} (hR : R.Real) {n v t : Nat} {s : RS} {x : Rat} (h : Good R n v t s x) :
    Good R n v t (stopStage t { s with pause := 0 }) x := by
  unfold Shutter.stopStage
  split
  · rename_i ht
    split
    · obtain ⟨l, e⟩ := stopMovement_eq t { s with pause := 0 }
      rw [e]
      refine h.halt hR v rfl rfl rfl rfl rfl rfl rfl rfl (Aim.none fun _ => ?_)
      show s.target < 0
      have : s.target = stopPos := ht
      rw [this]; decide
    · refine h.congr rfl rfl rfl rfl rfl rfl (.inr rfl) rfl rfl rfl rfl (Aim.none fun _ => ?_)
      show s.target < 0
      have : s.target = stopPos := ht
      rw [this]; decide
  · exact h.congr rfl rfl rfl rfl rfl rfl (.inr rfl) rfl rfl rfl rfl ⟨h.aim.stop, h.aim.up, h.aim.down⟩

theorem Good.timeoutStage {R : Rig} {n v t : Nat} {s : RS} {x : Rat} (h : Good R n v t s x) :
    Good R n v t (timeoutStage t s) x := by
  unfold Shutter.timeoutStage
  split
  · exact h.congr rfl rfl rfl rfl rfl rfl (.inl rfl) rfl rfl rfl rfl (Aim.none fun e => (by cases e))
  · exact h

/-- While the motor is off it does not matter when the last pass was. -/
theorem Good.anyv {R : Rig} {n v u : Nat} {s : RS} {x : Rat} (h : Good R n v u s x) (hd : s.dir = .stop) (v' u' : Nat) :
    Good R n v' u' s x :=
  ⟨h.set, h.aim, h.x0, h.x1, h.stop, fun e => (by rw [hd] at e; cases e), fun e => (by rw [hd] at e; cases e)⟩

theorem Good.moveUp {F : Fp} (hF : F.Close) {R : Rig} (hR : R.Real) {n v t : Nat} {s s' : RS} {x : Rat} (h : Good R n v t s x)
    (hd : s.dir = .up) (hn : s.newTarget = false) (hp : 0 < s.pos) (hs : moveUpStage F t s = some s') :
    Good R n t t s' x ∧ (s'.dir = .stop → s'.off = true) := by
  obtain ⟨p, hpos, hcase⟩ := moveUpStage_cases hs
  have o := h.up hd
  rcases o.near with ⟨h1, h2⟩ | ⟨τ, x0, h1, h2, h3, h4, h5, h6, h7, h8, h9, h10, h11⟩
  · omega
  have hsince : since (clk t) s.started = t - τ := by
    rw [h1]
    exact since_clk_eq t τ (by omega) (by have := hR.2.2.1; omega)
  rw [hsince, h.set.opening] at hpos
  have hr := posUp_range h6 h7 hpos
  have hc := posUp_close hF hR.1 h6 h7 hpos
  have hsp := R.speed_open hR
  have hA : opensTo R.opening s.startPos (t - τ) - (1 + R.speed + 1 / 500) ≤ (p : Rat) := by
    have := hc.1
    linarith
  have hB := hc.2
  have herr : |(p : Rat) - x| ≤ n * R.unsure := open_near hR (v := t) (by omega) (Nat.le_refl _) (by omega) h8 h9 hA hB
  have hset : (setPosition p s).pos = p := setPosition_pos hr.1 (by omega)
  have hSet : ∀ q : RS, q.pos = p → q.opening = s.opening → q.closing = s.closing → q.calibrate = false → q.motor = s.motor →
      Set R q := by
    intro q e1 e2 e3 e4 e5
    exact ⟨by rw [e2]; exact h.set.opening, by rw [e3]; exact h.set.closing, e4, by rw [e5]; exact h.set.motor,
      by rw [e1]; exact hr.1, by rw [e1]; omega⟩
  rcases hcase with ⟨hno, rfl⟩ | ⟨c1, c2, m, _, rfl⟩ | ⟨c1, c2, c3, rfl⟩
  · rw [hset] at hno
    refine ⟨⟨hSet _ hset rfl rfl rfl rfl, ⟨fun _ _ e => ?_, fun _ ht _ => ?_, fun _ _ e => ?_⟩, h.x0, h.x1, fun e => ?_, fun _ => ?_,
      fun e => ?_⟩, fun e => ?_⟩
    · rw [show (setPosition p s).dir = s.dir from rfl, hd] at e; cases e
    · left
      rw [hset]
      rw [show (setPosition p s).target = s.target from rfl] at *
      omega
    · rw [show (setPosition p s).dir = s.dir from rfl, hd] at e; cases e
    · rw [show (setPosition p s).dir = s.dir from rfl, hd] at e; cases e
    · refine ⟨o.outs, o.on, o.pause, o.some, ?_⟩
      by_cases hp0 : p = 0
      · left
        refine ⟨by rw [hset, hp0], ?_⟩
        rw [hp0] at herr
        have := (abs_le.mp herr).1
        push_cast at this
        linarith
      · right
        refine ⟨τ, x0, h1, by omega, Nat.le_refl _, by omega, ?_, h6, h7, h8, h9, by rw [hset]; exact hA, by rw [hset]; exact hB⟩
        by_contra hlate
        refine hp0 (posUp_done h6 h7 ?_ hpos)
        have : s.startPos.toNat ≤ 100 := by omega
        have := Nat.mul_le_mul_left R.opening this
        omega
    · rw [show (setPosition p s).dir = s.dir from rfl, hd] at e; cases e
    · rw [show (setPosition p s).dir = s.dir from rfl, hd] at e; cases e
  · rw [hset] at c2
    have hp0 : p = 0 := by omega
    have hpz : (setPosition p s).pos = 0 := by rw [hset, hp0]
    refine ⟨⟨hSet _ hset rfl rfl rfl rfl, ⟨fun _ _ e => ?_, fun _ ht _ => .inr ⟨c1, hpz⟩, fun _ _ e => ?_⟩, h.x0, h.x1, fun e => ?_, fun _ => ?_,
      fun e => ?_⟩, fun e => ?_⟩
    · change s.dir = _ at e; rw [hd] at e; cases e
    · change s.dir = _ at e; rw [hd] at e; cases e
    · change s.dir = _ at e; rw [hd] at e; cases e
    · refine ⟨o.outs, o.on, o.pause, o.some, .inl ⟨hpz, ?_⟩⟩
      rw [hp0] at herr
      have := (abs_le.mp herr).1
      push_cast at this
      linarith
    · change s.dir = _ at e; rw [hd] at e; cases e
    · change s.dir = _ at e; rw [hd] at e; cases e
  · rw [hset] at c3
    change 0 ≤ s.target at c1
    change s.target ≠ 0 at c2
    change p ≤ s.target at c3
    obtain ⟨l, e⟩ := stopMovement_eq t (setPosition p s)
    rw [e]
    refine ⟨⟨hSet _ hset rfl rfl rfl rfl, ⟨fun _ ht _ => ?_, fun _ _ e => (by cases e), fun _ _ e => (by cases e)⟩, h.x0, h.x1,
      fun _ => ⟨rfl, ?_⟩, fun e => (by cases e), fun e => (by cases e)⟩, fun _ => rfl⟩
    · show |((setPosition p s).pos : Rat) - ((s.target : Int) : Rat)| ≤ R.late
      rw [hset]
      have hq : s.target + 1 ≤ s.pos := by
        rcases h.aim.up hn c1 hd with h | ⟨h, _⟩
        · omega
        · exact absurd h c2
      have hq' : (s.target : Rat) + 1 ≤ s.pos := by exact_mod_cast hq
      have hp' : (p : Rat) ≤ s.target := by exact_mod_cast c3
      have l := opensTo_lag (x := (s.startPos : Rat)) (a := v - τ) (b := t - τ) (g := R.gap) hsp (by omega) (by omega)
      have := R.speed_nonneg
      unfold Rig.late
      rw [abs_le]
      generalize opensTo R.opening (s.startPos : Rat) (v - τ) = y at *
      generalize opensTo R.opening (s.startPos : Rat) (t - τ) = z at *
      have hg : 0 ≤ R.speed * R.gap := mul_nonneg this (by positivity)
      constructor <;> linarith [l.1, l.2]
    · show |((setPosition p s).pos : Rat) - x| ≤ n * R.unsure
      rw [hset]
      exact herr

theorem Good.moveDown {F : Fp} (hF : F.Close) {R : Rig} (hR : R.Real) {n v t : Nat} {s s' : RS} {x : Rat} (h : Good R n v t s x)
    (hd : s.dir = .down) (hn : s.newTarget = false) (hp : s.pos < 100) (hs : moveDownStage F t s = some s') :
    Good R n t t s' x ∧ (s'.dir = .stop → s'.off = true) := by
  obtain ⟨p, hpos, hcase⟩ := moveDownStage_cases hs
  have o := h.down hd
  rcases o.near with ⟨h1, h2⟩ | ⟨τ, x0, h1, h2, h3, h4, h5, h6, h7, h8, h9, h10, h11⟩
  · omega
  have hsince : since (clk t) s.started = t - τ := by
    rw [h1]
    exact since_clk_eq t τ (by omega) (by have := hR.2.2.2; omega)
  rw [hsince, h.set.closing] at hpos
  have hr := posDown_range h6 h7 hpos
  have hc := posDown_close hF hR.2.1 h6 h7 hpos
  have hsp := R.speed_close hR
  have hA := hc.1
  have hB : (p : Rat) ≤ closesTo R.closing s.startPos (t - τ) + (R.speed + 1 / 500) := by
    have := hc.2
    linarith
  have herr : |(p : Rat) - x| ≤ n * R.unsure := close_near hR (v := t) (by omega) (Nat.le_refl _) (by omega) h8 h9 hA hB
  have hset : (setPosition p s).pos = p := setPosition_pos (by omega) hr.2
  have hSet : ∀ q : RS, q.pos = p → q.opening = s.opening → q.closing = s.closing → q.calibrate = false → q.motor = s.motor →
      Set R q := by
    intro q e1 e2 e3 e4 e5
    exact ⟨by rw [e2]; exact h.set.opening, by rw [e3]; exact h.set.closing, e4, by rw [e5]; exact h.set.motor,
      by rw [e1]; omega, by rw [e1]; exact hr.2⟩
  rcases hcase with ⟨hno, rfl⟩ | ⟨c1, c2, m, _, rfl⟩ | ⟨c1, c2, c3, rfl⟩
  · rw [hset] at hno
    refine ⟨⟨hSet _ hset rfl rfl rfl rfl, ⟨fun _ _ e => ?_, fun _ _ e => ?_, fun _ ht _ => ?_⟩, h.x0, h.x1, fun e => ?_, fun e => ?_,
      fun _ => ?_⟩, fun e => ?_⟩
    · rw [show (setPosition p s).dir = s.dir from rfl, hd] at e; cases e
    · rw [show (setPosition p s).dir = s.dir from rfl, hd] at e; cases e
    · left
      rw [hset]
      rw [show (setPosition p s).target = s.target from rfl] at *
      omega
    · rw [show (setPosition p s).dir = s.dir from rfl, hd] at e; cases e
    · rw [show (setPosition p s).dir = s.dir from rfl, hd] at e; cases e
    · refine ⟨o.outs, o.on, o.pause, o.some, ?_⟩
      by_cases hp0 : p = 100
      · left
        refine ⟨by rw [hset, hp0], ?_⟩
        rw [hp0] at herr
        have := (abs_le.mp herr).2
        push_cast at this
        exact this
      · right
        refine ⟨τ, x0, h1, by omega, Nat.le_refl _, by omega, ?_, h6, h7, h8, h9, by rw [hset]; exact hA, by rw [hset]; exact hB⟩
        by_contra hlate
        refine hp0 (posDown_done h6 h7 ?_ hpos)
        have : (100 - s.startPos).toNat ≤ 100 := by omega
        have := Nat.mul_le_mul_left R.closing this
        omega
    · rw [show (setPosition p s).dir = s.dir from rfl, hd] at e; cases e
  · rw [hset] at c2
    have hp0 : p = 100 := by omega
    have hpz : (setPosition p s).pos = 100 := by rw [hset, hp0]
    refine ⟨⟨hSet _ hset rfl rfl rfl rfl, ⟨fun _ _ e => ?_, fun _ _ e => ?_, fun _ ht _ => .inr ⟨c1, hpz⟩⟩, h.x0, h.x1, fun e => ?_,
      fun e => ?_, fun _ => ?_⟩, fun e => ?_⟩
    · change s.dir = _ at e; rw [hd] at e; cases e
    · change s.dir = _ at e; rw [hd] at e; cases e
    · change s.dir = _ at e; rw [hd] at e; cases e
    · change s.dir = _ at e; rw [hd] at e; cases e
    · refine ⟨o.outs, o.on, o.pause, o.some, .inl ⟨hpz, ?_⟩⟩
      rw [hp0] at herr
      have := (abs_le.mp herr).2
      push_cast at this
      exact this
    · change s.dir = _ at e; rw [hd] at e; cases e
  · rw [hset] at c3
    change 0 ≤ s.target at c1
    change s.target ≠ 100 at c2
    change s.target ≤ p at c3
    obtain ⟨l, e⟩ := stopMovement_eq t (setPosition p s)
    rw [e]
    refine ⟨⟨hSet _ hset rfl rfl rfl rfl, ⟨fun _ ht _ => ?_, fun _ _ e => (by cases e), fun _ _ e => (by cases e)⟩, h.x0, h.x1,
      fun _ => ⟨rfl, ?_⟩, fun e => (by cases e), fun e => (by cases e)⟩, fun _ => rfl⟩
    · show |((setPosition p s).pos : Rat) - ((s.target : Int) : Rat)| ≤ R.late
      rw [hset]
      have hq : s.pos + 1 ≤ s.target := by
        rcases h.aim.down hn c1 hd with h | ⟨h, _⟩
        · omega
        · exact absurd h c2
      have hq' : (s.pos : Rat) + 1 ≤ s.target := by exact_mod_cast hq
      have hp' : (s.target : Rat) ≤ p := by exact_mod_cast c3
      have l := closesTo_lag (x := (s.startPos : Rat)) (a := v - τ) (b := t - τ) (g := R.gap) hsp (by omega) (by omega)
      have := R.speed_nonneg
      unfold Rig.late
      rw [abs_le]
      generalize closesTo R.closing (s.startPos : Rat) (v - τ) = y at *
      generalize closesTo R.closing (s.startPos : Rat) (t - τ) = z at *
      have hg : 0 ≤ R.speed * R.gap := mul_nonneg this (by positivity)
      constructor <;> linarith [l.1, l.2]
    · show |((setPosition p s).pos : Rat) - x| ≤ n * R.unsure
      rw [hset]
      exact herr

/-! ## A new command -/

/-- What the chosen direction says about the command. -/
theorem choose_aim {F : Fp} {s : RS} {c : Dir × Nat} (h : choose F s = some c) (ht : 0 ≤ s.target) :
    (c.1 = .up → s.target < s.pos) ∧ (c.1 = .down → s.pos < s.target) ∧ (c.1 = .stop → s.pos = s.target) := by
  unfold choose at h
  have u1 : s.target ≠ moveUpPos := by unfold moveUpPos; omega
  have u2 : s.target ≠ moveDownPos := by unfold moveDownPos; omega
  rw [if_neg u1, if_neg u2] at h
  split at h
  · have h := Option.some.inj h
    subst h
    exact ⟨fun e => (by cases e), fun _ => (by omega), fun e => (by cases e)⟩
  · split at h
    · have h := Option.some.inj h
      subst h
      exact ⟨fun _ => (by omega), fun e => (by cases e), fun e => (by cases e)⟩
    · have h := Option.some.inj h
      subst h
      exact ⟨fun e => (by cases e), fun e => (by cases e), fun _ => (by omega)⟩

theorem Rig.late_nonneg (R : Rig) : 0 ≤ R.late := by
  have := mul_nonneg R.speed_nonneg (show (0 : Rat) ≤ R.gap + 1 by positivity)
  unfold Rig.late
  linarith

/-- The count of movements and the last pass, after a pass. -/
def nMoves (n : Nat) (s s' : RS) : Nat := if s.off && !s'.off then n + 1 else n

theorem Good.offdir {R : Rig} {n v u : Nat} {s : RS} {x : Rat} (h : Good R n v u s x) : s.off = true ↔ s.dir = .stop := by
  constructor
  · intro ho
    cases hd : s.dir with
    | stop => rfl
    | up => have := (h.up hd).on; rw [ho] at this; cases this
    | down => have := (h.down hd).on; rw [ho] at this; cases this
  · intro hd
    exact (h.stop hd).1

theorem started_near {R : Rig} {n : Nat} {s : RS} {x : Rat} (h2 : |(s.pos : Rat) - x| ≤ n * R.unsure) :
    |(s.pos : Rat) - x| ≤ (((n + 1 : Nat) : Rat) - 1) * R.unsure := by
  push_cast
  rw [add_sub_cancel_right]
  exact h2

theorem Good.redirect {R : Rig} (hR : R.Real) {n v t : Nat} {s : RS} {x : Rat} (h : Good R n v t s x) (d : Dir)
    (hn : s.newTarget = true)
    (ha : 0 ≤ s.target → (d = .up → s.target < s.pos) ∧ (d = .down → s.pos < s.target) ∧ (d = .stop → s.pos = s.target))
    (hpz : s.pause = 0) :
    Good R (nMoves n s (redirect t d s)) (if s.dir = .stop then t else v) t (redirect t d s) x := by
  unfold Shutter.redirect
  have hSet : ∀ q : RS, q.pos = s.pos → q.opening = s.opening → q.closing = s.closing → q.calibrate = s.calibrate →
      q.motor = s.motor → Set R q := by
    intro q e1 e2 e3 e4 e5
    exact ⟨by rw [e2]; exact h.set.opening, by rw [e3]; exact h.set.closing, by rw [e4]; exact h.set.calibrate,
      by rw [e5]; exact h.set.motor, by rw [e1]; exact h.set.low, by rw [e1]; exact h.set.high⟩
  have hk := R.speed_nonneg
  by_cases h1 : d = s.dir
  · rw [if_pos h1]
    have hcount : nMoves n s { s with newTarget := false } = n := by
      unfold nMoves
      have : ({ s with newTarget := false } : RS).off = s.off := rfl
      rw [this]
      cases s.off <;> rfl
    rw [hcount]
    have hg : Good R n v t { s with newTarget := false } x := by
      refine h.congr rfl rfl rfl rfl rfl rfl (.inl rfl) rfl rfl rfl rfl ⟨fun _ ht e => ?_, fun _ ht e => ?_, fun _ ht e => ?_⟩
      · have := (ha ht).2.2 (by rw [h1]; exact e)
        show |(s.pos : Rat) - s.target| ≤ R.late
        rw [this, sub_self, abs_zero]
        exact R.late_nonneg
      · exact .inl ((ha ht).1 (by rw [h1]; exact e))
      · exact .inl ((ha ht).2.1 (by rw [h1]; exact e))
    split
    · rename_i hd
      exact hg.anyv hd t t
    · exact hg
  · rw [if_neg h1]
    by_cases h2 : s.dir = .stop
    · rw [if_pos h2, if_pos h2]
      obtain ⟨hoff, herr⟩ := h.stop h2
      have hm := h.set.motor
      have p0 : (0 : Rat) ≤ s.pos := by exact_mod_cast h.set.low
      have p1 : (s.pos : Rat) ≤ 100 := by exact_mod_cast h.set.high
      by_cases h3 : d = .down
      · rw [if_pos h3]
        have hio := startClosing_io t { s with newTarget := false, startPos := s.pos }
        obtain ⟨a, b, l, e⟩ := startClosing_eq t { s with newTarget := false, startPos := s.pos }
        rw [e] at hio ⊢
        have hb : b = decide (s.motor ≠ 2) := congrArg Io.down hio
        have ha' : a = decide (s.motor = 2) := congrArg Io.up hio
        have hout : (a && !b) = R.swapped ∧ (b && !a) = !R.swapped ∧ (!a && !b) = false := by
          rw [hb, ha']
          cases hs : R.swapped with
          | false =>
            have : ¬ s.motor = 2 := fun e => by have := hm.mp e; rw [hs] at this; cases this
            simp [this]
          | true =>
            have : s.motor = 2 := hm.mpr hs
            simp [this]
        have hcount : nMoves n s ({ s with newTarget := false, startPos := s.pos, dir := .down, started := clk t, upOn := a, downOn := b, log := l } : RS) = n + 1 := by
          unfold nMoves
          rw [hoff, show ({ s with newTarget := false, startPos := s.pos, dir := .down, started := clk t, upOn := a, downOn := b, log := l } : RS).off = (!a && !b) from rfl, hout.2.2]
          rfl
        rw [hcount]
        refine ⟨hSet _ rfl rfl rfl rfl rfl, ⟨fun _ _ e => (by cases e), fun _ _ e => (by cases e), fun _ ht _ => .inl ((ha ht).2.1 h3)⟩,
          h.x0, h.x1, fun e => (by cases e), fun e => (by cases e), fun _ => ⟨?_, hout.2.2, hpz, by omega, .inr ?_⟩⟩
        · show (if R.swapped then a && !b else b && !a) = true
          rw [hout.1, hout.2.1]
          cases R.swapped <;> rfl
        · refine ⟨t, x, rfl, Nat.le_refl _, Nat.le_refl _, by omega, by omega, h.set.low, h.set.high, started_near herr, ?_, ?_, ?_⟩
          · rw [Nat.sub_self, closesTo_zero _ h.x1]
          · show closesTo R.closing (s.pos : Rat) (t - t) - _ ≤ (s.pos : Rat)
            rw [Nat.sub_self, closesTo_zero _ p1]
            linarith
          · show (s.pos : Rat) ≤ closesTo R.closing (s.pos : Rat) (t - t) + _
            rw [Nat.sub_self, closesTo_zero _ p1]
            linarith
      · rw [if_neg h3]
        have h4 : d = .up := by
          cases d with
          | stop => exact absurd h2.symm h1
          | up => rfl
          | down => exact absurd rfl h3
        have hio := startOpening_io t { s with newTarget := false, startPos := s.pos }
        obtain ⟨a, b, l, e⟩ := startOpening_eq t { s with newTarget := false, startPos := s.pos }
        rw [e] at hio ⊢
        have hb : b = decide (s.motor = 2) := congrArg Io.down hio
        have ha' : a = decide (s.motor ≠ 2) := congrArg Io.up hio
        have hout : (b && !a) = R.swapped ∧ (a && !b) = !R.swapped ∧ (!a && !b) = false := by
          rw [hb, ha']
          cases hs : R.swapped with
          | false =>
            have : ¬ s.motor = 2 := fun e => by have := hm.mp e; rw [hs] at this; cases this
            simp [this]
          | true =>
            have : s.motor = 2 := hm.mpr hs
            simp [this]
        have hcount : nMoves n s ({ s with newTarget := false, startPos := s.pos, dir := .up, started := clk t, upOn := a, downOn := b, log := l } : RS) = n + 1 := by
          unfold nMoves
          rw [hoff, show ({ s with newTarget := false, startPos := s.pos, dir := .up, started := clk t, upOn := a, downOn := b, log := l } : RS).off = (!a && !b) from rfl, hout.2.2]
          rfl
        rw [hcount]
        refine ⟨hSet _ rfl rfl rfl rfl rfl, ⟨fun _ _ e => (by cases e), fun _ ht _ => .inl ((ha ht).1 h4), fun _ _ e => (by cases e)⟩,
          h.x0, h.x1, fun e => (by cases e), fun _ => ⟨?_, hout.2.2, hpz, by omega, .inr ?_⟩, fun e => (by cases e)⟩
        · show (if R.swapped then b && !a else a && !b) = true
          rw [hout.1, hout.2.1]
          cases R.swapped <;> rfl
        · refine ⟨t, x, rfl, Nat.le_refl _, Nat.le_refl _, by omega, by omega, h.set.low, h.set.high, started_near herr, ?_, ?_, ?_⟩
          · rw [Nat.sub_self, opensTo_zero _ h.x0]
          · show opensTo R.opening (s.pos : Rat) (t - t) - _ ≤ (s.pos : Rat)
            rw [Nat.sub_self, opensTo_zero _ p0]
            linarith
          · show (s.pos : Rat) ≤ opensTo R.opening (s.pos : Rat) (t - t) + _
            rw [Nat.sub_self, opensTo_zero _ p0]
            linarith
    · rw [if_neg h2, if_neg h2]
      obtain ⟨l, e⟩ := stopMovement_eq t s
      rw [e]
      have hoff : s.off = false := by
        cases ho : s.off with
        | false => rfl
        | true => exact absurd (h.offdir.mp ho) h2
      have hcount : ∀ q : RS, nMoves n s q = n := by
        intro q
        unfold nMoves
        rw [hoff]
        rfl
      rw [hcount]
      exact h.halt hR v rfl rfl rfl rfl rfl rfl rfl rfl (Aim.none fun e => (by
        change s.newTarget = false at e
        rw [hn] at e; cases e))

end Verif.Shutter
