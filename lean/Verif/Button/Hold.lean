import Verif.Button.Clicks
import Verif.Button.Debounce

/-! # C20: hold events -/

namespace Verif.Button

/-- The debounced passes of a waveform. -/
def passesOf (dc : DCfg) : DSt → List Sample → List Pass
  | _, [] => []
  | d, (t, lvl) :: rest => (t, (update dc d t lvl).2) :: passesOf dc (update dc d t lvl).1 rest

/-- Debounced passes make sense: `p` says whether the button is down before them. -/
def Coherent : Bool → List Pass → Prop
  | _, [] => True
  | p, (_, .toPressed) :: rest => p = false ∧ Coherent true rest
  | p, (_, .toReleased) :: rest => p = true ∧ Coherent false rest
  | p, (_, .pressed) :: rest => p = true ∧ Coherent p rest
  | p, (_, .released) :: rest => p = false ∧ Coherent p rest

/-- What `ButtonState` produces is coherent, for every waveform. -/
theorem passesOf_coherent (dc : DCfg) : ∀ (w : List Sample) (d : DSt),
    Coherent (d.prev == valueOnPress dc) (passesOf dc d w) := by
  intro w
  induction w with
  | nil => intro d; exact True.intro
  | cons x rest ih =>
    obtain ⟨t, lvl⟩ := x
    intro d
    have hu := update_case dc d t lvl
    have hi := ih (update dc d t lvl).1
    simp only [passesOf]
    generalize (update dc d t lvl).1 = s' at *
    generalize (update dc d t lvl).2 = r at *
    have stay : ∀ (q : DSt), q.prev = d.prev → Coherent (q.prev == valueOnPress dc) (passesOf dc q rest) →
        Coherent (d.prev == valueOnPress dc) ((t, lastState dc d) :: passesOf dc q rest) := by
      intro q hq hr
      unfold lastState
      rw [hq] at hr
      by_cases h : d.prev = valueOnPress dc
      · rw [if_pos h]; exact ⟨by simp [h], hr⟩
      · rw [if_neg h]; exact ⟨by simp [h], hr⟩
    cases hu with
    | report hd h hc hs =>
      by_cases hl : lvl = valueOnPress dc
      · rw [if_pos hl]
        refine ⟨?_, ?_⟩
        · rw [beq_eq_false_iff_ne]; intro e; exact h (hl.trans e.symm)
        · simpa [hl] using hi
      · rw [if_neg hl]
        refine ⟨?_, ?_⟩
        · revert h hl; generalize d.prev = a; generalize valueOnPress dc = b
          cases a <;> cases b <;> cases lvl <;> decide
        · have e : (lvl == valueOnPress dc) = false := beq_eq_false_iff_ne.mpr hl
          simp only [e] at hi
          exact hi
    | blind => exact stay _ rfl hi
    | candidate => exact stay _ rfl hi
    | wait => exact stay _ rfl hi
    | same => exact stay _ rfl hi

/-- Number of hold events raised while running the passes `l` from state `s`. -/
def holds (c : Cfg) (s : St) (l : List Pass) : Nat :=
  ((runPasses c s l).2.map (·.2)).count .hold

/-- Passes in order of time. -/
def InOrder (l : List Pass) : Prop := l.Pairwise (fun a b => a.1 ≤ b.1)

/-- Does the pass at `t` with debounced state `r`, after `pre`, raise a hold event? -/
def HoldAt (c : Cfg) (pre : List Pass) (t : Nat) (r : Res) : Prop :=
  Ev.hold ∈ (logic c (runPasses c init pre).1 t r).2

instance (c : Cfg) (pre : List Pass) (t : Nat) (r : Res) : Decidable (HoldAt c pre t r) :=
  inferInstanceAs (Decidable (_ ∈ _))

/-- What C20 asks of a hold event: the button is a monostable one, it was pressed at some `tp` and has
been down at every pass since; and if this is the hold event number `k` of this press (counted from
0), more than hold time + k × repeat time have passed since `tp`; without repeat, `k` is 0. -/
def HoldOk (c : Cfg) (pre : List Pass) (t : Nat) (r : Res) : Prop :=
  c.kind = .mono ∧ r = .pressed ∧ ∃ a tp b, pre = a ++ (tp, .toPressed) :: b
    ∧ (∀ p ∈ b, p.2 = .pressed)
    ∧ t - tp > c.holdTime + holds c (runPasses c init (a ++ [(tp, .toPressed)])).1 b * c.rep
    ∧ (c.repOn = false → holds c (runPasses c init (a ++ [(tp, .toPressed)])).1 b = 0)

/-- C20 in full (with the repeat claim in its robust form, see `repeat_spacing_violation`). -/
def HoldSound : Prop :=
  ∀ (c : Cfg) (pre : List Pass) (t : Nat) (r : Res), c.holdTime < 2 ^ 16 → c.rep < 2 ^ 16 →
    Coherent false (pre ++ [(t, r)]) → InOrder (pre ++ [(t, r)]) → HoldAt c pre t r →
    HoldOk c pre t r

/-! ## Counting lemmas -/

theorem holds_append (c : Cfg) (s : St) (a b : List Pass) :
    holds c s (a ++ b) = holds c s a + holds c (runPasses c s a).1 b := by
  simp [holds, runPasses_append]

theorem holds_single (c : Cfg) (s : St) (t : Nat) (r : Res) :
    holds c s [(t, r)] = (logic c s t r).2.count .hold := by
  simp [holds, runPasses, Function.comp_def]

theorem count_changed (c : Cfg) (s : St) (t : Nat) (r : Res) : (changed c s t r).2.count .hold = 0 := by
  simp only [changed]
  split <;> split <;> rfl

theorem count_clickEvents (n : Nat) : (clickEvents n).count .hold = 0 := by
  unfold clickEvents
  split
  · rfl
  · split <;> rfl

theorem count_longEvents (n : Nat) : (longEvents n).count .hold = 0 := by
  unfold longEvents
  split <;> rfl

theorem count_evaluate (c : Cfg) (s : St) (d : Nat) : (evaluate c s d).2.count .hold = 0 := by
  simp only [evaluate]
  generalize (if c.multi = 0 then { s with hold := 0, cnt := 0 } else s : St) = s1
  split
  · dsimp only
    split
    · exact count_clickEvents _
    · exact count_longEvents _
  · rfl

theorem evaluate_hold_le (c : Cfg) (s : St) (d : Nat) : (evaluate c s d).1.hold ≤ s.hold := by
  simp only [evaluate]
  split <;> split <;> (try split) <;> simp

/-- The hold counter never exceeds the number of hold events. -/
theorem hold_le (c : Cfg) (s : St) (t : Nat) (r : Res) :
    (logic c s t r).1.hold ≤ s.hold + (logic c s t r).2.count .hold := by
  simp only [logic]
  split
  · rw [count_changed]; simp [changed]
  split
  · split
    · unfold holding
      split
      · simp only [List.count_singleton_self]; omega
      · simp
    split
    · have := evaluate_hold_le c s (since (clk t) s.last)
      omega
    · simp
  · simp

/-- State after coherent passes: nothing yet, or the last change and what followed. -/
structure HInv (c : Cfg) (pre : List Pass) (p : Bool) (s : St) : Prop where
  total : s.hold ≤ holds c init pre
  down : p = true → s.last = 0 ∨ ∃ a tp b, pre = a ++ (tp, .toPressed) :: b
    ∧ (∀ q ∈ b, q.2 = .pressed) ∧ s.last = clk tp
    ∧ (holds c init pre < 2 ^ 16 →
        s.hold = (runPasses c init (a ++ [(tp, .toPressed)])).1.hold
          + holds c (runPasses c init (a ++ [(tp, .toPressed)])).1 b)

theorem snoc_run (c : Cfg) (pre : List Pass) (t : Nat) (r : Res) :
    (runPasses c init (pre ++ [(t, r)])).1 = (logic c (runPasses c init pre).1 t r).1 := by
  simp [runPasses_append, runPasses]

theorem hinv_step {c : Cfg} (hk : c.kind = .mono) {pre : List Pass} {p : Bool}
    (hi : HInv c pre p (runPasses c init pre).1) (t : Nat) (r : Res) (p' : Bool)
    (hr : (r = .toPressed ∧ p' = true) ∨ (r = .toReleased ∧ p' = false)
      ∨ (r = .pressed ∧ p = true ∧ p' = true) ∨ (r = .released ∧ p = false ∧ p' = false)) :
    HInv c (pre ++ [(t, r)]) p' (runPasses c init (pre ++ [(t, r)])).1 := by
  have htot : (runPasses c init (pre ++ [(t, r)])).1.hold ≤ holds c init (pre ++ [(t, r)]) := by
    rw [snoc_run, holds_append, holds_single]
    have := hold_le c (runPasses c init pre).1 t r
    have := hi.total
    omega
  refine ⟨htot, ?_⟩
  intro hp'
  rcases hr with ⟨rfl, _⟩ | ⟨_, h⟩ | ⟨rfl, hp, _⟩ | ⟨_, _, h⟩
  · right
    refine ⟨pre, t, [], rfl, by simp, ?_, ?_⟩
    · rw [snoc_run]; simp [logic, changed]
    · intro _; simp [holds, runPasses]
  · rw [hp'] at h; exact absurd h (by decide)
  · rw [snoc_run]
    have hlast : (logic c (runPasses c init pre).1 t .pressed).1.last
        = (runPasses c init pre).1.last := by
      simp only [logic, reduceCtorEq, or_self, if_false, hk, true_and, if_true]
      split
      · unfold holding; split <;> rfl
      · rfl
    rcases hi.down hp with h0 | ⟨a, tp, b, h1, h2, h3, h4⟩
    · left; rw [hlast]; exact h0
    · right
      refine ⟨a, tp, b ++ [(t, .pressed)], by simp [h1], ?_, by rw [hlast]; exact h3, ?_⟩
      · intro q hq
        rcases List.mem_append.mp hq with hq | hq
        · exact h2 q hq
        · simp only [List.mem_singleton] at hq; subst hq; rfl
      · intro hlt
        have hsp : holds c init (pre ++ [(t, .pressed)])
            = holds c init pre + (logic c (runPasses c init pre).1 t .pressed).2.count .hold := by
          rw [holds_append, holds_single]
        rw [hsp] at hlt
        have hh := h4 (by omega)
        have hpre : (runPasses c (runPasses c init (a ++ [(tp, .toPressed)])).1 b).1
            = (runPasses c init pre).1 := by
          rw [h1]
          have : a ++ (tp, Res.toPressed) :: b = a ++ [(tp, .toPressed)] ++ b := by simp
          rw [this]
          exact (congrArg Prod.fst (runPasses_append c init (a ++ [(tp, .toPressed)]) b)).symm
        rw [holds_append, holds_single, hpre, ← Nat.add_assoc, ← hh]
        have htot' := hi.total
        generalize (runPasses c init pre).1 = s at *
        simp only [logic, reduceCtorEq, or_self, if_false, hk, true_and, if_true] at hlt ⊢
        by_cases hl : s.last = 0
        · simp [hl]
        · simp only [hl, ne_eq, not_false_eq_true, if_true] at hlt ⊢
          unfold holding at hlt ⊢
          split
          · rename_i hc
            rw [if_pos hc] at hlt
            simp only [List.count_singleton_self] at hlt ⊢
            omega
          · simp
  · rw [hp'] at h; exact absurd h (by decide)

theorem hinv_run {c : Cfg} (hk : c.kind = .mono) : ∀ (l pre : List Pass) (p : Bool),
    HInv c pre p (runPasses c init pre).1 → ∀ (t : Nat) (r : Res), Coherent p (l ++ [(t, r)]) →
    ∃ p', HInv c (pre ++ l) p' (runPasses c init (pre ++ l)).1 ∧ (r = .pressed → p' = true) := by
  intro l
  induction l with
  | nil =>
    intro pre p hi t r hc
    refine ⟨p, by simpa using hi, ?_⟩
    rintro rfl
    exact hc.1
  | cons x rest ih =>
    intro pre p hi t r hc
    obtain ⟨t1, r1⟩ := x
    have e : pre ++ (t1, r1) :: rest = pre ++ [(t1, r1)] ++ rest := by simp
    rw [e]
    cases r1 with
    | toPressed => exact ih _ true (hinv_step hk hi t1 _ true (.inl ⟨rfl, rfl⟩)) t r hc.2
    | toReleased => exact ih _ false (hinv_step hk hi t1 _ false (.inr (.inl ⟨rfl, rfl⟩))) t r hc.2
    | pressed =>
      refine ih _ true (hinv_step hk hi t1 _ true (.inr (.inr (.inl ⟨rfl, hc.1, rfl⟩)))) t r ?_
      have := hc.2
      rw [hc.1] at this
      exact this
    | released =>
      refine ih _ false (hinv_step hk hi t1 _ false (.inr (.inr (.inr ⟨rfl, hc.1, rfl⟩)))) t r ?_
      have := hc.2
      rw [hc.1] at this
      exact this

/-- A hold event needs a pressed monostable button and the conditions of button.cpp lines 93-96. -/
theorem holdAt_conditions {c : Cfg} {s : St} {t : Nat} {r : Res} (h : Ev.hold ∈ (logic c s t r).2) :
    c.kind = .mono ∧ r = .pressed ∧ s.last ≠ 0
    ∧ since (clk t) s.last > (c.holdTime + s.hold * c.rep) % 2 ^ 32
    ∧ (c.repOn = true ∨ s.hold = 0) ∧ s.cnt ≤ 1 := by
  have hpos := List.count_pos_iff.mpr h
  simp only [logic] at hpos
  by_cases h1 : r = .toPressed ∨ r = .toReleased
  · rw [if_pos h1, count_changed] at hpos; omega
  rw [if_neg h1] at hpos
  by_cases h2 : s.last ≠ 0
  · rw [if_pos h2] at hpos
    by_cases h3 : c.kind = .mono ∧ r = .pressed
    · rw [if_pos h3] at hpos
      unfold holding at hpos
      split at hpos
      · rename_i hc
        exact ⟨h3.1, h3.2, h2, hc.2.2.1, hc.2.2.2, hc.1⟩
      · simp at hpos
    · rw [if_neg h3] at hpos
      split at hpos
      · rw [count_evaluate] at hpos; omega
      · simp at hpos
  · rw [if_neg h2] at hpos; simp at hpos

/-- C20, proved when fewer than 65536 hold events have been raised before (see
`hold_wrap_violation`): a hold event is raised only while the button has been continuously down for
more than the hold time; hold number `k` of a press comes more than hold time + k × repeat time after
the press; without repeat there is at most one per press. -/
theorem hold_sound_partial (c : Cfg) (pre : List Pass) (t : Nat) (r : Res)
    (hH : c.holdTime < 2 ^ 16) (hR : c.rep < 2 ^ 16)
    (hco : Coherent false (pre ++ [(t, r)])) (hord : InOrder (pre ++ [(t, r)]))
    (hn : holds c init pre < 2 ^ 16) (hat : HoldAt c pre t r) : HoldOk c pre t r := by
  obtain ⟨hk, hr, hlast, hdelta, hrep, _⟩ := holdAt_conditions hat
  obtain ⟨p, hi, hp⟩ := hinv_run hk pre [] false
    ⟨Nat.zero_le _, by simp⟩ t r hco
  simp only [List.nil_append] at hi
  rcases hi.down (hp hr) with h0 | ⟨a, tp, b, h1, h2, h3, h4⟩
  · exact absurd h0 hlast
  · have hh := h4 hn
    have htp : tp ≤ t :=
      (List.pairwise_append.mp hord).2.2 (tp, .toPressed) (by simp [h1]) (t, r) (by simp)
    have htot := hi.total
    refine ⟨hk, hr, a, tp, b, h1, h2, ?_, ?_⟩
    · rw [h3] at hdelta
      have hle := since_clk_le t tp htp
      generalize holds c (runPasses c init (a ++ [(tp, .toPressed)])).1 b = k at *
      generalize (runPasses c init pre).1.hold = hs at *
      generalize (runPasses c init (a ++ [(tp, .toPressed)])).1.hold = h0 at *
      have hmul : hs * c.rep ≤ 65535 * 65535 := Nat.mul_le_mul (by omega) (by omega)
      have hkm : k * c.rep ≤ hs * c.rep := Nat.mul_le_mul_right _ (by omega)
      rw [Nat.mod_eq_of_lt (by omega)] at hdelta
      omega
    · intro hro
      rcases hrep with h | h
      · rw [hro] at h; exact absurd h (by decide)
      · omega

/-- The first hold event does come: with the button at rest pressed at `tp` (clock not reading 0) and
held, the first pass later than the hold time raises it. -/
theorem hold_complete (c : Cfg) (s : St) (tp t : Nat) (hk : c.kind = .mono) (hH : c.holdTime < 2 ^ 16)
    (h0 : 0 < c.holdTime) (hcnt : s.cnt = 0) (hh : s.hold = 0) (hz : clk tp ≠ 0) (htp : tp ≤ t)
    (hlong : t - tp > c.holdTime) (hw : t - tp < 2 ^ 32) :
    Ev.hold ∈ (logic c (logic c s tp .toPressed).1 t .pressed).2 := by
  have hs : (logic c s tp .toPressed).1.last = clk tp ∧ (logic c s tp .toPressed).1.hold = 0
      ∧ (logic c s tp .toPressed).1.cnt ≤ 1 := by
    simp only [logic, changed, true_or, if_true, hh, hcnt]
    refine ⟨trivial, trivial, ?_⟩
    split <;> omega
  generalize (logic c s tp .toPressed).1 = s' at *
  obtain ⟨h1, h2, h3⟩ := hs
  simp only [logic, reduceCtorEq, or_self, if_false, hk, true_and, if_true, h1, hz, ne_eq,
    not_false_eq_true]
  unfold holding
  rw [if_pos]
  · simp
  · refine ⟨h3, h0, ?_, .inr h2⟩
    rw [since_clk_eq t tp htp hw, h2]
    omega

/-! ## Violations -/

/-- The literal English claim "repeats are at least the repeat time apart". -/
def RepeatsSpaced : Prop :=
  ∀ (c : Cfg) (pre : List Pass) (t1 t2 : Nat), c.holdTime < 2 ^ 16 → c.rep < 2 ^ 16 →
    Coherent false (pre ++ [(t1, .pressed), (t2, .pressed)]) →
    InOrder (pre ++ [(t1, .pressed), (t2, .pressed)]) →
    HoldAt c pre t1 .pressed → HoldAt c (pre ++ [(t1, .pressed)]) t2 .pressed → t2 - t1 ≥ c.rep

/-- After a late timer pass the missed repeats are made up for at once: hold time 1000 ms, repeat
every 500 ms, passes 1010, 3000 and 3010 ms after the press all raise a hold event. -/
theorem repeat_spacing_violation : ¬ RepeatsSpaced := by
  intro h
  have := h { kind := .mono, multi := 0, holdTime := 1000, rep := 500, repOn := true, maxClick := 0 }
    [(5, .toPressed), (1015, .pressed)] 3005 3015 (by decide) (by decide)
    (by simp [Coherent]) (by simp [InOrder]) (by decide +kernel) (by decide +kernel)
  exact absurd this (by decide)

/-- Configuration of the counter-overflow witness. -/
def longCfg : Cfg :=
  { kind := .mono, multi := 0, holdTime := 1000, rep := 100, repOn := true, maxClick := 0 }

/-- A press at 5 ms followed by `n` passes, the i-th just after repeat number i is due. -/
def longHold (n : Nat) : List Pass :=
  (5, .toPressed) :: (List.range n).map (fun i => (5 + 1001 + i * 100, Res.pressed))

theorem longHold_succ (n : Nat) : longHold (n + 1) = longHold n ++ [(5 + 1001 + n * 100, .pressed)] := by
  simp [longHold, List.range_succ]

theorem longHold_state : ∀ n, n ≤ 65536 →
    (runPasses longCfg init (longHold n)).1 = { last := 5, cnt := 0, hold := n % 65536 } := by
  intro n
  induction n with
  | zero => intro _; decide +kernel
  | succ n ih =>
    intro hn
    rw [longHold_succ, snoc_run, ih (by omega)]
    have hs : since (clk (5 + 1001 + n * 100)) 5 = 1001 + n * 100 := by
      unfold since clk; omega
    simp only [logic, reduceCtorEq, or_self, if_false, longCfg, true_and, if_true, hs,
      Nat.mod_eq_of_lt (show n < 65536 by omega), holding, ne_eq, Nat.succ_ne_zero, not_false_eq_true]
    rw [if_pos]
    refine ⟨by omega, by omega, ?_, .inl trivial⟩
    rw [Nat.mod_eq_of_lt (by omega)]
    omega

theorem longHold_coherent : ∀ n t, Coherent false (longHold n ++ [(t, .pressed)]) := by
  intro n t
  refine ⟨rfl, ?_⟩
  generalize List.range n = l
  induction l with
  | nil => exact ⟨rfl, trivial⟩
  | cons x xs ih => exact ⟨rfl, ih⟩

theorem longHold_ordered (n t : Nat) (ht : 906 + n * 100 ≤ t) : InOrder (longHold n ++ [(t, .pressed)]) := by
  unfold InOrder
  rw [List.pairwise_append]
  refine ⟨?_, by simp, ?_⟩
  · unfold longHold
    rw [List.pairwise_cons]
    refine ⟨?_, ?_⟩
    · intro p hp
      simp only [List.mem_map] at hp
      obtain ⟨i, _, rfl⟩ := hp
      omega
    · rw [List.pairwise_map]
      exact List.Pairwise.imp (fun h => by simp only at h ⊢; omega) (List.pairwise_lt_range (n := n))
  · intro p hp q hq
    simp only [List.mem_singleton] at hq
    subst hq
    simp only [longHold, List.mem_cons, List.mem_map, List.mem_range] at hp
    rcases hp with rfl | ⟨i, hi, rfl⟩
    · simp; omega
    · simp only; omega

theorem longHold_holds : ∀ n, n ≤ 65536 → holds longCfg init (longHold n) = n := by
  intro n
  induction n with
  | zero => intro _; decide +kernel
  | succ n ih =>
    intro hn
    rw [longHold_succ, holds_append, holds_single, ih (by omega), longHold_state n (by omega)]
    have hs : since (clk (5 + 1001 + n * 100)) 5 = 1001 + n * 100 := by
      unfold since clk; omega
    simp only [logic, reduceCtorEq, or_self, if_false, longCfg, true_and, if_true, hs,
      Nat.mod_eq_of_lt (show n < 65536 by omega), holding, ne_eq, Nat.succ_ne_zero, not_false_eq_true]
    rw [if_pos]
    · simp
    · refine ⟨by omega, by omega, ?_, .inl trivial⟩
      rw [Nat.mod_eq_of_lt (by omega)]
      omega

/-- Holding a repeating button down long enough overflows the 16-bit counter of hold events; from
then on a hold event is raised at every timer pass (with a repeat time of 100 ms, after 1 h 49 min). -/
theorem hold_wrap_violation : ¬ HoldSound := by
  intro h
  have hst := longHold_state 65536 (by omega)
  have hat : HoldAt longCfg (longHold 65536) (1007 + 65535 * 100) .pressed := by
    unfold HoldAt
    rw [hst]
    decide +kernel
  obtain ⟨_, _, a, tp, b, hab, hb, hlt, _⟩ := h longCfg (longHold 65536) (1007 + 65535 * 100) .pressed
    (by decide) (by decide) (longHold_coherent _ _) (longHold_ordered _ _ (by omega)) hat
  have ha : a = [] := by
    cases a with
    | nil => rfl
    | cons x xs =>
      simp only [longHold, List.cons_append, List.cons.injEq] at hab
      have hm : (tp, Res.toPressed) ∈ (List.range 65536).map (fun i => (5 + 1001 + i * 100, Res.pressed)) := by
        rw [hab.2]; simp
      simp only [List.mem_map, Prod.mk.injEq, reduceCtorEq, and_false, exists_false] at hm
  subst ha
  have htp : tp = 5 := by
    simp only [longHold, List.nil_append, List.cons.injEq, Prod.mk.injEq] at hab
    exact hab.1.1.symm
  subst htp
  have hk : holds longCfg (runPasses longCfg init [(5, .toPressed)]).1 b = 65536 := by
    have h1 := longHold_holds 65536 (by omega)
    rw [hab, show [] ++ (5, Res.toPressed) :: b = [(5, Res.toPressed)] ++ b from rfl, holds_append] at h1
    have h2 : holds longCfg init [(5, .toPressed)] = 0 := by decide +kernel
    omega
  rw [List.nil_append, hk] at hlt
  simp only [longCfg] at hlt
  omega

/-- A press held for two hold times raises the event; the hypotheses of `hold_sound_partial` are met. -/
example : HoldOk { kind := .mono, multi := 300, holdTime := 1000, rep := 0, repOn := false, maxClick := 1 }
    [(100, .released), (200, .toPressed), (700, .pressed)] 1201 .pressed :=
  hold_sound_partial _ _ _ _ (by decide) (by decide) (by simp [Coherent]) (by simp [InOrder])
    (by decide +kernel) (by decide +kernel)

end Verif.Button
