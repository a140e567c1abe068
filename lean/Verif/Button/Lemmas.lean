import Verif.Button.Spec

/-! # Lemmas about the button model -/

namespace Verif.Button

theorem feed_append (c : DCfg) (s : DSt) (a b : List Sample) :
    feed c s (a ++ b) = ((feed c (feed c s a).1 b).1, (feed c s a).2 ++ (feed c (feed c s a).1 b).2) := by
  induction a generalizing s with
  | nil => simp [feed]
  | cons x xs ih =>
    obtain ⟨t, lvl⟩ := x
    simp only [List.cons_append, feed, ih]
    split <;> simp

/-- The five ways `update` can go. -/
inductive UpCase (c : DCfg) (s : DSt) (t : Nat) (lvl : Bool) : DSt → Res → Prop
  | blind (h : c.deb ≠ 0) (hb : since (clk t) s.debTs ≤ c.deb) : UpCase c s t lvl s (lastState c s)
  | candidate (hd : c.deb = 0 ∨ since (clk t) s.debTs > c.deb) (h : lvl ≠ s.prev) (hf : c.fil ≠ 0)
      (hc : lvl ≠ s.cand) :
      UpCase c s t lvl { s with cand := lvl, filTs := clk t } (lastState c s)
  | report (hd : c.deb = 0 ∨ since (clk t) s.debTs > c.deb) (h : lvl ≠ s.prev)
      (hc : c.fil = 0 ∨ lvl = s.cand) (hs : since (clk t) s.filTs > c.fil) :
      UpCase c s t lvl { s with debTs := clk t, prev := lvl }
        (if lvl = valueOnPress c then .toPressed else .toReleased)
  | wait (hd : c.deb = 0 ∨ since (clk t) s.debTs > c.deb) (h : lvl ≠ s.prev)
      (hc : c.fil = 0 ∨ lvl = s.cand) (hs : since (clk t) s.filTs ≤ c.fil) :
      UpCase c s t lvl s (lastState c s)
  | same (hd : c.deb = 0 ∨ since (clk t) s.debTs > c.deb) (h : lvl = s.prev) :
      UpCase c s t lvl { s with cand := s.prev } (lastState c s)

theorem update_case (c : DCfg) (s : DSt) (t : Nat) (lvl : Bool) :
    UpCase c s t lvl (update c s t lvl).1 (update c s t lvl).2 := by
  unfold update
  by_cases hd : c.deb = 0 ∨ since (clk t) s.debTs > c.deb
  · simp only [hd, if_true]
    by_cases h : lvl ≠ s.prev
    · rw [if_pos h]
      by_cases hf : c.fil ≠ 0 ∧ lvl ≠ s.cand
      · rw [if_pos (by simpa using hf)]
        exact .candidate hd h hf.1 hf.2
      · rw [if_neg (by simpa using hf)]
        have hc : c.fil = 0 ∨ lvl = s.cand := by
          by_cases h0 : c.fil = 0
          · exact .inl h0
          · exact .inr (Classical.byContradiction fun hn => hf ⟨h0, hn⟩)
        by_cases hs : since (clk t) s.filTs > c.fil
        · rw [if_pos hs]; exact .report hd h hc hs
        · rw [if_neg hs]; exact .wait hd h hc (by omega)
    · rw [if_neg (by simpa using h)]
      exact .same hd (by simpa using h)
  · rw [if_neg hd]
    simp only [not_or, Nat.not_lt] at hd
    exact .blind hd.1 hd.2

theorem lastState_ne (c : DCfg) (s : DSt) :
    ¬ (lastState c s = .toPressed ∨ lastState c s = .toReleased) := by
  unfold lastState; split <;> simp

theorem report_ev (c : DCfg) (lvl : Bool) :
    (if lvl = valueOnPress c then Res.toPressed else .toReleased) = .toPressed
      ∨ (if lvl = valueOnPress c then Res.toPressed else .toReleased) = .toReleased := by
  split <;> simp

theorem getLast?_snoc {α} (l : List α) (x : α) : (l ++ [x]).getLast? = some x := by simp

/-- What the state of a `ButtonState` says about the waveform seen so far. -/
structure Inv (c : DCfg) (l0 : Bool) (pre : List Sample) (s : DSt) (rs : List Sample) : Prop where
  prev : s.prev = reported l0 rs
  deb : s.debTs = clk (reportedAt rs)
  ordered : ∀ e ∈ rs, e.1 ≤ reportedAt rs
  past : ∀ t, (∀ x ∈ pre, x.1 ≤ t) → reportedAt rs ≤ t
  cand : c.fil ≠ 0 → s.cand ≠ s.prev → ∃ t0 a b, s.filTs = clk t0 ∧ pre = a ++ (t0, s.cand) :: b
    ∧ reportedAt rs ≤ t0 ∧ (c.deb ≠ 0 → t0 - reportedAt rs > c.deb)
    ∧ ((c.deb = 0 ∨ ∀ x ∈ pre, x.1 < reportedAt rs + 2 ^ 32) → ∀ x ∈ b, x.2 = s.cand)

theorem inv_init (c : DCfg) (l0 : Bool) : Inv c l0 [] (dInit l0) [] := by
  refine ⟨rfl, rfl, by simp, by simp [reportedAt], ?_⟩
  intro _ h; exact absurd rfl h

theorem Inv.step {c : DCfg} {l0 : Bool} {pre rs : List Sample} {s : DSt} (hi : Inv c l0 pre s rs)
    (t : Nat) (lvl : Bool) (ht : ∀ x ∈ pre, x.1 ≤ t) :
    Inv c l0 (pre ++ [(t, lvl)]) (update c s t lvl).1
      (rs ++ (if (update c s t lvl).2 = .toPressed ∨ (update c s t lvl).2 = .toReleased
        then [(t, lvl)] else [])) := by
  have hpast := hi.past t ht
  have hpast' : ∀ t', (∀ x ∈ pre ++ [(t, lvl)], x.1 ≤ t') → reportedAt rs ≤ t' := by
    intro t' h; exact hi.past t' (fun x hx => h x (by simp [hx]))
  have hc := update_case c s t lvl
  generalize (update c s t lvl).1 = s' at *
  generalize (update c s t lvl).2 = r at *
  -- the candidate clause when nothing about the candidate changes
  have keep : ∀ (hu : lvl ≠ s.prev ∧ lvl = s.cand ∨ (c.deb ≠ 0 ∧ since (clk t) s.debTs ≤ c.deb)),
      c.fil ≠ 0 → s.cand ≠ s.prev → ∃ t0 a b, s.filTs = clk t0
        ∧ pre ++ [(t, lvl)] = a ++ (t0, s.cand) :: b
        ∧ reportedAt rs ≤ t0 ∧ (c.deb ≠ 0 → t0 - reportedAt rs > c.deb)
        ∧ ((c.deb = 0 ∨ ∀ x ∈ pre ++ [(t, lvl)], x.1 < reportedAt rs + 2 ^ 32) →
            ∀ x ∈ b, x.2 = s.cand) := by
    intro hu hf hcp
    obtain ⟨t0, a, b, h1, h2, h3, h4, h5⟩ := hi.cand hf hcp
    refine ⟨t0, a, b ++ [(t, lvl)], h1, by simp [h2], h3, h4, ?_⟩
    intro hw x hx
    rcases List.mem_append.mp hx with hx | hx
    · refine h5 (hw.imp_right fun h y hy => h y (by simp [hy])) x hx
    · simp only [List.mem_singleton] at hx
      subst hx
      rcases hu with hu | hu
      · exact hu.2
      · exfalso
        rcases hw with hw | hw
        · exact hu.1 hw
        · have htw := hw (t, lvl) (by simp)
          simp only at htw
          have e := hu.2
          rw [hi.deb, since_clk_eq _ _ hpast (by omega)] at e
          have e2 := h4 hu.1
          have e3 := ht (t0, s.cand) (by simp [h2])
          simp only at e3
          omega
  cases hc with
  | blind h hb =>
    rw [if_neg (lastState_ne c s), List.append_nil]
    exact ⟨hi.prev, hi.deb, hi.ordered, hpast', keep (.inr ⟨h, hb⟩)⟩
  | candidate hd h hf hcd =>
    rw [if_neg (lastState_ne c s), List.append_nil]
    refine ⟨hi.prev, hi.deb, hi.ordered, hpast', ?_⟩
    intro _ _
    refine ⟨t, pre, [], rfl, rfl, hpast, ?_, by simp⟩
    intro h0
    have h1 : since (clk t) s.debTs > c.deb := hd.resolve_left h0
    rw [hi.deb] at h1
    have := since_clk_le _ _ hpast
    omega
  | report hd h hcd hs =>
    rw [if_pos (report_ev c lvl)]
    have hr : reportedAt (rs ++ [(t, lvl)]) = t := by simp [reportedAt]
    refine ⟨by simp [reported], by simp [reportedAt], ?_, ?_, ?_⟩
    · intro e he
      rw [hr]
      rcases List.mem_append.mp he with he | he
      · exact Nat.le_trans (hi.ordered e he) hpast
      · simp only [List.mem_singleton] at he; subst he; exact Nat.le_refl _
    · intro t' h'
      rw [hr]
      exact h' (t, lvl) (by simp)
    · intro hf hne
      exact absurd (hcd.resolve_left hf).symm hne
  | wait hd h hcd hs =>
    rw [if_neg (lastState_ne c s), List.append_nil]
    refine ⟨hi.prev, hi.deb, hi.ordered, hpast', ?_⟩
    intro hf hcp
    exact keep (.inl ⟨h, hcd.resolve_left hf⟩) hf hcp
  | same hd h =>
    rw [if_neg (lastState_ne c s), List.append_nil]
    refine ⟨hi.prev, hi.deb, hi.ordered, hpast', ?_⟩
    intro _ hne
    exact absurd rfl hne

theorem Sorted.cons_le {x : Sample} {l : List Sample} (h : Sorted (x :: l)) : ∀ y ∈ l, x.1 ≤ y.1 := by
  intro y hy
  exact (List.pairwise_cons.mp h).1 y hy

theorem inv_feed (c : DCfg) (l0 : Bool) : ∀ (w pre : List Sample) (s : DSt) (rs : List Sample),
    Inv c l0 pre s rs → Sorted (pre ++ w) →
    Inv c l0 (pre ++ w) (feed c s w).1 (rs ++ (feed c s w).2) := by
  intro w
  induction w with
  | nil => intro pre s rs hi _; simpa [feed] using hi
  | cons x rest ih =>
    intro pre s rs hi hs
    obtain ⟨t, lvl⟩ := x
    have ht : ∀ y ∈ pre, y.1 ≤ t := by
      intro y hy
      exact (List.pairwise_append.mp hs).2.2 y hy (t, lvl) (by simp)
    have h1 := hi.step t lvl ht
    have h2 := ih (pre ++ [(t, lvl)]) _ _ h1 (by simpa using hs)
    simp only [feed]
    have e : pre ++ (t, lvl) :: rest = pre ++ [(t, lvl)] ++ rest := by simp
    rw [e]
    by_cases hev : (update c s t lvl).2 = .toPressed ∨ (update c s t lvl).2 = .toReleased
    · rw [if_pos hev] at h2 ⊢
      simpa using h2
    · rw [if_neg hev] at h2 ⊢
      simpa using h2

theorem inv_reports (c : DCfg) (l0 : Bool) (w : List Sample) (hs : Sorted w) :
    Inv c l0 w (feed c (dInit l0) w).1 (reports c l0 w) := by
  have := inv_feed c l0 w [] (dInit l0) [] (inv_init c l0) (by simpa using hs)
  simpa [reports] using this

end Verif.Button
