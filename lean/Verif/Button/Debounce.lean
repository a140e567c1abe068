import Verif.Button.Lemmas

/-! # C18: debouncing -/

namespace Verif.Button

/-- Consecutive reports show different levels, starting from level `l`. -/
def Alternates : Bool → List Sample → Prop
  | _, [] => True
  | l, (_, x) :: rest => x ≠ l ∧ Alternates x rest

theorem feed_alternates (c : DCfg) : ∀ (w : List Sample) (s : DSt), Alternates s.prev (feed c s w).2 := by
  intro w
  induction w with
  | nil => intro s; exact True.intro
  | cons x rest ih =>
    obtain ⟨t, lvl⟩ := x
    intro s
    have hu := update_case c s t lvl
    have hi := ih (update c s t lvl).1
    simp only [feed]
    generalize (update c s t lvl).1 = s' at *
    generalize (update c s t lvl).2 = r at *
    cases hu with
    | report hd h hc hs => rw [if_pos (report_ev c lvl)]; exact ⟨h, hi⟩
    | blind => rw [if_neg (lastState_ne c s)]; exact hi
    | candidate => rw [if_neg (lastState_ne c s)]; exact hi
    | wait => rw [if_neg (lastState_ne c s)]; exact hi
    | same => rw [if_neg (lastState_ne c s)]; exact hi

/-- Press and release reports strictly alternate, starting with the opposite of the level found at
start-up, for every waveform. -/
theorem reports_alternate (c : DCfg) (l0 : Bool) (w : List Sample) :
    Alternates l0 (reports c l0 w) :=
  feed_alternates c w (dInit l0)

/-- A sample adds nothing to the reports, or adds itself. -/
theorem reports_snoc (c : DCfg) (l0 : Bool) (w : List Sample) (t : Nat) (lvl : Bool) :
    reports c l0 (w ++ [(t, lvl)]) = reports c l0 w
    ∨ (reports c l0 (w ++ [(t, lvl)]) = reports c l0 w ++ [(t, lvl)]
      ∧ ∃ s', UpCase c (feed c (dInit l0) w).1 t lvl s'
          (if lvl = valueOnPress c then .toPressed else .toReleased)) := by
  simp only [reports, feed_append, feed]
  have hu := update_case c (feed c (dInit l0) w).1 t lvl
  generalize (update c (feed c (dInit l0) w).1 t lvl).1 = s' at *
  generalize (update c (feed c (dInit l0) w).1 t lvl).2 = r at *
  cases hu with
  | report hd h hc hs =>
    right
    rw [if_pos (report_ev c lvl)]
    exact ⟨rfl, _, .report hd h hc hs⟩
  | blind => left; rw [if_neg (lastState_ne _ _)]; simp
  | candidate => left; rw [if_neg (lastState_ne _ _)]; simp
  | wait => left; rw [if_neg (lastState_ne _ _)]; simp
  | same => left; rw [if_neg (lastState_ne _ _)]; simp

/-- What C18 asks of the report of sample `(t, lvl)` after waveform `w`. -/
def SoundReport (c : DCfg) (l0 : Bool) (w : List Sample) (t : Nat) (lvl : Bool) : Prop :=
  lvl ≠ reported l0 (reports c l0 w)
  ∧ (c.deb ≠ 0 → ∀ e ∈ reports c l0 w, t - e.1 > c.deb)
  ∧ (c.fil ≠ 0 → HeldFor w t lvl c.fil)

/-- C18, soundness half, in full. -/
def DebounceSound : Prop :=
  ∀ (c : DCfg) (l0 : Bool) (w : List Sample) (t : Nat) (lvl : Bool), Sorted (w ++ [(t, lvl)]) →
    reports c l0 (w ++ [(t, lvl)]) = reports c l0 w ++ [(t, lvl)] → SoundReport c l0 w t lvl

/-- C18 is false of the code in one corner: 2^32 ms (49.7 days) after the last report the debounce
window opens again (the difference of 32-bit clocks restarts from 0), the input is not read for
`debounceDelayMs`, and a bounce in that window is missed by the noise filter. -/
theorem debounce_wrap_violation : ¬ DebounceSound := by
  intro h
  have h' := h { deb := 50, fil := 20, invert := false } false
    [(70, true), (100, true), (2 ^ 32 + 95, false), (2 ^ 32 + 110, true)] (2 ^ 32 + 160) false
    (by simp [Sorted]) (by decide +kernel)
  obtain ⟨_, _, hh⟩ := h'
  obtain ⟨a, t0, b, hw, hb, ht⟩ := hh (by decide)
  -- the last sample before the report is at the wrong level
  have hlast : b = [] ∨ ∃ y, b.getLast? = some y := by
    cases b with
    | nil => exact .inl rfl
    | cons x xs => exact .inr ⟨_, List.getLast?_cons⟩
  have e := congrArg List.getLast? hw
  rcases hlast with rfl | ⟨y, hy⟩
  · simp at e
  · simp only [List.getLast?_append, List.getLast?_cons, hy, Option.getD_some] at e
    have hm := hb y (List.mem_of_getLast? hy)
    simp at e
    subst e
    simp at hm

/-- C18, soundness (everything but the corner above): a change is reported only if it differs from
the level last reported, comes more than the debounce delay after every earlier report, and the
input has been at the new level at every sample over more than the filter time. The last part is
proved when the previous report (or start-up) is less than 2^32 ms ago, or there is no debounce
delay; missing is the corner of `debounce_wrap_violation`. -/
theorem debounce_sound_partial (c : DCfg) (l0 : Bool) (w : List Sample) (t : Nat) (lvl : Bool)
    (hs : Sorted (w ++ [(t, lvl)]))
    (hr : reports c l0 (w ++ [(t, lvl)]) = reports c l0 w ++ [(t, lvl)]) :
    lvl ≠ reported l0 (reports c l0 w)
    ∧ (c.deb ≠ 0 → ∀ e ∈ reports c l0 w, t - e.1 > c.deb)
    ∧ (c.fil ≠ 0 → (c.deb = 0 ∨ t < reportedAt (reports c l0 w) + 2 ^ 32) →
        HeldFor w t lvl c.fil) := by
  have hs' := List.pairwise_append.mp hs
  have ht : ∀ x ∈ w, x.1 ≤ t := fun x hx => hs'.2.2 x hx (t, lvl) (by simp)
  have hi := inv_reports c l0 w hs'.1
  rcases reports_snoc c l0 w t lvl with h | ⟨_, s', hc⟩
  · rw [h] at hr
    have := congrArg List.length hr
    simp at this
  generalize hse : (feed c (dInit l0) w).1 = s at *
  have hpast := hi.past t ht
  generalize hrr : (if lvl = valueOnPress c then Res.toPressed else .toReleased) = r at hc
  have hev := report_ev c lvl
  rw [hrr] at hev
  have hrep : (c.deb = 0 ∨ since (clk t) s.debTs > c.deb) ∧ lvl ≠ s.prev
      ∧ (c.fil = 0 ∨ lvl = s.cand) ∧ since (clk t) s.filTs > c.fil := by
    cases hc with
    | report hd h hc hs => exact ⟨hd, h, hc, hs⟩
    | blind => exact absurd hev (lastState_ne _ _)
    | candidate => exact absurd hev (lastState_ne _ _)
    | wait => exact absurd hev (lastState_ne _ _)
    | same => exact absurd hev (lastState_ne _ _)
  obtain ⟨hd, hne, hcf, hsf⟩ := hrep
  refine ⟨by rw [← hi.prev]; exact hne, ?_, ?_⟩
  · intro h0 e he
    have h1 : since (clk t) s.debTs > c.deb := hd.resolve_left h0
    rw [hi.deb] at h1
    have h2 := since_clk_le _ _ hpast
    have h3 := hi.ordered e he
    omega
  · intro hf hw
    have hcand := hcf.resolve_left hf
    obtain ⟨t0, a, b, h1, h2, h3, h4, h5⟩ := hi.cand hf (by rw [← hcand]; exact hne)
    refine ⟨a, t0, b, by rw [hcand]; exact h2, ?_, ?_⟩
    · rw [hcand]
      apply h5
      rcases hw with hw | hw
      · exact .inl hw
      · refine .inr fun x hx => ?_
        have := ht x hx
        omega
    · have h6 := ht (t0, s.cand) (by rw [h2]; simp)
      have h7 := since_clk_le _ _ h6
      rw [h1] at hsf
      simp only at h7
      omega

/-- With a debounce delay, consecutive reports are always more than that delay apart, for every
waveform. -/
theorem reports_spaced (c : DCfg) (l0 : Bool) (h0 : c.deb ≠ 0) (w : List Sample) (hs : Sorted w) :
    (reports c l0 w).Pairwise (fun a b => b.1 - a.1 > c.deb) := by
  suffices h : ∀ (w pre : List Sample), Sorted (pre ++ w) →
      (reports c l0 pre).Pairwise (fun a b => b.1 - a.1 > c.deb) →
      (reports c l0 (pre ++ w)).Pairwise (fun a b => b.1 - a.1 > c.deb) by
    exact h w [] (by simpa using hs) List.Pairwise.nil
  intro w
  induction w with
  | nil => intro pre _ h; simpa using h
  | cons x rest ih =>
    intro pre hs hp
    obtain ⟨t, lvl⟩ := x
    have e : pre ++ (t, lvl) :: rest = pre ++ [(t, lvl)] ++ rest := by simp
    rw [e] at hs ⊢
    refine ih _ hs ?_
    have hs1 : Sorted (pre ++ [(t, lvl)]) := (List.pairwise_append.mp hs).1
    rcases reports_snoc c l0 pre t lvl with h | ⟨h, _⟩
    · rw [h]; exact hp
    · have hsnd := debounce_sound_partial c l0 pre t lvl hs1 h
      rw [h, List.pairwise_append]
      refine ⟨hp, List.pairwise_singleton _ _, ?_⟩
      intro a ha b hb
      simp only [List.mem_singleton] at hb
      subst hb
      exact hsnd.2.1 h0 a ha

/-- Once reported, further samples at the same level change nothing. -/
theorem feed_settled (c : DCfg) (lvl : Bool) : ∀ (h : List Sample) (s : DSt), s.prev = lvl →
    (∀ x ∈ h, x.2 = lvl) → (feed c s h).2 = [] := by
  intro h
  induction h with
  | nil => intros; rfl
  | cons x rest ih =>
    intro s hp ha
    obtain ⟨t, l⟩ := x
    have hl : l = lvl := ha (t, l) (by simp)
    subst hl
    have hu := update_case c s t l
    simp only [feed]
    have hi := ih (update c s t l).1
    generalize (update c s t l).1 = s' at *
    generalize (update c s t l).2 = r at *
    have hr : ∀ y ∈ rest, y.2 = l := fun y hy => ha y (by simp [hy])
    cases hu with
    | report hd h hc hs => exact absurd hp.symm h
    | candidate hd h => exact absurd hp.symm h
    | wait hd h => exact absurd hp.symm h
    | blind => rw [if_neg (lastState_ne _ _)]; exact hi hp hr
    | same => rw [if_neg (lastState_ne _ _)]; exact hi hp hr

/-- A candidate that is held long enough is reported. -/
theorem feed_waiting (c : DCfg) (lvl : Bool) (le t0 : Nat) :
    ∀ (h : List Sample) (s : DSt), s.prev ≠ lvl → s.cand = lvl → s.filTs = clk t0 →
      s.debTs = clk le → (∀ x ∈ h, x.2 = lvl) → Sorted h →
      (∀ x ∈ h, t0 ≤ x.1 ∧ le ≤ x.1 ∧ x.1 < t0 + 2 ^ 32 ∧ x.1 < le + 2 ^ 32
        ∧ (c.deb = 0 ∨ x.1 - le > c.deb)) →
      (∃ x ∈ h, x.1 - t0 > c.fil) →
      ∃ t, (feed c s h).2 = [(t, lvl)] := by
  intro h
  induction h with
  | nil => intro s _ _ _ _ _ _ _ ⟨x, hx, _⟩; simp at hx
  | cons x rest ih =>
    intro s hp hcd hfil hdeb ha hs hb hx
    obtain ⟨t, l⟩ := x
    have hl : l = lvl := ha (t, l) (by simp)
    subst hl
    have hu := update_case c s t l
    have hbt := hb (t, l) (by simp)
    simp only at hbt
    have hr : ∀ y ∈ rest, y.2 = l := fun y hy => ha y (by simp [hy])
    have hnb : c.deb = 0 ∨ since (clk t) s.debTs > c.deb := by
      rw [hdeb, since_clk_eq t le hbt.2.1 (by omega)]; exact hbt.2.2.2.2
    simp only [feed]
    have hset := feed_settled c l rest (update c s t l).1
    have hih := ih (update c s t l).1
    generalize (update c s t l).1 = s' at *
    generalize (update c s t l).2 = r at *
    cases hu with
    | report hd h hc hsf =>
      rw [if_pos (report_ev c l), hset rfl hr]
      exact ⟨t, rfl⟩
    | candidate hd h hf hc => exact absurd hcd.symm hc
    | same hd h => exact absurd h.symm hp
    | blind h hbl =>
      rcases hnb with h0 | h0
      · exact absurd h0 h
      · omega
    | wait hd h hc hsf =>
      rw [if_neg (lastState_ne _ _)]
      refine hih hp hcd hfil hdeb hr (List.pairwise_cons.mp hs).2
        (fun y hy => hb y (by simp [hy])) ?_
      obtain ⟨y, hy, hyt⟩ := hx
      rcases List.mem_cons.mp hy with rfl | hy
      · rw [hfil, since_clk_eq t t0 hbt.1 (by omega)] at hsf
        simp only at hyt
        omega
      · exact ⟨y, hy, hyt⟩

/-- C18, completeness: if the input leaves the reported level later than the debounce delay after
the last report and stays there for more than the filter time (less than 2^32 ms after the last
report), exactly one change is reported. -/
theorem debounce_complete (c : DCfg) (l0 : Bool) (w h : List Sample) (t lvl) (hf : c.fil ≠ 0)
    (hs : Sorted (w ++ (t, lvl) :: h)) (hne : lvl ≠ reported l0 (reports c l0 w))
    (ha : ∀ x ∈ h, x.2 = lvl) (hd : c.deb = 0 ∨ t - reportedAt (reports c l0 w) > c.deb)
    (hb : ∀ x ∈ (t, lvl) :: h, x.1 < reportedAt (reports c l0 w) + 2 ^ 32)
    (hlong : ∃ x ∈ h, x.1 - t > c.fil) :
    ∃ t', reports c l0 (w ++ (t, lvl) :: h) = reports c l0 w ++ [(t', lvl)] := by
  have hs' := List.pairwise_append.mp hs
  have ht : ∀ x ∈ w, x.1 ≤ t := fun x hx => hs'.2.2 x hx (t, lvl) (by simp)
  have hth : ∀ x ∈ h, t ≤ x.1 := fun x hx => (List.pairwise_cons.mp hs'.2.1).1 x hx
  have hi := inv_reports c l0 w hs'.1
  have hpast := hi.past t ht
  have hall : ∀ x ∈ (t, lvl) :: h, x.2 = lvl := by
    intro x hx
    rcases List.mem_cons.mp hx with rfl | hx
    · rfl
    · exact ha x hx
  simp only [reports, feed_append] at *
  generalize (feed c (dInit l0) w).1 = s at *
  generalize (feed c (dInit l0) w).2 = rs at *
  suffices hq : ∃ t', (feed c s ((t, lvl) :: h)).2 = [(t', lvl)] by
    obtain ⟨t', e⟩ := hq; exact ⟨t', by rw [e]⟩
  have hp : s.prev ≠ lvl := by rw [hi.prev]; exact hne.symm
  have hbt := hb (t, lvl) (by simp)
  simp only at hbt
  by_cases hcand : s.cand = lvl
  · obtain ⟨t0, a, b, h1, h2, h3, h4, h5⟩ := hi.cand hf (by rw [hcand]; exact hp.symm)
    have h6 := ht (t0, s.cand) (by rw [h2]; simp)
    simp only at h6
    refine feed_waiting c lvl (reportedAt rs) t0 _ s hp hcand h1 hi.deb hall hs'.2.1 ?_ ?_
    · intro x hx
      have hxb := hb x hx
      have hxt : t ≤ x.1 := by
        rcases List.mem_cons.mp hx with rfl | hx
        · exact Nat.le_refl _
        · exact hth x hx
      refine ⟨by omega, by omega, by omega, by omega, ?_⟩
      rcases hd with hd | hd
      · exact .inl hd
      · right; omega
    · obtain ⟨y, hy, hyt⟩ := hlong
      exact ⟨y, by simp [hy], by omega⟩
  · have hu := update_case c s t lvl
    have hnb : c.deb = 0 ∨ since (clk t) s.debTs > c.deb := by
      rw [hi.deb, since_clk_eq t _ hpast (by omega)]; exact hd
    simp only [feed]
    have hw := feed_waiting c lvl (reportedAt rs) t h (update c s t lvl).1
    generalize (update c s t lvl).1 = s' at *
    generalize (update c s t lvl).2 = r at *
    cases hu with
    | report hd h hc hsf => exact absurd (hc.resolve_left hf).symm hcand
    | wait hd h hc hsf => exact absurd (hc.resolve_left hf).symm hcand
    | same hd h => exact absurd h.symm hp
    | blind h hbl =>
      rcases hnb with h0 | h0
      · exact absurd h0 h
      · omega
    | candidate hdd h hf hc =>
      rw [if_neg (lastState_ne _ _)]
      refine hw hp rfl rfl hi.deb ha (List.pairwise_cons.mp hs'.2.1).2 ?_ hlong
      intro x hx
      have hxb := hb x (by simp [hx])
      have hxt := hth x hx
      refine ⟨by omega, by omega, by omega, by omega, ?_⟩
      rcases hd with hd | hd
      · exact .inl hd
      · right; omega

/-- A waveform with a bounce: one press report at 150, none for the bounce; the hypotheses of the
theorems above are met. -/
example : reports { deb := 50, fil := 20, invert := false } false
    [(100, true), (110, false), (120, true), (130, true), (140, true), (150, true), (160, false),
      (170, true), (180, true)] = [(150, true)] := by decide +kernel

example : Sorted [(100, true), (110, false), (120, true), (130, true), (140, true), (150, true)] := by
  simp [Sorted]

example : ∃ t', reports { deb := 50, fil := 20, invert := false } false
    ([(100, true), (110, false)] ++ (120, true) :: [(130, true), (145, true)])
      = reports { deb := 50, fil := 20, invert := false } false [(100, true), (110, false)]
        ++ [(t', true)] :=
  debounce_complete _ _ _ _ _ _ (by decide) (by simp [Sorted]) (by decide +kernel)
    (by simp) (by decide +kernel) (by decide +kernel) ⟨(145, true), by simp, by decide⟩

end Verif.Button
