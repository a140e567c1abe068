import Verif.Sequence.Model

namespace Verif.Sequence

open Verif

/-! ### Specification -/

/-- Times of the changes of a history. -/
def changes : List (Nat × Res) → List Nat
  | [] => []
  | (t, r) :: h => if r.change then t :: changes h else changes h

/-- Intervals between consecutive times. -/
def gaps : Nat → List Nat → List Nat
  | _, [] => []
  | a, b :: r => (b - a) :: gaps b r

/-- One rhythm going on: time does not go back, no released pause longer than `longest` after
    the last change (at `last`). -/
def Ongoing (longest : Nat) : Nat → Nat → List (Nat × Res) → Prop
  | _, _, [] => True
  | last, now, (t, r) :: h => now ≤ t ∧ t - last < 2 ^ 32 ∧
      (r = .released → t - last ≤ longest) ∧
      Ongoing longest (if r.change then t else last) t h

/-- Last element of the changes (or the start). -/
def lastChange : Nat → List Nat → Nat
  | a, [] => a
  | _, b :: r => lastChange b r

/-- The English acceptance rule: as many intervals, each within the margin. -/
def Accept (m : Nat → Nat) : List Nat → List Nat → Bool
  | [], [] => true
  | w :: ws, g :: gs => decide (w ≤ g + m w) && decide (g ≤ w + m w) && Accept m ws gs
  | _, _ => false

/-- The configured intervals: the entries before the first zero. -/
def configured (want : List Nat) : List Nat := want.takeWhile (· ≠ 0)

/-- A rhythm: from rest, a first change at `t0`, then `h` without a long pause, then at `te` the
    button is found released for more than `longest`. -/
structure IsRhythm (longest t0 : Nat) (h : List (Nat × Res)) (te : Nat) : Prop where
  ongoing : Ongoing longest t0 t0 h
  late : lastChange t0 (changes h) + longest < te
  notTooLate : te < lastChange t0 (changes h) + 2 ^ 32

/-- Full claim: the verdict on a rhythm is the acceptance rule. -/
def RhythmExact : Prop := ∀ (m : Nat → Nat) (s : Seq) (t0 : Nat) (r0 : Res) (h : List (Nat × Res)) (te : Nat),
  Margin m → s.cnt = 0 → s.want.length = 30 → (∀ w ∈ s.want, w < 65536) → r0.change = true →
  s.longest < 65536 → IsRhythm s.longest t0 h te →
  (run m s ((t0, r0) :: h ++ [(te, .released)])).map (·.2) =
    some [Accept m (configured s.want) (gaps t0 (changes h))]

/-! ### Recording never leaves the buffer -/

theorem onTimer_length (m : Nat → Nat) (s : Seq) (now : Nat) (r : Res) (hl : s.cur.length = 30) :
    ∃ p, onTimer m s now r = some p ∧ p.1.cur.length = 30 := by
  unfold onTimer
  by_cases hr : r.change = true
  · rw [if_pos hr]
    unfold onChange
    by_cases h0 : s.cnt = 0
    · rw [if_pos h0]
      exact ⟨_, rfl, by simp⟩
    · rw [if_neg h0]
      by_cases h1 : s.cnt < 31
      · rw [if_pos h1]
        unfold record
        rw [if_pos (by omega)]
        exact ⟨_, rfl, by simpa using hl⟩
      · rw [if_neg h1]
        exact ⟨_, rfl, hl⟩
  · rw [if_neg hr]
    split
    · exact ⟨_, rfl, hl⟩
    · exact ⟨_, rfl, hl⟩

/-- However long the rhythm and whatever the times, no write falls outside the buffer. -/
theorem recording_in_bounds (m : Nat → Nat) (h : List (Nat × Res)) (s : Seq)
    (hl : s.cur.length = 30) : (run m s h).isSome := by
  induction h generalizing s with
  | nil => rfl
  | cons x h ih =>
    obtain ⟨t, r⟩ := x
    obtain ⟨p, hp, hl'⟩ := onTimer_length m s (clk t) r hl
    unfold run
    rw [hp]
    dsimp only
    have := ih p.1 hl'
    cases hq : run m p.1 h with
    | none => rw [hq] at this; exact absurd this (by simp)
    | some q => rfl

example : (run (fun _ => 30) {} ((List.range 600).map fun i => (i * 100, if i % 2 = 0 then Res.toPressed else .toReleased))).isSome :=
  recording_in_bounds _ _ _ rfl

/-! ### What is recorded -/

/-- State in the middle of a rhythm with intervals `d` recorded so far. -/
structure Recorded (s s0 : Seq) (last : Nat) (d : List Nat) : Prop where
  last : s.last = clk last
  cnt : s.cnt = d.length + 1
  len : s.cur.length = 30
  data : ∀ i, i < d.length → i < 30 → s.cur[i]? = some (d.getD i 0 % 65536)
  want : s.want = s0.want
  longest : s.longest = s0.longest

theorem recorded_run (m : Nat → Nat) (s0 : Seq) (h : List (Nat × Res)) :
    ∀ (s : Seq) (last now : Nat) (d : List Nat), Recorded s s0 last d → last ≤ now →
    Ongoing s0.longest last now h → d.length + (changes h).length ≤ 254 →
    ∃ s', run m s h = some (s', []) ∧
      Recorded s' s0 (lastChange last (changes h)) (d ++ gaps last (changes h)) := by
  induction h with
  | nil =>
    intro s last now d hr _ _ _
    exact ⟨s, rfl, by simpa [changes, gaps, lastChange] using hr⟩
  | cons x h ih =>
    intro s last now d hr hle ho hn
    obtain ⟨t, r⟩ := x
    obtain ⟨o1, o2, o3, o4⟩ := ho
    have hs : since (clk t) s.last = t - last := by
      rw [hr.last]; exact since_clk_eq _ _ (by omega) o2
    by_cases hc : r.change = true
    · rw [if_pos hc] at o4
      have hch : changes ((t, r) :: h) = t :: changes h := by simp [changes, hc]
      rw [hch] at hn ⊢
      simp only [List.length_cons] at hn
      have hstep : ∃ s1, onTimer m s (clk t) r = some (s1, none) ∧ Recorded s1 s0 t (d ++ [t - last]) := by
        unfold onTimer
        rw [if_pos hc]
        unfold onChange
        rw [if_neg (by rw [hr.cnt]; omega)]
        by_cases h31 : s.cnt < 31
        · rw [if_pos h31]
          unfold record
          have hc1 : s.cnt - 1 = d.length := by rw [hr.cnt]; omega
          rw [hc1, if_pos (by rw [hr.len]; rw [hr.cnt] at h31; omega)]
          refine ⟨_, rfl, ⟨rfl, ?_, ?_, ?_, hr.want, hr.longest⟩⟩
          · simp only [List.length_append, List.length_cons, List.length_nil]
            rw [hr.cnt]
          · simpa using hr.len
          · intro i hi hi30
            simp only [List.length_append, List.length_cons, List.length_nil] at hi
            by_cases hid : i = d.length
            · subst hid
              rw [List.getElem?_set]
              simp [hr.len, hi30, hs, List.getD]
            · have hlt : i < d.length := by omega
              rw [List.getElem?_set, if_neg (by omega), hr.data i hlt hi30]
              simp [List.getD, List.getElem?_append, hlt]
        · rw [if_neg h31]
          refine ⟨_, rfl, ⟨rfl, ?_, hr.len, ?_, hr.want, hr.longest⟩⟩
          · simp only [List.length_append, List.length_cons, List.length_nil]
            rw [hr.cnt, Nat.mod_eq_of_lt (by omega)]
          · intro i hi hi30
            have hlt : i < d.length := by rw [hr.cnt] at h31; omega
            rw [hr.data i hlt hi30]
            simp [List.getD, List.getElem?_append, hlt]
      obtain ⟨s1, e1, r1⟩ := hstep
      obtain ⟨s2, e2, r2⟩ := ih s1 t t (d ++ [t - last]) r1 (Nat.le_refl _) o4
        (by simp only [List.length_append, List.length_cons, List.length_nil]; omega)
      refine ⟨s2, ?_, ?_⟩
      · unfold run
        rw [e1]; dsimp only; rw [e2]; rfl
      · simpa [gaps, lastChange, List.append_assoc] using r2
    · rw [if_neg hc] at o4
      have hch : changes ((t, r) :: h) = changes h := by simp [changes, hc]
      rw [hch] at hn ⊢
      have hstep : onTimer m s (clk t) r = some (s, none) := by
        unfold onTimer
        rw [if_neg hc, hs, hr.longest]
        by_cases hrel : r = .released
        · have := o3 hrel
          rw [if_neg (by simp only [Bool.and_eq_true, decide_eq_true_eq]; omega)]
        · rw [if_neg (by simp [hrel])]
      obtain ⟨s2, e2, r2⟩ := ih s last t d hr (by omega) o4 hn
      refine ⟨s2, ?_, r2⟩
      unfold run
      rw [hstep]; dsimp only; rw [e2]; rfl

/-! ### The verdict -/

theorem within_iff (m : Nat → Nat) (hm : Margin m) (w g : Nat) (hw : 20 ≤ w) (hw2 : w < 65536) :
    within m w g = (decide (w ≤ g + m w) && decide (g ≤ w + m w)) := by
  have h1 := (hm w).1
  have h2 := (hm w).2
  have e1 : (w + 2 ^ 32 - m w) % 2 ^ 32 = w - m w := by omega
  have e2 : (w + m w) % 2 ^ 32 = w + m w := by omega
  unfold within
  rw [e1, e2]
  congr 1
  exact decide_eq_decide.mpr (by omega)

theorem accept_eq (m : Nat → Nat) (hm : Margin m) (ws : List Nat) : ∀ (gs cur : List Nat) (rest : List Nat),
    (∀ w ∈ ws, 20 ≤ w ∧ w < 65536) → gs.length = ws.length →
    (∀ i, i < gs.length → cur[i]? = some (gs.getD i 0)) →
    (((ws ++ rest).zip cur).take ws.length).all (fun p => within m p.1 p.2) = Accept m ws gs := by
  induction ws with
  | nil =>
    intro gs cur rest _ hl _
    cases gs with
    | nil => rfl
    | cons _ _ => simp at hl
  | cons w ws ih =>
    intro gs cur rest hw hl hc
    cases gs with
    | nil => simp at hl
    | cons g gs =>
      cases cur with
      | nil => have := hc 0 (by simp); simp at this
      | cons c cur =>
        have h0 := hc 0 (by simp)
        simp [List.getD] at h0
        subst h0
        have := ih gs cur rest (fun v hv => hw v (by simp [hv])) (by simpa using hl)
          (fun i hi => by
            have := hc (i + 1) (by simpa using hi)
            simpa [List.getD] using this)
        simp only [List.cons_append, List.zip_cons_cons, List.length_cons, List.take_succ_cons, List.all_cons, Accept]
        rw [this, within_iff m hm w c (hw w (by simp)).1 (hw w (by simp)).2]

theorem accept_length (m : Nat → Nat) (ws : List Nat) : ∀ gs, ws.length ≠ gs.length →
    Accept m ws gs = false := by
  induction ws with
  | nil => intro gs h; cases gs with
    | nil => exact absurd rfl h
    | cons _ _ => rfl
  | cons w ws ih =>
    intro gs h
    cases gs with
    | nil => rfl
    | cons g gs =>
      simp only [Accept]
      rw [ih gs (by simpa using h)]
      simp

theorem gaps_length (l : List Nat) : ∀ a, (gaps a l).length = l.length := by
  induction l with
  | nil => intro a; rfl
  | cons b r ih => intro a; simp [gaps, ih]

theorem takeWhile_append_drop (want : List Nat) :
    configured want ++ want.dropWhile (· ≠ 0) = want := by
  unfold configured
  exact List.takeWhile_append_dropWhile

theorem takeWhile_length_le (want : List Nat) : (configured want).length ≤ want.length := by
  unfold configured
  exact (List.takeWhile_prefix _).length_le

theorem mem_configured (want : List Nat) (w : Nat) (h : w ∈ configured want) : w ∈ want := by
  unfold configured at h
  exact (List.takeWhile_prefix _).subset h

/-- The verdict is the acceptance rule for every rhythm of up to 254 intervals, each interval below
    65.536 s, and every configured sequence of fewer than 30 intervals of at least 20 ms.
    Missing for the full claim: longer rhythms, longer holds, a full 30-entry sequence and shorter
    configured intervals, for all of which it is false (see the violations). -/
theorem rhythm_verdict_partial (m : Nat → Nat) (s : Seq) (t0 : Nat) (r0 : Res) (h : List (Nat × Res)) (te : Nat)
    (hm : Margin m) (h0 : s.cnt = 0)
    (hwant : ∀ w ∈ configured s.want, 20 ≤ w ∧ w < 65536) (hr0 : r0.change = true)
    (hlg : s.longest < 65536) (hr : IsRhythm s.longest t0 h te)
    (hcfg : (configured s.want).length < 30) (hn : (changes h).length ≤ 254)
    (hg : ∀ g ∈ gaps t0 (changes h), g < 65536) :
    (run m s ((t0, r0) :: h ++ [(te, .released)])).map (·.2) =
      some [Accept m (configured s.want) (gaps t0 (changes h))] := by
  have hfirst : onTimer m s (clk t0) r0 = some ({ s with last := clk t0, cur := List.replicate 30 0, cnt := 1 }, none) := by
    unfold onTimer
    rw [if_pos hr0]
    unfold onChange
    rw [if_pos h0]; rfl
  obtain ⟨s2, e2, r2⟩ := recorded_run m s h { s with last := clk t0, cur := List.replicate 30 0, cnt := 1 } t0 t0 []
    ⟨rfl, rfl, by simp, (by intro i hi; simp at hi), rfl, rfl⟩ (Nat.le_refl _) hr.ongoing
    (by simpa using hn)
  simp only [List.nil_append] at r2
  have hlast : onTimer m s2 (clk te) .released = some ({ s2 with cnt := 0 }, some (verdict m s2)) := by
    have hs : since (clk te) s2.last = te - lastChange t0 (changes h) := by
      rw [r2.last]
      have a1 := hr.late
      have a2 := hr.notTooLate
      exact since_clk_eq _ _ (by omega) (by omega)
    unfold onTimer
    have a1 := hr.late
    have a3 := r2.cnt
    rw [if_neg (by simp [Res.change]), hs, r2.longest, if_pos ?_]
    simp only [Bool.and_eq_true, decide_eq_true_eq]
    exact ⟨⟨by omega, trivial⟩, by omega⟩
  have happ : ∀ (h : List (Nat × Res)) (q q' : Seq), run m q h = some (q', []) →
      run m q (h ++ [(te, .released)]) = match onTimer m q' (clk te) .released with
        | none => none
        | some (a, v) => some (a, v.toList ++ []) := by
    intro h
    induction h with
    | nil =>
      intro q q' hq
      simp only [run] at hq
      injection hq with hq
      injection hq with hq _
      subst hq
      simp only [List.nil_append, run]
      cases onTimer m q (clk te) .released with
      | none => rfl
      | some a => rfl
    | cons x h ih =>
      intro q q' hq
      obtain ⟨t, r⟩ := x
      simp only [run, List.cons_append] at hq ⊢
      cases hx : onTimer m q (clk t) r with
      | none => rw [hx] at hq; cases hq
      | some p =>
        rw [hx] at hq
        dsimp only at hq ⊢
        cases hy : run m p.1 h with
        | none => rw [hy] at hq; cases hq
        | some z =>
          obtain ⟨z1, z2⟩ := z
          rw [hy] at hq
          dsimp only at hq
          injection hq with hq
          injection hq with hq1 hq2
          subst hq1
          have hv := List.append_eq_nil_iff.mp hq2
          rw [hv.2] at hy
          rw [ih p.1 z1 hy, hv.1]
          cases onTimer m z1 (clk te) .released with
          | none => rfl
          | some a => rfl
  have hall : run m s ((t0, r0) :: (h ++ [(te, .released)])) =
      some ({ s2 with cnt := 0 }, [verdict m s2]) := by
    unfold run
    rw [hfirst]
    dsimp only
    rw [happ h _ _ e2, hlast]
    rfl
  have hv : verdict m s2 = Accept m (configured s.want) (gaps t0 (changes h)) := by
    unfold verdict
    rw [r2.want, r2.cnt]
    have hws : wantSize s.want = (configured s.want).length := rfl
    have hgl := gaps_length (changes h) t0
    rw [hws, hgl]
    by_cases hlen : (configured s.want).length = (changes h).length
    · have hmin : min ((changes h).length + 1) 31 - 1 = (changes h).length := by omega
      rw [hmin, if_neg (by omega)]
      have := accept_eq m hm (configured s.want) (gaps t0 (changes h)) s2.cur (s.want.dropWhile (· ≠ 0)) hwant
        (by rw [hgl, hlen])
        (fun i hi => by
          rw [r2.data i hi (by omega)]
          have : (gaps t0 (changes h)).getD i 0 < 65536 := by
            rw [List.getD_eq_getElem?_getD, List.getElem?_eq_getElem hi]
            exact hg _ (List.getElem_mem hi)
          rw [Nat.mod_eq_of_lt this])
      rw [takeWhile_append_drop, hlen] at this
      exact this
    · rw [if_pos (by omega), accept_length m _ _ (by rw [hgl]; exact hlen)]
  rw [List.cons_append, hall, hv]
  rfl

/-- Three clicks in the rhythm 100, 200, 100 ms and a wrong one. -/
def demo : Seq := { want := [100, 200, 100] ++ List.replicate 27 0, longest := 500 }
example : (run (fun _ => 30) demo [(1000, .toPressed), (1050, .pressed), (1110, .toReleased), (1310, .toPressed), (1400, .toReleased), (1950, .released)]).map (·.2) = some [true] := by
  decide +kernel
example : (run (fun _ => 30) demo [(1000, .toPressed), (1050, .pressed), (1110, .toReleased), (1310, .toPressed), (1500, .toReleased), (2050, .released)]).map (·.2) = some [false] := by
  decide +kernel
example : IsRhythm 500 1000 [(1050, .pressed), (1110, .toReleased), (1310, .toPressed), (1400, .toReleased)] 1950 :=
  ⟨by simp [Ongoing, Res.change], by simp [changes, Res.change, lastChange], by simp [changes, Res.change, lastChange]⟩
/-- The default margin, 30 %. -/
def third (w : Nat) : Nat := max 20 (w * 3 / 10)

theorem margin_third : Margin third := by
  intro w; unfold third; constructor <;> omega

/-! ### Violations of the full claim -/

/-- A press held for 65.636 s is taken for one of 100 ms. -/
theorem long_hold_violation : ¬ RhythmExact := by
  intro h
  have := h third { want := 100 :: List.replicate 29 0, longest := 500 } 1000 .toPressed
    [(66636, .toReleased)] 67200 margin_third rfl (by decide)
    (by decide) rfl (by decide)
    ⟨by simp [Ongoing, Res.change], by simp [changes, Res.change, lastChange], by simp [changes, Res.change, lastChange]⟩
  revert this; decide +kernel

/-- A configured interval of 10 ms is never recognised, although the margin is 20 ms. -/
theorem short_interval_violation : ¬ RhythmExact := by
  intro h
  have := h third { want := 10 :: List.replicate 29 0, longest := 500 } 1000 .toPressed
    [(1010, .toReleased)] 1600 margin_third rfl (by decide)
    (by decide) rfl (by decide)
    ⟨by simp [Ongoing, Res.change], by simp [changes, Res.change, lastChange], by simp [changes, Res.change, lastChange]⟩
  revert this; decide +kernel

/-- `n` further changes every 100 ms. -/
def clicks (n : Nat) : List (Nat × Res) :=
  (List.range n).map fun i => (1100 + 100 * i, if i % 2 = 0 then Res.toReleased else .toPressed)

/-- The same, decidable. -/
def ongoingB (longest : Nat) : Nat → Nat → List (Nat × Res) → Bool
  | _, _, [] => true
  | last, now, (t, r) :: h => decide (now ≤ t) && decide (t - last < 2 ^ 32) &&
      (decide (r ≠ .released) || decide (t - last ≤ longest)) && ongoingB longest (if r.change then t else last) t h

theorem ongoingB_sound (longest : Nat) (h : List (Nat × Res)) : ∀ last now,
    ongoingB longest last now h = true → Ongoing longest last now h := by
  induction h with
  | nil => intro _ _ _; trivial
  | cons x h ih =>
    intro last now hb
    obtain ⟨t, r⟩ := x
    simp only [ongoingB, Bool.and_eq_true, Bool.or_eq_true, decide_eq_true_eq] at hb
    exact ⟨hb.1.1.1, hb.1.1.2, fun hr => hb.1.2.resolve_left (fun hn => hn hr), ih _ _ hb.2⟩

/-- A configured sequence of 30 intervals is accepted although the rhythm has 31 (and with an even
    number of intervals a rhythm that starts from a released button can never end released, so
    this is the only way such a sequence is ever accepted). -/
theorem full_sequence_violation : ¬ RhythmExact := by
  intro h
  have := h third { want := List.replicate 30 100, longest := 500 } 1000 .toPressed
    (clicks 31) 10000 margin_third rfl (by decide)
    (by decide) rfl (by decide)
    ⟨ongoingB_sound _ _ _ _ (by decide +kernel), by decide +kernel, by decide +kernel⟩
  revert this; decide +kernel

/-- A rhythm of 257 intervals is taken for its last one: the 8-bit counter starts over. -/
theorem counter_wrap_violation : ¬ RhythmExact := by
  intro h
  have := h third { want := 100 :: List.replicate 29 0, longest := 500 } 1000 .toPressed
    (clicks 257) 30000 margin_third rfl (by decide)
    (by decide) rfl (by decide)
    ⟨ongoingB_sound _ _ _ _ (by decide +kernel), by decide +kernel, by decide +kernel⟩
  revert this; decide +kernel

/-- After any verdict the button is ready for the next rhythm, and a verdict is given at most once
    per rhythm. -/
theorem verdict_ends_rhythm (m : Nat → Nat) (s s' : Seq) (now : Nat) (r : Res) (v : Bool)
    (h : onTimer m s now r = some (s', some v)) : s'.cnt = 0 ∧ 0 < s.cnt ∧ r = .released ∧
      ∀ now' r', r'.change = false → onTimer m s' now' r' = some (s', none) := by
  unfold onTimer at h
  by_cases hr : r.change = true
  · rw [if_pos hr] at h
    cases hx : onChange s now with
    | none => rw [hx] at h; cases h
    | some q => rw [hx] at h; simp at h
  · rw [if_neg hr] at h
    by_cases hc : (decide (0 < s.cnt) && decide (r = .released) && decide (since now s.last > s.longest)) = true
    · rw [if_pos hc] at h
      simp only [Bool.and_eq_true, decide_eq_true_eq] at hc
      injection h with h
      injection h with h _
      subst h
      refine ⟨rfl, hc.1.1, hc.1.2, ?_⟩
      intro now' r' hr'
      unfold onTimer
      rw [if_neg (by simp [hr']), if_neg (by simp)]
    · rw [if_neg hc] at h
      simp at h

/-! ### Length of a pause -/

theorem foldl_max_ge (l : List Nat) : ∀ a, a ≤ l.foldl max a ∧ ∀ w ∈ l, w ≤ l.foldl max a := by
  induction l with
  | nil => intro a; exact ⟨Nat.le_refl _, by simp⟩
  | cons b r ih =>
    intro a
    have h := ih (max a b)
    simp only [List.foldl_cons]
    refine ⟨by omega, ?_⟩
    intro w hw
    rcases List.mem_cons.mp hw with rfl | hw
    · omega
    · exact h.2 w hw

/-- Full claim: a pause that is within the margin of a configured interval does not end the
    rhythm. -/
def PauseWithinMarginKept : Prop := ∀ (m : Nat → Nat) (s s' : Seq) (seq : List Nat), Margin m →
  setSequence s seq = some s' → ∀ w ∈ seq, ∀ g, g ≤ w + m w → g ≤ s'.longest

/-- True for margins up to 50 % (the default is 30 %). -/
theorem pause_within_margin_kept_partial (m : Nat → Nat) (s s' : Seq) (seq : List Nat)
    (hm : ∀ w, m w ≤ max 20 (w / 2)) (h : setSequence s seq = some s') (w : Nat) (hw : w ∈ seq)
    (g : Nat) (hg : g ≤ w + m w) : g ≤ s'.longest := by
  unfold setSequence at h
  split at h
  · cases h
  · injection h with h
    subst h
    have h1 := (foldl_max_ge seq 0).2 w hw
    have h2 := hm w
    revert h1
    generalize seq.foldl max 0 = z
    intro h1
    show g ≤ max 500 (z * 3 / 2)
    omega

example : ∃ s', setSequence {} (100 :: 600 :: List.replicate 28 0) = some s' ∧ s'.longest = 900 := by
  refine ⟨_, rfl, by decide +kernel⟩

/-- Violation: with a margin of 100 % a pause of 1.8 s for a configured 1 s is within the margin but
    ends the rhythm after 1.5 s. -/
theorem pause_cut_off_violation : ¬ PauseWithinMarginKept := by
  intro h
  have := h (fun w => max 20 w) {} { want := 1000 :: List.replicate 29 0, longest := 1500 } (1000 :: List.replicate 29 0)
    (by intro w; dsimp only; omega) (by decide +kernel) 1000 (by simp) 1800 (by decide)
  revert this; decide

end Verif.Sequence
