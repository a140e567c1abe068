import Verif.Drop.Model
import Mathlib.Algebra.BigOperators.Group.List.Basic

/-!
# C98: an open window, noticed by a drop of the temperature
-/

namespace Verif.Drop

/-! ## The ring of measurements is the list of readings -/

theorem take_range {α : Type} (l : List α) (n : Nat) : (List.range n).filterMap (fun i => l[i]?) = l.take n := by
  induction n with
  | zero => simp
  | succ n ih =>
    rw [List.range_succ, List.filterMap_append, ih, List.take_add_one]
    cases h : l[n]? <;> simp [h]

/-- The ring holds the last 60 readings. -/
def Holds (s : St) (rs : List Int) : Prop :=
  s.idx = rs.length % 60 ∧ (∀ r ∈ rs, unset < r) ∧ ∀ j < 60, s.meas ((s.idx + 59 - j) % 60) = rs[j]?.getD unset

theorem window_eq (s : St) (rs : List Int) (h : Holds s rs) : window s.meas (from26 s.idx) = ((rs.drop 5).take 21).reverse := by
  obtain ⟨hi, hv, hm⟩ := h
  have hlt : s.idx < 60 := by omega
  have h1 : (List.range 21).map (fun i => s.meas ((from26 s.idx + i) % 60)) = ((List.range 21).reverse).map (fun i => (rs.drop 5)[i]?.getD unset) := by
    have hr : (List.range 21).reverse = (List.range 21).map (fun i => 20 - i) := by decide
    rw [hr, List.map_map]
    apply List.map_congr_left
    intro i hi21
    have hi21 : i < 21 := List.mem_range.mp hi21
    have e : (from26 s.idx + i) % 60 = (s.idx + 59 - (25 - i)) % 60 := by unfold from26; split <;> omega
    rw [e, hm _ (by omega)]
    show rs[25 - i]?.getD unset = (rs.drop 5)[20 - i]?.getD unset
    rw [List.getElem?_drop, show 5 + (20 - i) = 25 - i from by omega]
  unfold window
  rw [h1, List.map_reverse, List.filter_reverse]
  congr 1
  rw [← take_range, List.filter_map]
  have h2 : ∀ l : List Nat, List.map (fun i => (rs.drop 5)[i]?.getD unset) (List.filter ((fun t => decide (unset < t)) ∘ fun i => (rs.drop 5)[i]?.getD unset) l)
      = l.filterMap (fun i => (rs.drop 5)[i]?) := by
    intro l
    induction l with
    | nil => rfl
    | cons a l ih =>
      rw [List.filter_cons, List.filterMap_cons]
      cases hq : (rs.drop 5)[a]? with
      | none =>
        have hf : ((fun t => decide (unset < t)) ∘ fun i => (rs.drop 5)[i]?.getD unset) a = false := by
          show decide (unset < (rs.drop 5)[a]?.getD unset) = false
          rw [hq]; rfl
        rw [hf, if_neg Bool.false_ne_true]
        exact ih
      | some x =>
        have hx : unset < x := by
          apply hv
          rw [List.getElem?_drop] at hq
          exact List.mem_of_getElem? hq
        have hf : ((fun t => decide (unset < t)) ∘ fun i => (rs.drop 5)[i]?.getD unset) a = true := by
          show decide (unset < (rs.drop 5)[a]?.getD unset) = true
          rw [hq]; exact decide_eq_true hx
        rw [hf, if_pos rfl, List.map_cons, ih, hq]
        rfl
  exact h2 _

theorem sum_bound (l : List Int) (h : ∀ r ∈ l, unset < r) : (unset + 1) * l.length ≤ l.sum := by
  induction l with
  | nil => simp
  | cons a l ih =>
    have h1 := ih (fun r hr => h r (List.mem_cons_of_mem _ hr))
    have h2 := h a List.mem_cons_self
    rw [List.sum_cons, List.length_cons]
    push_cast
    unfold unset at *
    omega

theorem average_eq (s : St) (rs : List Int) (h : Holds s rs) :
    average s.meas (from26 s.idx) = (before rs).getD unset ∧ ∀ a, before rs = some a → unset < a := by
  have hw := window_eq s rs h
  have hall : ∀ r ∈ (rs.drop 5).take 21, unset < r := fun r hr => h.2.1 r (List.mem_of_mem_drop (List.mem_of_mem_take hr))
  unfold average before
  rw [hw, List.length_reverse, List.sum_reverse]
  generalize hq : (rs.drop 5).take 21 = w at *
  dsimp only
  cases w with
  | nil => exact ⟨rfl, fun a ha => by cases ha⟩
  | cons x w =>
    rw [if_neg (by simp), if_neg (by simp)]
    refine ⟨rfl, ?_⟩
    intro a ha
    have ha := Option.some.inj ha
    have hs := sum_bound _ hall
    rw [← ha]
    have hl : (0 : Int) < (x :: w).length := by simp
    generalize ((x :: w).length : Int) = n at *
    generalize (x :: w).sum = t at *
    have h3 : (unset + 1) ≤ Int.tdiv t n := by
      have := Int.tdiv_le_tdiv hl hs
      rw [Int.mul_tdiv_cancel _ (by omega)] at this
      exact this
    omega

/-- The verdict is what is meant. -/
theorem detect_eq (s : St) (rs : List Int) (h : Holds s rs) (t : Int) :
    ((detect s t).2 = true ↔ ∃ a, before rs = some a ∧ t + 200 < a) := by
  obtain ⟨h1, h2⟩ := average_eq s rs h
  unfold detect
  dsimp only
  rw [h1]
  cases hb : before rs with
  | none => simp [unset]
  | some a =>
    have := h2 a hb
    simp only [Option.getD_some, Bool.and_eq_true, decide_eq_true_eq, Option.some.injEq, exists_eq_left']
    omega

theorem store_holds (s : St) (rs : List Int) (h : Holds s rs) (t : Int) : Holds (store s t) (if unset < t then t :: rs else rs) := by
  unfold store
  split
  · rename_i ht
    obtain ⟨hi, hv, hm⟩ := h
    refine ⟨?_, ?_, ?_⟩
    · dsimp only
      rw [List.length_cons]
      split <;> omega
    · intro r hr
      rcases List.mem_cons.mp hr with rfl | hr
      · exact ht
      · exact hv r hr
    · intro j hj
      dsimp only
      cases j with
      | zero =>
        rw [if_pos (by split <;> omega)]
        rfl
      | succ j =>
        rw [if_neg (by split <;> omega)]
        have e : ((if s.idx + 1 ≥ 60 then 0 else s.idx + 1) + 59 - (j + 1)) % 60 = (s.idx + 59 - j) % 60 := by split <;> omega
        rw [e, hm j (by omega)]
        rfl
  · exact h

/-! ## Histories -/

/-- The time since the last reading, before a pass. -/
theorem taken_recent (g : Nat) (p : Pass) (ps : List Pass) (h : Paced g (p :: ps)) : (taken ps).1 ≤ p.now ∧ p.now < (taken ps).1 + 30000 + g + 1 := by
  induction ps generalizing p with
  | nil =>
    have h : p.now ≤ g := h
    refine ⟨Nat.zero_le _, ?_⟩
    show p.now < 0 + 30000 + g + 1
    omega
  | cons q qs ih =>
    obtain ⟨h1, h2, h3⟩ := h
    have := ih q h3
    show (if takes (taken qs).1 q then (q.now, if unset < q.temp then q.temp :: (taken qs).2 else (taken qs).2) else taken qs).1 ≤ _ ∧
      _ < (if takes (taken qs).1 q then (q.now, if unset < q.temp then q.temp :: (taken qs).2 else (taken qs).2) else taken qs).1 + 30000 + g + 1
    split
    · constructor
      · exact h1
      · show p.now < q.now + 30000 + g + 1
        omega
    · rename_i hn
      have hn : ¬ (taken qs).1 + 30000 ≤ q.now := by simpa [takes] using hn
      constructor <;> omega

theorem paced_tail (g : Nat) (p : Pass) (ps : List Pass) (h : Paced g (p :: ps)) : Paced g ps := by
  cases ps with
  | nil => trivial
  | cons q qs => exact h.2.2

theorem recover_holds (s : St) (t : Int) (rs : List Int) (h : Holds s rs) : Holds (recover s t) rs := by
  unfold recover; repeat' split
  all_goals exact h
theorem expire_holds (s : St) (t : Nat) (rs : List Int) (h : Holds s rs) : Holds (expire t s) rs := by
  unfold expire; split <;> exact h
theorem notice_holds (s : St) (n : Nat) (t : Int) (rs : List Int) (h : Holds s rs) : Holds (notice n s t) rs := by
  unfold notice; split <;> exact h
theorem recover_last (s : St) (t : Int) : (recover s t).last = s.last := by
  unfold recover
  split
  · split <;> rfl
  · rfl
theorem expire_last (s : St) (n : Nat) : (expire n s).last = s.last := by unfold expire; split <;> rfl
theorem notice_last (s : St) (n : Nat) (t : Int) : (notice n s t).last = s.last := by unfold notice; split <;> rfl
theorem store_last (s : St) (t : Int) : (store s t).last = s.last := by unfold store; split <;> rfl

/-- A pass reads the thermometer exactly when one is due. -/
theorem due_iff (g : Nat) (hg : g ≤ 2 ^ 31) (p : Pass) (ps : List Pass) (h : Paced g (p :: ps)) (hl : (run ps).last = clk (taken ps).1) :
    (since (clk p.now) (run ps).last ≥ 30000 ↔ takes (taken ps).1 p = true) := by
  obtain ⟨h1, h2⟩ := taken_recent g p ps h
  rw [hl, since_clk_eq _ _ h1 (by omega)]
  unfold takes
  rw [decide_eq_true_eq]
  omega

/-- What the program knows is what is meant, after any history. -/
theorem run_holds (g : Nat) (hg : g ≤ 2 ^ 31) (ps : List Pass) (h : Paced g ps) : Holds (run ps) (taken ps).2 ∧ (run ps).last = clk (taken ps).1 := by
  induction ps with
  | nil =>
    refine ⟨⟨rfl, fun r hr => absurd hr List.not_mem_nil, ?_⟩, rfl⟩
    intro j hj
    rfl
  | cons p ps ih =>
    obtain ⟨ih, il⟩ := ih (paced_tail g p ps h)
    have hd := due_iff g hg p ps h il
    have hs := store_holds { run ps with last := clk p.now } (taken ps).2 ih p.temp
    show Holds (step (run ps) p) (if takes (taken ps).1 p then (p.now, if unset < p.temp then p.temp :: (taken ps).2 else (taken ps).2) else taken ps).2 ∧
      (step (run ps) p).last = clk (if takes (taken ps).1 p then (p.now, if unset < p.temp then p.temp :: (taken ps).2 else (taken ps).2) else taken ps).1
    unfold step
    by_cases hq : takes (taken ps).1 p = true
    · rw [if_pos (hd.mpr hq), if_pos hq]
      dsimp only
      split
      · exact ⟨expire_holds _ _ _ (recover_holds _ _ _ hs), by rw [expire_last, recover_last, store_last]⟩
      · exact ⟨notice_holds _ _ _ _ hs, by rw [notice_last, store_last]⟩
    · rw [if_neg (fun hc => hq (hd.mp hc)), if_neg hq]
      exact ⟨ih, il⟩

/-! ## When a report begins -/

/-- A temperature is more than two degrees lower than it was some minutes ago. -/
def Below (t : Int) (rs : List Int) : Prop := ∃ a, before rs = some a ∧ t + 200 < a

/-- What one pass does that reads the thermometer. -/
theorem step_due (g : Nat) (hg : g ≤ 2 ^ 31) (p : Pass) (ps : List Pass) (h : Paced g (p :: ps)) (hq : takes (taken ps).1 p = true) :
    ∃ s : St, Holds s (taken (p :: ps)).2 ∧ s.ts = (run ps).ts ∧ s.closed = (run ps).closed ∧ s.avg = (run ps).avg ∧
      run (p :: ps) = if s.ts ≠ 0 then expire p.now (recover s p.temp) else notice p.now s p.temp := by
  obtain ⟨ih, il⟩ := run_holds g hg ps (paced_tail g p ps h)
  have hs := store_holds { run ps with last := clk p.now } (taken ps).2 ih p.temp
  refine ⟨store { run ps with last := clk p.now } p.temp, ?_, ?_, ?_, ?_, ?_⟩
  · show Holds _ (if takes (taken ps).1 p then (p.now, if unset < p.temp then p.temp :: (taken ps).2 else (taken ps).2) else taken ps).2
    rw [if_pos hq]
    exact hs
  · unfold store; split <;> rfl
  · unfold store; split <;> rfl
  · unfold store; split <;> rfl
  · show step (run ps) p = _
    unfold step
    rw [if_pos ((due_iff g hg p ps h il).mpr hq)]

/-- A pass that does not read the thermometer does nothing. -/
theorem step_idle (g : Nat) (hg : g ≤ 2 ^ 31) (p : Pass) (ps : List Pass) (h : Paced g (p :: ps)) (hq : ¬ takes (taken ps).1 p = true) :
    run (p :: ps) = run ps ∧ taken (p :: ps) = taken ps := by
  obtain ⟨_, il⟩ := run_holds g hg ps (paced_tail g p ps h)
  constructor
  · show step (run ps) p = _
    unfold step
    rw [if_neg (fun hc => hq ((due_iff g hg p ps h il).mp hc))]
  · show (if takes (taken ps).1 p then _ else taken ps) = _
    rw [if_neg hq]

/-- While the window counts as closed, no drop is noted. -/
theorem closed_ts (ps : List Pass) (hc : (run ps).closed = true) : (run ps).ts = 0 := by
  induction ps with
  | nil => rfl
  | cons p ps ih =>
    have hst : ∀ t, (store { run ps with last := clk p.now } t).ts = (run ps).ts ∧ (store { run ps with last := clk p.now } t).closed = (run ps).closed := by
      intro t; unfold store; split <;> exact ⟨rfl, rfl⟩
    have hc : (step (run ps) p).closed = true := hc
    show (step (run ps) p).ts = 0
    unfold step at hc ⊢
    split at hc
    · rename_i hd
      rw [if_pos hd]
      dsimp only at hc ⊢
      obtain ⟨e1, e2⟩ := hst p.temp
      generalize store { run ps with last := clk p.now } p.temp = s at *
      split at hc
      · rename_i hts
        rw [if_pos hts]
        unfold expire at hc ⊢
        split at hc
        · rename_i hx; rw [if_pos hx]
        · rename_i hx
          rw [if_neg hx]
          unfold recover at hc ⊢
          split at hc
          · rename_i hy
            rw [if_pos hy]
            split at hc
            · rename_i hz
              rw [if_pos hz]
              show s.ts = 0
              rw [e1]
              exact ih (by rw [← e2]; exact hc)
            · rename_i hz; rw [if_neg hz]
          · rename_i hy
            rw [if_neg hy, e1]
            exact ih (by rw [← e2]; exact hc)
      · rename_i hts
        rw [if_neg hts]
        unfold notice at hc ⊢
        split at hc
        · cases hc
        · rename_i hx
          rw [if_neg hx]
          exact Decidable.not_not.mp hts
    · rename_i hd
      rw [if_neg hd]
      exact ih hc

/-- The full claim: a window is reported as opened only because of a reading that is more than two degrees lower than
it was some minutes ago. -/
def OnlyDrops : Prop :=
  ∀ g ≤ 2 ^ 31, ∀ p ps, Paced g (p :: ps) → (run ps).closed = true → (run (p :: ps)).closed = false → p.valid ∧ Dropped (taken (p :: ps)).2

/-- Exactly: while the window counts as closed, a pass reports it open if and only if it reads the thermometer and
what it gets is more than two degrees lower than it was. -/
theorem opens_iff (g : Nat) (hg : g ≤ 2 ^ 31) (p : Pass) (ps : List Pass) (h : Paced g (p :: ps)) (hc : (run ps).closed = true) :
    (run (p :: ps)).closed = false ↔ takes (taken ps).1 p = true ∧ Below p.temp (taken (p :: ps)).2 := by
  by_cases hq : takes (taken ps).1 p = true
  · obtain ⟨s, hs, h1, h2, _, h4⟩ := step_due g hg p ps h hq
    have hts : s.ts = 0 := by rw [h1]; exact closed_ts ps hc
    rw [h4, if_neg (fun hn => hn hts)]
    have hd := detect_eq s _ hs p.temp
    unfold notice
    constructor
    · intro ho
      refine ⟨hq, hd.mp ?_⟩
      cases hx : (detect s p.temp).2 with
      | true => rfl
      | false =>
        rw [hx, if_neg Bool.false_ne_true] at ho
        rw [show ({ s with avg := (detect s p.temp).1 } : St).closed = s.closed from rfl, h2, hc] at ho
        cases ho
    · intro ⟨_, hb⟩
      rw [hd.mpr hb, if_pos rfl]
  · rw [(step_idle g hg p ps h hq).1, hc]
    simp [hq]

theorem head_taken (p : Pass) (ps : List Pass) (hq : takes (taken ps).1 p = true) (hv : p.valid) : (taken (p :: ps)).2.head? = some p.temp := by
  show (if takes (taken ps).1 p then (p.now, if unset < p.temp then p.temp :: (taken ps).2 else (taken ps).2) else taken ps).2.head? = _
  rw [if_pos hq]
  show (if unset < p.temp then p.temp :: (taken ps).2 else (taken ps).2).head? = _
  rw [if_pos (show unset < p.temp from hv)]
  rfl

/-- **C98.** With a reading, a window is reported as opened only because of a drop. -/
theorem only_drops_partial (g : Nat) (hg : g ≤ 2 ^ 31) (p : Pass) (ps : List Pass) (h : Paced g (p :: ps)) (hv : p.valid)
    (hc : (run ps).closed = true) (ho : (run (p :: ps)).closed = false) : Dropped (taken (p :: ps)).2 := by
  obtain ⟨hq, a, hb, hl⟩ := (opens_iff g hg p ps h hc).mp ho
  exact ⟨p.temp, a, head_taken p ps hq hv, hb, hl⟩

/-- **Finding.** A thermometer that is lost counts as a drop, whatever (physically possible) temperature it was. -/
theorem missing_opens (g : Nat) (hg : g ≤ 2 ^ 31) (p : Pass) (ps : List Pass) (h : Paced g (p :: ps)) (hc : (run ps).closed = true)
    (hq : takes (taken ps).1 p = true) (hm : p.temp = unset) (a : Int) (hb : before (taken ps).2 = some a) (ha : -27300 ≤ a) :
    (run (p :: ps)).closed = false := by
  apply (opens_iff g hg p ps h hc).mpr
  refine ⟨hq, a, ?_, by rw [hm]; unfold unset; omega⟩
  show before (if takes (taken ps).1 p then (p.now, if unset < p.temp then p.temp :: (taken ps).2 else (taken ps).2) else taken ps).2 = some a
  rw [if_pos hq]
  show before (if unset < p.temp then p.temp :: (taken ps).2 else (taken ps).2) = some a
  rw [if_neg (by omega)]
  exact hb

/-- Ten readings of 23 degrees, 30 seconds apart. -/
def warm : List Pass := [⟨300000, 2300⟩, ⟨270000, 2300⟩, ⟨240000, 2300⟩, ⟨210000, 2300⟩, ⟨180000, 2300⟩, ⟨150000, 2300⟩, ⟨120000, 2300⟩, ⟨90000, 2300⟩,
  ⟨60000, 2300⟩, ⟨30000, 2300⟩]

/-- **Finding.** 23 degrees all the time, then the thermometer is lost: the window is reported as open. -/
theorem missing_violation : ¬ OnlyDrops := by
  intro h
  have hp : Paced 30000 (⟨330000, unset⟩ :: warm) := by unfold warm; simp [Paced]
  have h1 : (run (⟨330000, unset⟩ :: warm)).closed = false := by decide +kernel
  have h2 : (run warm).closed = true := by decide +kernel
  exact absurd (h 30000 (by decide) _ _ hp h2 h1).1 (by unfold Pass.valid; decide)

example : (run (⟨330000, 2000⟩ :: warm)).closed = false := by decide +kernel
example : (run (⟨330000, 2150⟩ :: warm)).closed = true := by decide +kernel
example : Dropped (taken (⟨330000, 2000⟩ :: warm)).2 := ⟨2000, 2300, by decide +kernel, by decide +kernel, by decide⟩

/-- Without a thermometer from the beginning nothing is ever reported. -/
theorem never_without (ps : List Pass) (h : ∀ p ∈ ps, p.temp = unset) : (run ps).closed = true := by
  have key : (run ps).closed = true ∧ (run ps).ts = 0 ∧ (run ps).meas = fun _ => unset := by
    induction ps with
    | nil => exact ⟨rfl, rfl, rfl⟩
    | cons p ps ih =>
      obtain ⟨h1, h2, h3⟩ := ih (fun q hq => h q (List.mem_cons_of_mem _ hq))
      have ht := h p List.mem_cons_self
      show (step (run ps) p).closed = true ∧ (step (run ps) p).ts = 0 ∧ (step (run ps) p).meas = _
      unfold step
      split
      · have hst : store { run ps with last := clk p.now } p.temp = { run ps with last := clk p.now } := by
          unfold store; rw [if_neg (by rw [ht]; decide)]
        rw [hst]
        dsimp only
        rw [if_neg (fun hn => hn h2)]
        have hd : (detect { run ps with last := clk p.now } p.temp).2 = false := by
          unfold detect
          dsimp only
          rw [h3]
          have ha : average (fun _ => unset) (from26 (run ps).idx) = unset := rfl
          rw [ha]
          rfl
        unfold notice
        rw [hd, if_neg Bool.false_ne_true]
        exact ⟨h1, h2, h3⟩
      · exact ⟨h1, h2, h3⟩
  exact key.1

/-! ## How long a report lasts -/

/-- Since when the window has been reported as open. -/
def openSince : List Pass → Option Nat
  | [] => none
  | p :: ps => if (run (p :: ps)).closed then none else some ((openSince ps).getD p.now)

/-- The full claim: a report ends at the latest with the first reading more than half an hour after it began. -/
def HalfAnHour : Prop :=
  ∀ g ≤ 2 ^ 31, ∀ p ps, Paced g (p :: ps) → ∀ b, openSince (p :: ps) = some b → p.now < b + 1800000 + 30000

/-- No pass meets the clock at 0 after it has wrapped. -/
def NeverZero (ps : List Pass) : Prop := ∀ p ∈ ps, clk p.now ≠ 0

/-- A report that is on: when it began, and that it is not too old. -/
theorem open_inv (g : Nat) (hg : g ≤ 2 ^ 31) (ps : List Pass) (h : Paced g ps) (hz : NeverZero ps) :
    ((run ps).closed = true ∧ openSince ps = none) ∨
    ∃ b, (run ps).closed = false ∧ openSince ps = some b ∧ (run ps).ts = clk b ∧ clk b ≠ 0 ∧ b ≤ (taken ps).1 ∧ (taken ps).1 ≤ b + 1800000 := by
  induction ps with
  | nil => exact Or.inl ⟨rfl, rfl⟩
  | cons p ps ih =>
    have ih := ih (paced_tail g p ps h) (fun q hq => hz q (List.mem_cons_of_mem _ hq))
    have hop : ∀ b, (run (p :: ps)).closed = false → (openSince ps).getD p.now = b → openSince (p :: ps) = some b := by
      intro b h1 h2
      show (if (run (p :: ps)).closed then none else some ((openSince ps).getD p.now)) = some b
      rw [h1, if_neg Bool.false_ne_true, h2]
    have hcl : (run (p :: ps)).closed = true → openSince (p :: ps) = none := by
      intro h1
      show (if (run (p :: ps)).closed then none else some ((openSince ps).getD p.now)) = none
      rw [h1, if_pos rfl]
    by_cases hq : takes (taken ps).1 p = true
    · obtain ⟨s, hs, h1, h2, _, h4⟩ := step_due g hg p ps h hq
      have ht : (taken (p :: ps)).1 = p.now := by
        show (if takes (taken ps).1 p then (p.now, if unset < p.temp then p.temp :: (taken ps).2 else (taken ps).2) else taken ps).1 = _
        rw [if_pos hq]
      obtain ⟨hr1, hr2⟩ := taken_recent g p ps h
      rcases ih with ⟨hc, ho⟩ | ⟨b, hc, ho, hts, hb0, hb1, hb2⟩
      · have hts : s.ts = 0 := by rw [h1]; exact closed_ts ps hc
        rw [if_neg (fun hn => hn hts)] at h4
        unfold notice at h4
        cases hx : (detect s p.temp).2 with
        | false =>
          rw [hx, if_neg Bool.false_ne_true] at h4
          have hc' : (run (p :: ps)).closed = true := by rw [h4]; show s.closed = true; rw [h2, hc]
          exact Or.inl ⟨hc', hcl hc'⟩
        | true =>
          rw [hx, if_pos rfl] at h4
          have hc' : (run (p :: ps)).closed = false := by rw [h4]
          refine Or.inr ⟨p.now, hc', hop _ hc' (by rw [ho]; rfl), by rw [h4], hz p List.mem_cons_self, ?_, ?_⟩
          · omega
          · omega
      · rw [if_pos (by rw [h1, hts]; exact hb0)] at h4
        have hrec : ((recover s p.temp).closed = true ∧ (recover s p.temp).ts = 0) ∨ ((recover s p.temp).closed = s.closed ∧ (recover s p.temp).ts = s.ts) := by
          unfold recover
          split
          · split
            · exact Or.inr ⟨rfl, rfl⟩
            · exact Or.inl ⟨rfl, rfl⟩
          · exact Or.inr ⟨rfl, rfl⟩
        generalize recover s p.temp = r at *
        by_cases hx : since (clk p.now) r.ts > 1800000
        · unfold expire at h4
          rw [if_pos hx] at h4
          have hc' : (run (p :: ps)).closed = true := by rw [h4]
          exact Or.inl ⟨hc', hcl hc'⟩
        · unfold expire at h4
          rw [if_neg hx] at h4
          rcases hrec with ⟨e1, e2⟩ | ⟨e1, e2⟩
          · have hc' : (run (p :: ps)).closed = true := by rw [h4]; exact e1
            exact Or.inl ⟨hc', hcl hc'⟩
          · have hc' : (run (p :: ps)).closed = false := by rw [h4, e1, h2, hc]
            have e2 : r.ts = clk b := by rw [e2, h1, hts]
            refine Or.inr ⟨b, hc', hop _ hc' (by rw [ho]; rfl), by rw [h4, e2], hb0, ?_, ?_⟩
            · rw [ht]; omega
            · rw [e2, since_clk_eq _ _ (by omega) (by omega)] at hx
              rw [ht]; omega
    · obtain ⟨e1, e2⟩ := step_idle g hg p ps h hq
      rcases ih with ⟨hc, ho⟩ | ⟨b, hc, ho, hts, hb0, hb1, hb2⟩
      · have hc' : (run (p :: ps)).closed = true := by rw [e1, hc]
        exact Or.inl ⟨hc', hcl hc'⟩
      · have hc' : (run (p :: ps)).closed = false := by rw [e1, hc]
        exact Or.inr ⟨b, hc', hop _ hc' (by rw [ho]; rfl), by rw [e1, hts], hb0, by rw [e2]; exact hb1, by rw [e2]; exact hb2⟩

/-- **C98.** A report ends at the latest with the first reading more than half an hour after it began, if the program
never runs just when the clock is 0. -/
theorem half_an_hour_partial (g : Nat) (hg : g ≤ 2 ^ 31) (p : Pass) (ps : List Pass) (h : Paced g (p :: ps)) (hz : NeverZero (p :: ps))
    (b : Nat) (hb : openSince (p :: ps) = some b) : p.now < b + 1800000 + 30000 := by
  rcases open_inv g hg _ h hz with ⟨_, ho⟩ | ⟨c, _, ho, _, _, _, hc⟩
  · rw [ho] at hb; cases hb
  · rw [ho] at hb
    have hb := Option.some.inj hb
    subst hb
    by_cases hq : takes (taken ps).1 p = true
    · have ht : (taken (p :: ps)).1 = p.now := by
        show (if takes (taken ps).1 p then (p.now, if unset < p.temp then p.temp :: (taken ps).2 else (taken ps).2) else taken ps).1 = _
        rw [if_pos hq]
      omega
    · rw [(step_idle g hg p ps h hq).2] at hc
      have : ¬ (taken ps).1 + 30000 ≤ p.now := by simpa [takes] using hq
      omega

/-- After the clock has wrapped: seven readings of 23 degrees, one of 19 degrees at clock reading 0. -/
def wrapped : List Pass := [⟨4294967296, 1900⟩, ⟨4294937296, 2300⟩, ⟨4294907296, 2300⟩, ⟨4294877296, 2300⟩, ⟨4294847296, 2300⟩, ⟨4294817296, 2300⟩,
  ⟨4294787296, 2300⟩, ⟨4294757296, 2300⟩, ⟨2147483648, 2300⟩]

/-- **Finding.** A drop noticed at clock reading 0 is never taken back: an hour later, at 23 degrees, the window is
still reported as open. -/
theorem stuck_violation : ¬ HalfAnHour := by
  intro h
  have hp : Paced (2 ^ 31) (⟨4298567296, 2300⟩ :: wrapped) := by unfold wrapped; simp [Paced]
  have h1 : openSince (⟨4298567296, 2300⟩ :: wrapped) = some 4294967296 := by decide +kernel
  exact absurd (h (2 ^ 31) (Nat.le_refl _) _ _ hp _ h1) (by decide)

/-- Such a report stays for ever, unless the temperature drops again. -/
theorem stuck_stays (ps qs : List Pass) (g : Nat) (hg : g ≤ 2 ^ 31) (h : Paced g (qs ++ ps)) (hc : (run ps).closed = false) (hts : (run ps).ts = 0)
    (hn : ∀ a p b, qs = a ++ p :: b → ¬ Below p.temp (taken (p :: (b ++ ps))).2) : (run (qs ++ ps)).closed = false ∧ (run (qs ++ ps)).ts = 0 := by
  induction qs with
  | nil => exact ⟨hc, hts⟩
  | cons p qs ih =>
    have h' : Paced g (p :: (qs ++ ps)) := h
    obtain ⟨i1, i2⟩ := ih (paced_tail g p _ h') (fun a q b e => hn (p :: a) q b (by rw [e]; rfl))
    by_cases hq : takes (taken (qs ++ ps)).1 p = true
    · obtain ⟨s, hs, h1, h2, _, h4⟩ := step_due g hg p _ h' hq
      rw [if_neg (fun hx => hx (by rw [h1, i2]))] at h4
      have hd : (detect s p.temp).2 = false := by
        cases hx : (detect s p.temp).2 with
        | false => rfl
        | true => exact absurd ((detect_eq s _ hs p.temp).mp hx) (hn [] p qs rfl)
      unfold notice at h4
      rw [hd, if_neg Bool.false_ne_true] at h4
      show (run (p :: (qs ++ ps))).closed = false ∧ _
      rw [List.cons_append, h4]
      exact ⟨by show s.closed = false; rw [h2, i1], by show s.ts = 0; rw [h1, i2]⟩
    · rw [List.cons_append, (step_idle g hg p _ h' hq).1]
      exact ⟨i1, i2⟩

/-! ## A drop is reported, and what ends a report -/

/-- **C98.** A drop is reported with the reading that shows it, unless a report that began more than half an hour ago
ends with it. -/
theorem drop_reported (g : Nat) (hg : g ≤ 2 ^ 31) (p : Pass) (ps : List Pass) (h : Paced g (p :: ps)) (hz : NeverZero (p :: ps))
    (hq : takes (taken ps).1 p = true) (hb : Below p.temp (taken (p :: ps)).2) :
    (run (p :: ps)).closed = false ∨ ∃ b, openSince ps = some b ∧ b + 1800000 < p.now := by
  obtain ⟨s, hs, h1, h2, _, h4⟩ := step_due g hg p ps h hq
  have hd := (detect_eq s _ hs p.temp).mpr hb
  obtain ⟨hr1, hr2⟩ := taken_recent g p ps h
  rcases open_inv g hg ps (paced_tail g p ps h) (fun q hx => hz q (List.mem_cons_of_mem _ hx)) with ⟨hc, _⟩ | ⟨b, hc, ho, hts, hb0, hb1, hb2⟩
  · left
    exact (opens_iff g hg p ps h hc).mpr ⟨hq, hb⟩
  · rw [if_pos (by rw [h1, hts]; exact hb0)] at h4
    have hrec : (recover s p.temp).closed = s.closed ∧ (recover s p.temp).ts = s.ts := by
      unfold recover
      rw [hd, if_pos rfl]
      split <;> exact ⟨rfl, rfl⟩
    generalize recover s p.temp = r at *
    unfold expire at h4
    split at h4
    · rename_i hx
      right
      refine ⟨b, ho, ?_⟩
      rw [hrec.2, h1, hts, since_clk_eq _ _ (by omega) (by omega)] at hx
      omega
    · left
      rw [h4, hrec.1, h2, hc]

/-- **C98.** A report ends only after half an hour or when the temperature is not two degrees lower any more. -/
theorem ends_only (g : Nat) (hg : g ≤ 2 ^ 31) (p : Pass) (ps : List Pass) (h : Paced g (p :: ps)) (hz : NeverZero (p :: ps))
    (b : Nat) (ho : openSince ps = some b) (hc : (run (p :: ps)).closed = true) :
    takes (taken ps).1 p = true ∧ (b + 1800000 < p.now ∨ ¬ Below p.temp (taken (p :: ps)).2) := by
  have hop : (run ps).closed = false := by
    rcases open_inv g hg ps (paced_tail g p ps h) (fun q hx => hz q (List.mem_cons_of_mem _ hx)) with ⟨_, hn⟩ | ⟨_, hx, _⟩
    · rw [hn] at ho; cases ho
    · exact hx
  by_cases hq : takes (taken ps).1 p = true
  · refine ⟨hq, ?_⟩
    by_cases hb : Below p.temp (taken (p :: ps)).2
    · rcases drop_reported g hg p ps h hz hq hb with hx | ⟨c, hc1, hc2⟩
      · rw [hx] at hc; cases hc
      · rw [ho] at hc1
        have := Option.some.inj hc1
        exact Or.inl (by omega)
    · exact Or.inr hb
  · rw [(step_idle g hg p ps h hq).1, hop] at hc
    cases hc

/-- The average is not above all readings. -/
theorem before_le (rs : List Int) (m : Int) (h : ∀ r ∈ rs, r ≤ m) (a : Int) (ha : before rs = some a) : a ≤ m := by
  have hs : ∀ l : List Int, (∀ r ∈ l, r ≤ m) → l.sum ≤ m * l.length := by
    intro l hl
    induction l with
    | nil => simp
    | cons x l ih =>
      have h1 := ih (fun r hr => hl r (List.mem_cons_of_mem _ hr))
      have h2 := hl x List.mem_cons_self
      rw [List.sum_cons, List.length_cons]
      push_cast
      rw [Int.mul_add, Int.mul_one]
      omega
  unfold before at ha
  dsimp only at ha
  split at ha
  · cases ha
  · rename_i hne
    have ha := Option.some.inj ha
    have hb := hs ((rs.drop 5).take 21) (fun r hr => h r (List.mem_of_mem_drop (List.mem_of_mem_take hr)))
    have hl : (0 : Int) < ((rs.drop 5).take 21).length := by
      have := List.length_pos_iff.mpr hne
      omega
    rw [← ha]
    generalize ((rs.drop 5).take 21).sum = t at *
    generalize (((rs.drop 5).take 21).length : Int) = n at *
    have := Int.tdiv_le_tdiv hl hb
    rw [Int.mul_tdiv_cancel _ (by omega)] at this
    exact this

/-- The average noted is one of readings. -/
theorem avg_le (g : Nat) (hg : g ≤ 2 ^ 31) (ps : List Pass) (h : Paced g ps) (m : Int) (hm : ∀ r ∈ (taken ps).2, r ≤ m) (hu : unset ≤ m) : (run ps).avg ≤ m := by
  induction ps with
  | nil => exact hu
  | cons p ps ih =>
    by_cases hq : takes (taken ps).1 p = true
    · obtain ⟨s, hs, _, _, h3, h4⟩ := step_due g hg p ps h hq
      have hsub : ∀ r ∈ (taken ps).2, r ≤ m := by
        intro r hr
        apply hm
        show r ∈ (if takes (taken ps).1 p then (p.now, if unset < p.temp then p.temp :: (taken ps).2 else (taken ps).2) else taken ps).2
        rw [if_pos hq]
        show r ∈ (if unset < p.temp then p.temp :: (taken ps).2 else (taken ps).2)
        split
        · exact List.mem_cons_of_mem _ hr
        · exact hr
      have ih := ih (paced_tail g p ps h) hsub
      have hd : ∀ t, (detect s t).1 ≤ m := by
        intro t
        show average s.meas (from26 s.idx) ≤ m
        rw [(average_eq s _ hs).1]
        cases hb : before (taken (p :: ps)).2 with
        | none => exact hu
        | some a => exact before_le _ m hm a hb
      have hs0 : s.avg ≤ m := by rw [h3]; exact ih
      have hr : (recover s p.temp).avg ≤ m := by
        unfold recover
        split
        · split
          · exact hd p.temp
          · exact hd p.temp
        · exact hs0
      rw [h4]
      split
      · unfold expire
        split
        · exact hr
        · exact hr
      · unfold notice
        split
        · exact hd p.temp
        · exact hd p.temp
    · obtain ⟨e1, e2⟩ := step_idle g hg p ps h hq
      rw [e1]
      rw [e2] at hm
      exact ih (paced_tail g p ps h) hm

/-- **C98.** When it is as warm again as it ever was, to within a degree, the report ends with the next reading. -/
theorem warm_again (g : Nat) (hg : g ≤ 2 ^ 31) (p : Pass) (ps : List Pass) (h : Paced g (p :: ps)) (hz : NeverZero (p :: ps))
    (hq : takes (taken ps).1 p = true) (hv : p.valid) (hw : ∀ r ∈ (taken ps).2, r < p.temp + 100) : (run (p :: ps)).closed = true := by
  obtain ⟨s, hs, h1, h2, h3, h4⟩ := step_due g hg p ps h hq
  have hall : ∀ r ∈ (taken (p :: ps)).2, r ≤ p.temp + 99 := by
    show ∀ r ∈ (if takes (taken ps).1 p then (p.now, if unset < p.temp then p.temp :: (taken ps).2 else (taken ps).2) else taken ps).2, r ≤ p.temp + 99
    rw [if_pos hq]
    show ∀ r ∈ (if unset < p.temp then p.temp :: (taken ps).2 else (taken ps).2), r ≤ p.temp + 99
    rw [if_pos (show unset < p.temp from hv)]
    intro r hr
    rcases List.mem_cons.mp hr with rfl | hr
    · omega
    · have := hw r hr; omega
  have hnb : ¬ Below p.temp (taken (p :: ps)).2 := by
    intro ⟨a, ha, hl⟩
    have := before_le _ _ hall a ha
    omega
  rcases open_inv g hg ps (paced_tail g p ps h) (fun q hx => hz q (List.mem_cons_of_mem _ hx)) with ⟨hc, _⟩ | ⟨b, hc, ho, hts, hb0, _⟩
  · cases hx : (run (p :: ps)).closed with
    | true => rfl
    | false => exact absurd ((opens_iff g hg p ps h hc).mp hx).2 hnb
  · rw [if_pos (by rw [h1, hts]; exact hb0)] at h4
    have hd : (detect s p.temp).2 = false := by
      cases hx : (detect s p.temp).2 with
      | false => rfl
      | true => exact absurd ((detect_eq s _ hs p.temp).mp hx) hnb
    have hv' : unset < p.temp := hv
    have ha : s.avg ≤ p.temp + 99 := by
      rw [h3]
      exact avg_le g hg ps (paced_tail g p ps h) _ (fun r hr => by have := hw r hr; omega) (by omega)
    have hr : (recover s p.temp).closed = true := by
      unfold recover
      rw [if_pos (by omega), hd, if_neg Bool.false_ne_true]
    rw [h4]
    unfold expire
    split
    · rfl
    · exact hr

example : Paced 30000 (⟨360000, 2250⟩ :: ⟨330000, 2000⟩ :: warm) ∧ NeverZero (⟨360000, 2250⟩ :: ⟨330000, 2000⟩ :: warm) := by
  unfold NeverZero warm; simp [Paced, clk]
example : (run (⟨360000, 2250⟩ :: ⟨330000, 2000⟩ :: warm)).closed = true := by decide +kernel
example : (run (⟨360000, 2150⟩ :: ⟨330000, 2000⟩ :: warm)).closed = false := by decide +kernel

end Verif.Drop
