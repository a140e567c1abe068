import Verif.AcDc.Model

/-! # Input by interrupts: proofs -/

namespace Verif.AcDc

/-! ## Specification -/

/-- Time that passes. -/
def total : List Ev → Nat
  | [] => 0
  | .wait ms :: es => ms + total es
  | _ :: es => total es

/-- No change of the level. -/
def Quiet (es : List Ev) : Prop := Ev.edge ∉ es

/-- The timer is called often enough (the 32-bit clock does not go round within timeout and gap), and does not see an
interrupt when the clock is just 0. -/
def Fair (T : Nat) : List Ev → S → Prop
  | [], _ => True
  | .tick :: es, s => s.now - s.tickAt + T < 2 ^ 32 ∧ (s.flag = true → clk s.now ≠ 0) ∧ Fair T es (step T s .tick)
  | e :: es, s => Fair T es (step T s e)

/-- Alternating voltage: each call of the timer sees an interrupt or is at most `T` ms after one that did. -/
def Alive (T : Nat) : List Ev → S → Prop
  | [], _ => True
  | .tick :: es, s => (s.flag = true ∨ s.now - s.edgeAt ≤ T) ∧ Alive T es (step T s .tick)
  | e :: es, s => Alive T es (step T s e)

/-! ## Invariants -/

/-- About the times. -/
structure Inv (T : Nat) (s : S) : Prop where
  tick : s.tickAt ≤ s.now
  edge : s.edgeAt ≤ s.tickAt
  ts : s.ts ≠ 0 → s.ts = clk s.edgeAt ∧ s.tickAt - s.edgeAt ≤ T
  st : s.st ≤ 2

/-- Without pending interrupt and running time, the state is the level. -/
def Known (s : S) : Prop := s.flag = false → s.ts = 0 → s.st = if s.level then 1 else 0

theorem tick_cases (T : Nat) (s : S) :
    (s.flag = true ∧ tick T s = { s with flag := false, st := seenEdge s.st, ts := clk s.now, edgeAt := s.now, tickAt := s.now }) ∨
    (s.flag = false ∧ s.ts ≠ 0 ∧ since (clk s.now) s.ts > T ∧
      tick T s = { s with ts := 0, st := if s.level then 1 else 0, tickAt := s.now }) ∨
    (s.flag = false ∧ (s.ts ≠ 0 → since (clk s.now) s.ts ≤ T) ∧ tick T s = { s with tickAt := s.now }) := by
  unfold tick
  cases hf : s.flag
  · rw [if_neg Bool.false_ne_true]
    by_cases h : s.ts ≠ 0 ∧ since (clk s.now) s.ts > T
    · rw [if_pos h]; exact Or.inr (Or.inl ⟨rfl, h.1, h.2, rfl⟩)
    · rw [if_neg h]; exact Or.inr (Or.inr ⟨rfl, fun h0 => Nat.le_of_not_lt fun hc => h ⟨h0, hc⟩, rfl⟩)
  · rw [if_pos rfl]; exact Or.inl ⟨rfl, rfl⟩

theorem seenEdge_le {n : Nat} (h : n ≤ 2) : seenEdge n ≤ 2 := by unfold seenEdge; split; omega; split <;> omega

theorem step_inv {T : Nat} {s : S} {e : Ev} (hf : Fair T [e] s) (h : Inv T s) : Inv T (step T s e) := by
  cases e with
  | edge => exact ⟨h.tick, h.edge, h.ts, h.st⟩
  | wait ms => exact ⟨Nat.le_trans h.tick (Nat.le_add_right _ _), h.edge, h.ts, h.st⟩
  | tick =>
    obtain ⟨hg, -, -⟩ := hf
    show Inv T (tick T s)
    rcases tick_cases T s with ⟨-, h1⟩ | ⟨-, -, -, h1⟩ | ⟨-, h2, h1⟩ <;> rw [h1]
    · exact ⟨Nat.le_refl _, Nat.le_refl _, fun _ => ⟨rfl, by show s.now - s.now ≤ T; omega⟩, seenEdge_le h.st⟩
    · refine ⟨Nat.le_refl _, Nat.le_trans h.edge h.tick, fun hn => absurd rfl hn, ?_⟩
      show (if s.level then 1 else 0) ≤ 2
      split <;> omega
    · refine ⟨Nat.le_refl _, Nat.le_trans h.edge h.tick, fun hn => ?_, h.st⟩
      obtain ⟨h3, h4⟩ := h.ts hn
      refine ⟨h3, ?_⟩
      have h5 := h2 hn
      have ht := h.tick
      have he := h.edge
      rw [h3, since_clk_eq _ _ (by omega) (by omega)] at h5
      exact h5

theorem step_known {T : Nat} {s : S} {e : Ev} (hf : Fair T [e] s) (h : Known s) : Known (step T s e) := by
  cases e with
  | edge => intro hc; cases hc
  | wait ms => exact h
  | tick =>
    obtain ⟨-, hz, -⟩ := hf
    show Known (tick T s)
    rcases tick_cases T s with ⟨h0, h1⟩ | ⟨h0, -, -, h1⟩ | ⟨h0, -, h1⟩ <;> rw [h1]
    · exact fun _ h2 => absurd h2 (hz h0)
    · exact fun _ _ => rfl
    · exact h

theorem fair_cons {T : Nat} {e : Ev} {es : List Ev} {s : S} (h : Fair T (e :: es) s) : Fair T [e] s ∧ Fair T es (step T s e) := by
  cases e with
  | edge => exact ⟨trivial, h⟩
  | wait ms => exact ⟨trivial, h⟩
  | tick => exact ⟨⟨h.1, h.2.1, trivial⟩, h.2.2⟩

theorem fair_append {T : Nat} {a b : List Ev} : ∀ {s : S}, Fair T (a ++ b) s → Fair T a s ∧ Fair T b (run T a s) := by
  induction a with
  | nil => exact fun h => ⟨trivial, h⟩
  | cons e es ih =>
    intro s h
    obtain ⟨h1, h2⟩ := fair_cons h
    obtain ⟨h3, h4⟩ := ih h2
    refine ⟨?_, h4⟩
    cases e with
    | edge => exact h3
    | wait ms => exact h3
    | tick => exact ⟨h1.1, h1.2.1, h3⟩

theorem run_inv {T : Nat} (es : List Ev) : ∀ s, Fair T es s → Inv T s → Inv T (run T es s) := by
  induction es with
  | nil => exact fun s _ h => h
  | cons e es ih => exact fun s hf h => ih _ (fair_cons hf).2 (step_inv (fair_cons hf).1 h)

theorem run_known {T : Nat} (es : List Ev) : ∀ s, Fair T es s → Known s → Known (run T es s) := by
  induction es with
  | nil => exact fun s _ h => h
  | cons e es ih => exact fun s hf h => ih _ (fair_cons hf).2 (step_known (fair_cons hf).1 h)

/-- The level is known after the first edge, or from the start if it was low. -/
theorem run_known_init {T t : Nat} {lv : Bool} (es : List Ev) (hf : Fair T es (init t lv)) (h : lv = false ∨ Ev.edge ∈ es) :
    Known (run T es (init t lv)) := by
  rcases h with h | h
  · exact run_known es _ hf (by rw [h]; exact fun _ _ => rfl)
  · obtain ⟨a, b, rfl⟩ := List.append_of_mem h
    obtain ⟨-, h2⟩ := fair_append hf
    obtain ⟨-, h4⟩ := fair_cons h2
    have e : run T (a ++ Ev.edge :: b) (init t lv) = run T b (step T (run T a (init t lv)) .edge) := by
      unfold run; rw [List.foldl_append]; rfl
    rw [e]
    exact run_known b _ h4 (fun hc => by cases hc)

theorem init_inv (T t : Nat) (lv : Bool) : Inv T (init t lv) := ⟨Nat.le_refl _, Nat.zero_le _, fun h => absurd rfl h, Nat.zero_le _⟩

/-- In quiet time. -/
structure Still (s t : S) (d : Nat) : Prop where
  now : t.now = s.now + d
  level : t.level = s.level
  flag : t.flag = false
  edge : t.edgeAt = s.edgeAt

theorem run_still {T : Nat} (q : List Ev) : ∀ s, s.flag = false → Quiet q → Still s (run T q s) (total q) := by
  induction q with
  | nil => exact fun s h _ => ⟨rfl, rfl, h, rfl⟩
  | cons e q ih =>
    intro s hf hq
    have hq' : Quiet q := fun h => hq (List.mem_cons_of_mem _ h)
    cases e with
    | edge => exact absurd List.mem_cons_self hq
    | wait ms =>
      obtain ⟨h1, h2, h3, h4⟩ := ih (step T s (.wait ms)) hf hq'
      exact ⟨by rw [show run T (.wait ms :: q) s = run T q (step T s (.wait ms)) from rfl, h1]; show s.now + ms + total q = s.now + (ms + total q); omega, h2, h3, h4⟩
    | tick =>
      have hs : Still s (tick T s) 0 := by
        rcases tick_cases T s with ⟨h0, -⟩ | ⟨-, -, -, h1⟩ | ⟨-, -, h1⟩
        · rw [hf] at h0; cases h0
        · rw [h1]; exact ⟨rfl, rfl, hf, rfl⟩
        · rw [h1]; exact ⟨rfl, rfl, hf, rfl⟩
      obtain ⟨h1, h2, h3, h4⟩ := ih (tick T s) hs.flag hq'
      exact ⟨by rw [show run T (.tick :: q) s = run T q (tick T s) from rfl, h1, hs.now]; rfl, h2.trans hs.level, h3, h4.trans hs.edge⟩

/-! ## A steady level -/

/-- Full claim: when the level has not changed for more than the timeout, the input shows it. -/
def Follows : Prop := ∀ T t lv es q, Quiet q → total q > T → total q < 2 ^ 31 → T < 2 ^ 31 →
  read (run T (es ++ .tick :: q ++ [.tick]) (init t lv)) = (run T (es ++ .tick :: q ++ [.tick]) (init t lv)).level

/-- It does, if the level was low at the start or has changed since, and the timer is called regularly. -/
theorem follows_partial (T t : Nat) (lv : Bool) (es q : List Ev) (hq : Quiet q) (ht : total q > T)
    (hf : Fair T (es ++ .tick :: q ++ [.tick]) (init t lv)) (hlv : lv = false ∨ Ev.edge ∈ es) :
    read (run T (es ++ .tick :: q ++ [.tick]) (init t lv)) = (run T (es ++ .tick :: q ++ [.tick]) (init t lv)).level := by
  obtain ⟨f1, f2⟩ := fair_append hf
  have hk := run_known_init _ f1 (by
    rcases hlv with h | h
    · exact Or.inl h
    · exact Or.inr (List.mem_append_left _ h))
  have hi := run_inv _ _ f1 (init_inv T t lv)
  obtain ⟨f3, f4⟩ := fair_append f1
  obtain ⟨f5, -⟩ := fair_cons f4
  have hi0 := run_inv _ _ f3 (init_inv T t lv)
  have hi1 := step_inv f5 hi0
  have e1 : run T (es ++ .tick :: q) (init t lv) = run T q (step T (run T es (init t lv)) .tick) := by
    unfold run; rw [List.foldl_append]; rfl
  have e2 : run T (es ++ .tick :: q ++ [.tick]) (init t lv) = tick T (run T (es ++ .tick :: q) (init t lv)) := by
    unfold run; rw [List.foldl_append]; rfl
  have hfl : (step T (run T es (init t lv)) .tick).flag = false := by
    show (tick T (run T es (init t lv))).flag = false
    rcases tick_cases T (run T es (init t lv)) with ⟨-, h1⟩ | ⟨h0, -, -, h1⟩ | ⟨h0, -, h1⟩ <;> rw [h1]
    · exact h0
    · exact h0
  have hst := run_still (T := T) q _ hfl hq
  rw [← e1] at hst
  obtain ⟨hg, -, -⟩ := f2
  rw [e2]
  generalize run T (es ++ .tick :: q) (init t lv) = s at *
  generalize step T (run T es (init t lv)) .tick = s1 at *
  have hb : ∀ b : Bool, decide ((if b then 1 else 0 : Nat) = 1) = b := fun b => by cases b <;> rfl
  have key : (tick T s).st = if (tick T s).level then 1 else 0 := by
    rcases tick_cases T s with ⟨h0, -⟩ | ⟨-, -, -, h1⟩ | ⟨h0, h2, h1⟩
    · rw [hst.flag] at h0; cases h0
    · rw [h1]
    · rw [h1]
      by_cases h3 : s.ts = 0
      · exact hk h0 h3
      · exfalso
        obtain ⟨h4, h5⟩ := hi.ts h3
        have h6 := h2 h3
        have a1 := hi.tick
        have a2 := hi.edge
        have a3 := hst.now
        have a4 := hst.edge
        have a5 := hi1.edge
        have a6 := hi1.tick
        rw [h4, since_clk_eq _ _ (by omega) (by omega)] at h6
        omega
  unfold read
  rw [key]
  exact hb _

/-- A DC level that is present when the device starts is never shown: the level is looked at only after an edge. -/
theorem high_at_start_violation : ¬ Follows ∧ ∀ T t q, Quiet q → read (run T q (init t true)) = false := by
  have hall : ∀ T t q, Quiet q → read (run T q (init t true)) = false := by
    intro T t q hq
    have : ∀ (s : S), s.flag = false → s.ts = 0 → s.st = 0 → (run T q s).st = 0 := by
      induction q with
      | nil => exact fun s _ _ h => h
      | cons e q ih =>
        intro s h1 h2 h3
        have ih := ih fun h => hq (List.mem_cons_of_mem _ h)
        cases e with
        | edge => exact absurd List.mem_cons_self hq
        | wait ms => exact ih _ h1 h2 h3
        | tick =>
          rcases tick_cases T s with ⟨h0, -⟩ | ⟨-, h0, -, -⟩ | ⟨-, -, h4⟩
          · rw [h1] at h0; cases h0
          · exact absurd h2 h0
          · refine ih (tick T s) ?_ ?_ ?_ <;> rw [h4] <;> assumption
    unfold read
    rw [this _ rfl rfl rfl]
    rfl
  refine ⟨fun h => ?_, hall⟩
  have := h 100 1 true [] [.wait 200] (by unfold Quiet; decide) (by decide) (by decide) (by decide)
  revert this
  decide +kernel

/-- The edge is seen when the 32-bit clock is just 0: the level is not looked at again. -/
theorem clock_zero_violation : ¬ ∀ T t es q, Quiet q → total q > T → total q < 2 ^ 31 → T < 2 ^ 31 →
    read (run T (es ++ .tick :: q ++ [.tick]) (init t false)) = (run T (es ++ .tick :: q ++ [.tick]) (init t false)).level := by
  intro h
  have := h 100 4294967000 [.edge, .wait 296] [.wait 200] (by unfold Quiet; decide) (by decide) (by decide) (by decide)
  revert this
  decide +kernel

/-! ## Alternating voltage -/

theorem alive_run {T : Nat} (k : Nat) (hk2 : seenEdge k = 1) (es : List Ev) : ∀ s, Fair T es s → Alive T es s → Inv T s →
    (s.st = k ∨ s.st = 1) → ((run T es s).st = k ∨ (run T es s).st = 1) := by
  induction es with
  | nil => exact fun s _ _ _ h => h
  | cons e es ih =>
    intro s hf ha hi h
    obtain ⟨f1, f2⟩ := fair_cons hf
    have hi2 := step_inv f1 hi
    cases e with
    | edge => exact ih _ f2 ha hi2 h
    | wait ms => exact ih _ f2 ha hi2 h
    | tick =>
      obtain ⟨a1, a2⟩ := ha
      refine ih _ f2 a2 hi2 ?_
      show (tick T s).st = k ∨ (tick T s).st = 1
      rcases tick_cases T s with ⟨-, h1⟩ | ⟨h0, h2, h3, -⟩ | ⟨-, -, h1⟩
      · rw [h1]
        show seenEdge s.st = k ∨ seenEdge s.st = 1
        rcases h with h | h <;> rw [h]
        · exact Or.inr hk2
        · exact Or.inr rfl
      · exfalso
        rw [h0] at a1
        rcases a1 with a1 | a1
        · cases a1
        · obtain ⟨h4, -⟩ := hi.ts h2
          have ht := hi.tick
          have he := hi.edge
          have := since_clk_le s.now s.edgeAt (by omega)
          rw [h4] at h3
          omega
      · rw [h1]; exact h

/-- With alternating voltage (interrupts never further apart than the timeout) the input is on from the second call of
the timer that sees an interrupt, and stays on as long as the voltage is there. -/
theorem ac_on (T t : Nat) (lv : Bool) (es mid rest : List Ev)
    (hf : Fair T (es ++ [.edge, .tick] ++ mid ++ [.edge, .tick] ++ rest) (init t lv))
    (hm : Alive T mid (run T (es ++ [.edge, .tick]) (init t lv)))
    (hr : Alive T rest (run T (es ++ [.edge, .tick] ++ mid ++ [.edge, .tick]) (init t lv))) :
    read (run T (es ++ [.edge, .tick] ++ mid ++ [.edge, .tick] ++ rest) (init t lv)) = true := by
  obtain ⟨f1, f2⟩ := fair_append hf
  obtain ⟨f3, -⟩ := fair_append f1
  obtain ⟨f5, f6⟩ := fair_append f3
  obtain ⟨f7, -⟩ := fair_append f5
  have i0 := run_inv _ _ f7 (init_inv T t lv)
  have i1 := run_inv _ _ f5 (init_inv T t lv)
  have i2 := run_inv _ _ f1 (init_inv T t lv)
  have e1 : (run T (es ++ [.edge, .tick]) (init t lv)).st = seenEdge (run T es (init t lv)).st := by
    unfold run; rw [List.foldl_append]; rfl
  have s1 : (run T (es ++ [.edge, .tick]) (init t lv)).st = 2 ∨ (run T (es ++ [.edge, .tick]) (init t lv)).st = 1 := by
    rw [e1]
    have := i0.st
    generalize (run T es (init t lv)).st = n at *
    match n, this with
    | 0, _ => exact Or.inl rfl
    | 1, _ => exact Or.inr rfl
    | 2, _ => exact Or.inr rfl
  have s2 := alive_run 2 rfl mid _ f6 hm i1 s1
  have e2 : run T (es ++ [.edge, .tick] ++ mid) (init t lv) = run T mid (run T (es ++ [.edge, .tick]) (init t lv)) := by
    unfold run; rw [List.foldl_append]
  have e3 : (run T (es ++ [.edge, .tick] ++ mid ++ [.edge, .tick]) (init t lv)).st =
      seenEdge (run T mid (run T (es ++ [.edge, .tick]) (init t lv))).st := by
    rw [← e2]; unfold run; rw [List.foldl_append]; rfl
  have s3 : (run T (es ++ [.edge, .tick] ++ mid ++ [.edge, .tick]) (init t lv)).st = 1 := by
    rw [e3]
    rcases s2 with h | h <;> rw [h] <;> rfl
  have s4 := alive_run 1 rfl rest _ f2 hr i2 (Or.inl s3)
  have e4 : run T (es ++ [.edge, .tick] ++ mid ++ [.edge, .tick] ++ rest) (init t lv) =
      run T rest (run T (es ++ [.edge, .tick] ++ mid ++ [.edge, .tick]) (init t lv)) := by
    unfold run; rw [List.foldl_append]
  rw [e4]
  unfold read
  rcases s4 with h | h <;> rw [h] <;> rfl

/-- The input goes off only when the level is low and there was no interrupt for longer than the timeout. -/
theorem off_only_after_timeout (T t : Nat) (lv : Bool) (es : List Ev) (hf : Fair T es (init t lv)) (e : Ev)
    (h1 : read (run T es (init t lv)) = true) (h2 : read (step T (run T es (init t lv)) e) = false) :
    e = .tick ∧ (run T es (init t lv)).flag = false ∧ (run T es (init t lv)).level = false ∧
      (run T es (init t lv)).now - (run T es (init t lv)).edgeAt > T := by
  have hi := run_inv _ _ hf (init_inv T t lv)
  generalize run T es (init t lv) = s at *
  cases e with
  | edge => rw [show read (step T s .edge) = read s from rfl, h1] at h2; cases h2
  | wait ms => rw [show read (step T s (.wait ms)) = read s from rfl, h1] at h2; cases h2
  | tick =>
    have h2 : read (tick T s) = false := h2
    have hs : s.st = 1 := of_decide_eq_true h1
    refine ⟨rfl, ?_⟩
    rcases tick_cases T s with ⟨-, h3⟩ | ⟨h0, h4, h5, h3⟩ | ⟨-, -, h3⟩
    · rw [h3] at h2
      unfold read at h2
      dsimp only at h2
      rw [hs] at h2
      cases h2
    · rw [h3] at h2
      refine ⟨h0, ?_, ?_⟩
      · cases hl : s.level
        · rfl
        · unfold read at h2
          dsimp only at h2
          rw [hl] at h2
          cases h2
      · obtain ⟨h6, -⟩ := hi.ts h4
        have ht := hi.tick
        have he := hi.edge
        have := since_clk_le s.now s.edgeAt (by omega)
        rw [h6] at h5
        omega
    · rw [h3] at h2
      rw [show read { s with tickAt := s.now } = read s from rfl, h1] at h2
      cases h2

/-- Non-vacuity: 50 Hz, then nothing. -/
example : read (run 100 [.wait 10, .edge, .tick, .wait 10, .edge, .tick] (init 1 false)) = true ∧
    Fair 100 [.wait 10, .edge, .tick, .wait 10, .edge, .tick, .wait 90, .tick, .wait 11, .tick] (init 1 false) ∧
    read (run 100 [.wait 10, .edge, .tick, .wait 10, .edge, .tick, .wait 90, .tick] (init 1 false)) = true ∧
    read (run 100 [.wait 10, .edge, .tick, .wait 10, .edge, .tick, .wait 90, .tick, .wait 11, .tick] (init 1 false)) = false := by
  refine ⟨by decide, ⟨by decide, fun _ => by decide, by decide, fun _ => by decide, by decide, fun _ => by decide, by decide, fun _ => by decide, trivial⟩, by decide, by decide⟩

end Verif.AcDc
