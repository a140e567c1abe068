import Verif.Refresh.Model

/-!
# C155: a meter reads all it measures once in every period
-/

namespace Verif.Refresh

/-- The full claim: temperature and pressure are read the same number of times,
whatever the clock returns. -/
def Together (interval : Nat) : Prop :=
  ∀ rs : List Round, (run interval fresh rs).press.length = (run interval fresh rs).temps.length

/-- The clock does not move during the round. -/
def Still (r : Round) : Prop := r.a = r.b ∧ r.b = r.c

theorem round_still (interval : Nat) (m : Meter) (r : Round) (h : Still r)
    (e : m.press = m.temps) : (round interval m r).press = (round interval m r).temps := by
  unfold round tempRound
  obtain ⟨h1, h2⟩ := h
  rw [h1, ← h2]
  by_cases hc : since r.b m.last > interval
  · rw [if_pos hc]
    dsimp only
    rw [if_pos hc]
    dsimp only
    rw [e]
  · rw [if_neg hc, if_neg hc]
    exact e

/-- When the clock does not move between the two checks, pressure and
temperature are read in the same rounds, after any number of rounds. -/
theorem together_partial (interval : Nat) (rs : List Round) (h : ∀ r ∈ rs, Still r) :
    (run interval fresh rs).press = (run interval fresh rs).temps := by
  have key : ∀ (rs : List Round) (m : Meter), (∀ r ∈ rs, Still r) → m.press = m.temps →
      (run interval m rs).press = (run interval m rs).temps := by
    intro rs
    induction rs with
    | nil => intro m _ e; exact e
    | cons r rs ih =>
      intro m hs e
      exact ih _ (fun x hx => hs x (List.mem_cons_of_mem _ hx))
        (round_still interval m r (hs r List.mem_cons_self) e)
  exact key rs fresh h rfl

example : (run 10000 fresh [⟨10000, 10000, 10000⟩, ⟨10001, 10001, 10001⟩]).press = [10001] := by
  decide

/-- The schedule in which the clock moves to the next millisecond between the two
checks of every round that is due. -/
def unlucky (interval : Nat) : Nat → Nat → List Round
  | 0, _ => []
  | n + 1, last => ⟨last + interval, last + interval + 1, last + interval + 1⟩ ::
      unlucky interval n (last + interval + 1)

theorem since_plus (last d : Nat) (h : d < 4294967296) : since (last + d) last = d := by
  unfold since
  omega

/-- With that schedule the pressure is never read, for any number of periods,
though the temperature is read in each of them. -/
theorem never_read_violation (interval : Nat) (h : interval + 1 < 4294967296) (n : Nat) (m : Meter) :
    (run interval m (unlucky interval n m.last)).press = m.press ∧
    (run interval m (unlucky interval n m.last)).temps.length = m.temps.length + n := by
  induction n generalizing m with
  | zero => exact ⟨rfl, rfl⟩
  | succ n ih =>
    have h1 : since (m.last + interval) m.last = interval := since_plus _ _ (by omega)
    have h2 : since (m.last + interval + 1) m.last = interval + 1 := since_plus _ (interval + 1) h
    have hr : round interval m ⟨m.last + interval, m.last + interval + 1, m.last + interval + 1⟩ =
        { m with last := m.last + interval + 1, temps := (m.last + interval + 1) :: m.temps } := by
      unfold round tempRound
      dsimp only
      rw [h1, if_neg (show ¬ interval > interval by omega), h2,
        if_pos (show interval + 1 > interval by omega)]
    have := ih (round interval m ⟨m.last + interval, m.last + interval + 1, m.last + interval + 1⟩)
    rw [hr] at this
    simp only [unlucky, run]
    rw [hr]
    refine ⟨this.1, ?_⟩
    rw [this.2]
    simp only [List.length_cons]
    omega

/-- So the full claim is false for the interval of the source. -/
theorem together_violation : ¬ Together 10000 := by
  intro h
  have := h (unlucky 10000 1 0)
  have hv := never_read_violation 10000 (by decide) 1 fresh
  rw [show fresh.last = 0 from rfl] at hv
  rw [hv.1, hv.2] at this
  exact absurd this (by decide)

/-- After every round the temperature was read in that round or is no older, by
the clock of that round, than the interval. -/
theorem temperature_recent (interval : Nat) (m : Meter) (r : Round) :
    (round interval m r).temps = r.c :: m.temps ∧ (round interval m r).last = r.c ∨
    (round interval m r).temps = m.temps ∧ since r.b (round interval m r).last ≤ interval := by
  unfold round tempRound
  by_cases ha : since r.a m.last > interval
  · rw [if_pos ha]
    dsimp only
    by_cases hb : since r.b m.last > interval
    · rw [if_pos hb]
      exact Or.inl ⟨rfl, rfl⟩
    · rw [if_neg hb]
      exact Or.inr ⟨rfl, Nat.le_of_not_lt hb⟩
  · rw [if_neg ha]
    by_cases hb : since r.b m.last > interval
    · rw [if_pos hb]
      exact Or.inl ⟨rfl, rfl⟩
    · rw [if_neg hb]
      exact Or.inr ⟨rfl, Nat.le_of_not_lt hb⟩

/-- The times in order, newest first, more than the interval apart. -/
def Apart (interval : Nat) : List Nat → Prop
  | [] => True
  | [_] => True
  | x :: y :: l => interval < x - y ∧ Apart interval (y :: l)

/-- Rounds in order of time, from `t` on. -/
def InTime : Nat → List Round → Prop
  | _, [] => True
  | t, r :: rs => t ≤ r.b ∧ r.b ≤ r.c ∧ InTime r.c rs

theorem since_le (now last : Nat) (h : last ≤ now) : since now last ≤ now - last := by
  unfold since
  omega

/-- Two readings of the temperature are always more than the interval apart, for
any number of rounds at any times, also past the overflow of the clock. -/
theorem readings_apart (interval : Nat) (rs : List Round) (h : InTime 0 rs) :
    Apart interval (run interval fresh rs).temps := by
  have key : ∀ (rs : List Round) (t : Nat) (m : Meter), InTime t rs → m.last ≤ t →
      (m.temps = [] ∨ ∃ l, m.temps = m.last :: l) → Apart interval m.temps →
      Apart interval (run interval m rs).temps := by
    intro rs
    induction rs with
    | nil => intro _ m _ _ _ ha; exact ha
    | cons r rs ih =>
      intro t m ht hl hd ha
      obtain ⟨h1, h2, h3⟩ := ht
      simp only [run]
      have hq : (if since r.a m.last > interval then { m with press := r.a :: m.press } else m).last
          = m.last := by split <;> rfl
      have hp : (if since r.a m.last > interval then { m with press := r.a :: m.press } else m).temps
          = m.temps := by split <;> rfl
      have e : round interval m r = tempRound interval r.b r.c
          (if since r.a m.last > interval then { m with press := r.a :: m.press } else m) := rfl
      generalize (if since r.a m.last > interval then { m with press := r.a :: m.press } else m) = q
        at hq hp e
      rw [e]
      unfold tempRound
      by_cases hb : since r.b q.last > interval
      · rw [if_pos hb]
        have hs := since_le r.b q.last (by omega)
        refine ih r.c _ h3 (Nat.le_refl _) (Or.inr ⟨q.temps, rfl⟩) ?_
        show Apart interval (r.c :: q.temps)
        rw [hp]
        rcases hd with hd | ⟨l, hd⟩
        · rw [hd]; exact True.intro
        · rw [hd] at ha ⊢
          exact ⟨by omega, ha⟩
      · rw [if_neg hb]
        refine ih r.c q h3 (by omega) ?_ ?_
        · rw [hp, hq]; exact hd
        · rw [hp]; exact ha
  exact key rs 0 fresh h (Nat.le_refl _) (Or.inl rfl) True.intro

example : InTime 0 [⟨10000, 10001, 10001⟩, ⟨4294967290, 4294967290, 4294967290⟩] := by
  simp [InTime]

end Verif.Refresh
