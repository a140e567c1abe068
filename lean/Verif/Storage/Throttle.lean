import Verif.Storage.Spec

/-!
# Save throttling theorems (C17)
-/

namespace Verif.Storage

/-- C17 in full: on every history polled often enough for the 32-bit clock to be unambiguous, the
device saves exactly when the reference does. -/
def ThrottleExact : Prop :=
  ∀ (period : BitVec 32) (gap : Nat) (tr : Trace), gap + period.toNat + 1 < 2 ^ 32 →
    Frequent gap 0 tr → (∀ dt d, (dt, TOp.schedule d) ∈ tr → d < 2 ^ 32) →
    implRun { period := period, last := 0#32 } 0 tr = specRun period.toNat 0 (period.toNat + 1) tr

/-- C17 is false of the code. With the default period of 1000 ms, an element asking for a save in
5000 ms (as relays, roller shutters and lights do) makes the very next poll save: here ten
milliseconds after the previous save. -/
theorem throttle_violation : ¬ ThrottleExact := by
  intro h
  have := h 1000#32 10000 [(2000, .poll), (5, .schedule 5000), (5, .poll)] (by decide)
    (by simp [Frequent]) (by
      intro dt d hm
      simp only [List.mem_cons, List.not_mem_nil, or_false, Prod.mk.injEq, TOp.schedule.injEq,
        reduceCtorEq, and_false, or_false, false_or] at hm
      omega)
  exact absurd this (by decide +kernel)

theorem sub_toNat (a b : Nat) (h : b ≤ a) (h2 : a - b < 2 ^ 32) :
    (BitVec.ofNat 32 a - BitVec.ofNat 32 b).toNat = a - b := by
  rw [BitVec.toNat_sub]
  simp only [BitVec.toNat_ofNat]
  omega

/-- Link between the implementation and the reference: the reference is due `period + 1` after some
instant `L` (shifted by 2^32 so that it is a natural number) that the device stores modulo 2^32, and
that instant is not too long ago. -/
structure Link (period : BitVec 32) (gap : Nat) (t : Throttle) (now due since : Nat) : Prop where
  per : t.period = period
  near : ∃ L, t.last = BitVec.ofNat 32 L ∧ L + period.toNat + 1 = due + 2 ^ 32
    ∧ L ≤ now + 2 ^ 32 ∧ now + 2 ^ 32 - L ≤ period.toNat + 1 + since
  room : gap + period.toNat + 1 < 2 ^ 32

theorem ofNat_shift (a : Nat) : BitVec.ofNat 32 a = BitVec.ofNat 32 (a + 2 ^ 32) := by
  apply BitVec.eq_of_toNat_eq; simp

theorem allowed_iff {period : BitVec 32} {gap : Nat} {t : Throttle} {now due since dt : Nat}
    (hl : Link period gap t now due since) (hg : since + dt ≤ gap) :
    (BitVec.ofNat 32 (now + dt) - t.last > t.period) ↔ due ≤ now + dt := by
  obtain ⟨hp, ⟨L, hL, hdue, hLn, hnear⟩, hroom⟩ := hl
  rw [hp, hL, gt_iff_lt, BitVec.lt_def, ofNat_shift (now + dt),
    sub_toNat _ _ (by omega) (by omega)]
  omega

theorem impl_eq_spec (period : BitVec 32) (gap : Nat) : ∀ (tr : Trace) (t : Throttle) (now due since : Nat),
    Link period gap t now due since → Frequent gap since tr → ShortDelays period.toNat tr →
    implRun t now tr = specRun period.toNat now due tr := by
  intro tr
  induction tr with
  | nil => intros; rfl
  | cons x rest ih =>
    obtain ⟨dt, op⟩ := x
    intro t now due since hl hf hs
    have hs' : ShortDelays period.toNat rest := fun a b h => hs a b (List.mem_cons_of_mem _ h)
    cases op with
    | poll =>
      obtain ⟨hg, hf⟩ := hf
      have hiff := allowed_iff hl hg
      simp only [implRun, specRun, saveAllowed]
      by_cases hd : due ≤ now + dt
      · rw [if_pos (hiff.mpr hd), if_pos hd]
        refine congrArg _ (ih _ _ _ 0 ?_ hf hs')
        refine ⟨hl.per, ⟨now + dt + 2 ^ 32, ofNat_shift _, by omega, by omega, by omega⟩, hl.room⟩
      · rw [if_neg (fun h => hd (hiff.mp h)), if_neg hd]
        refine congrArg _ (ih _ _ _ 0 ?_ hf hs')
        obtain ⟨hp, ⟨L, hL, hdue, hLn, hnear⟩, hroom⟩ := hl
        exact ⟨hp, ⟨L, hL, hdue, by omega, by omega⟩, hroom⟩
    | schedule d =>
      obtain ⟨hg, hf⟩ := hf
      have hdl := hs dt d List.mem_cons_self
      simp only [implRun, specRun]
      refine ih _ _ _ (since + dt) ?_ hf hs'
      obtain ⟨hp, ⟨L, hL, hdue, hLn, hnear⟩, hroom⟩ := hl
      have hts : BitVec.ofNat 32 (now + dt) - t.period - 1#32 + BitVec.ofNat 32 d
          = BitVec.ofNat 32 (now + dt + 2 ^ 32 + d - (period.toNat + 1)) := by
        apply BitVec.eq_of_toNat_eq
        rw [hp]
        simp only [BitVec.toNat_add, BitVec.toNat_sub, BitVec.toNat_ofNat]
        have := period.isLt
        omega
      have e1 : (BitVec.ofNat 32 (now + dt) - t.last).toNat = now + dt + 2 ^ 32 - L := by
        rw [hL, ofNat_shift (now + dt), sub_toNat _ _ (by omega) (by omega)]
      have e2 : (BitVec.ofNat 32 (now + dt) - BitVec.ofNat 32 (now + dt + 2 ^ 32 + d - (period.toNat + 1))).toNat
          = period.toNat + 1 - d := by
        rw [ofNat_shift (now + dt), sub_toNat _ _ (by omega) (by omega)]
        omega
      simp only [scheduleSave, hts, BitVec.lt_def, e1, e2]
      split
      · refine ⟨hp, ⟨_, rfl, ?_, by omega, by omega⟩, hroom⟩
        omega
      · exact ⟨hp, ⟨L, hL, by omega, by omega, by omega⟩, hroom⟩

/-- C17, proved part: on every history, of any length and across any number of wrap-arounds of the
32-bit clock, the device saves exactly when the reference does, provided no requested delay exceeds
the save period by more than one. Missing: longer delays, for which the claim fails. -/
theorem throttle_partial (period : BitVec 32) (gap : Nat) (tr : Trace)
    (hroom : gap + period.toNat + 1 < 2 ^ 32) (hf : Frequent gap 0 tr)
    (hs : ShortDelays period.toNat tr) :
    implRun { period := period, last := 0#32 } 0 tr = specRun period.toNat 0 (period.toNat + 1) tr :=
  impl_eq_spec period gap tr _ _ _ 0
    ⟨rfl, ⟨2 ^ 32, rfl, by omega, by omega, by omega⟩, hroom⟩ hf hs

/-- The same from any later moment: right after a save at time `now`. -/
theorem throttle_after_save_partial (period : BitVec 32) (gap now : Nat) (tr : Trace)
    (hroom : gap + period.toNat + 1 < 2 ^ 32) (hf : Frequent gap 0 tr)
    (hs : ShortDelays period.toNat tr) :
    implRun { period := period, last := BitVec.ofNat 32 now } now tr
      = specRun period.toNat now (now + period.toNat + 1) tr :=
  impl_eq_spec period gap tr _ _ _ 0
    ⟨rfl, ⟨now + 2 ^ 32, ofNat_shift _, by omega, by omega, by omega⟩, hroom⟩ hf hs

/-- The configured period is never below 500 ms. -/
theorem period_min (t : Throttle) (p : BitVec 32) : 500 ≤ (setPeriod t p).period.toNat
    ∧ (500 ≤ p.toNat → (setPeriod t p).period = p) := by
  unfold setPeriod
  split
  · rename_i h
    rw [BitVec.lt_def] at h
    simp at h
    refine ⟨by simp, fun h' => by omega⟩
  · rename_i h
    rw [BitVec.lt_def] at h
    simp at h
    exact ⟨by simpa using h, fun _ => rfl⟩

/-- Without requests, polls spanning no more than the period after a save never save. -/
theorem no_save_within_period (period : BitVec 32) (now : Nat) (dts : List Nat)
    (hp : period.toNat < 2 ^ 31) (hsum : dts.sum ≤ period.toNat) :
    ∀ b ∈ implRun { period := period, last := BitVec.ofNat 32 now } now (dts.map fun d => (d, TOp.poll)),
      b = false := by
  have hfreq : ∀ (l : List Nat) (since : Nat), (∀ d ∈ l, d ≤ period.toNat) → since = 0 →
      Frequent period.toNat since (l.map fun d => (d, TOp.poll)) := by
    intro l
    induction l with
    | nil => intros; trivial
    | cons d l ih =>
      intro since h h0
      exact ⟨by have := h d List.mem_cons_self; omega, ih 0 (fun x hx => h x (List.mem_cons_of_mem _ hx)) rfl⟩
  have hle : ∀ (l : List Nat) (n : Nat), l.sum ≤ n → ∀ d ∈ l, d ≤ n := by
    intro l
    induction l with
    | nil => intro n _ d hd; cases hd
    | cons x l ih =>
      intro n h d hd
      simp only [List.sum_cons] at h
      rcases List.mem_cons.mp hd with e | e
      · omega
      · have := ih (n - x) (by omega) d e; omega
  rw [throttle_after_save_partial period period.toNat now _ (by omega)
    (hfreq dts 0 (hle dts _ hsum) rfl) (by
      intro dt d hm
      obtain ⟨a, _, ha⟩ := List.mem_map.mp hm
      cases ha)]
  have : ∀ (l : List Nat) (a due : Nat), a + l.sum < due →
      ∀ b ∈ specRun period.toNat a due (l.map fun d => (d, TOp.poll)), b = false := by
    intro l
    induction l with
    | nil => intro a due _ b hb; cases hb
    | cons d l ih =>
      intro a due h b hb
      simp only [List.sum_cons] at h
      simp only [List.map_cons, specRun] at hb
      rw [if_neg (by omega)] at hb
      rcases List.mem_cons.mp hb with e | e
      · exact e
      · exact ih (a + d) due (by omega) b e
  exact this dts now _ (by omega)

/-- A scheduled save is never late, for every requested delay and period: when the clock has
advanced by the delay (and by less than half its range), the next poll saves unless a save already
happened since. -/
theorem scheduled_not_late (t : Throttle) (now d e : BitVec 32)
    (hp : t.period.toNat < 2 ^ 31) (hd : d.toNat < 2 ^ 31 - 1) (he : d.toNat ≤ e.toNat) (he2 : e.toNat < 2 ^ 31 - 1)
    (hlast : (now - t.last).toNat ≤ 2 ^ 31) :
    (saveAllowed (scheduleSave t now d) (now + e)).2 = true := by
  have key : (scheduleSave t now d).period = t.period ∧ (now + e - (scheduleSave t now d).last).toNat > t.period.toNat := by
    unfold scheduleSave
    simp only [BitVec.lt_def]
    split
    · rename_i h
      refine ⟨rfl, ?_⟩
      simp only [BitVec.toNat_sub, BitVec.toNat_add, BitVec.toNat_ofNat] at *
      have := now.isLt; have := t.last.isLt
      omega
    · rename_i h
      refine ⟨rfl, ?_⟩
      simp only [BitVec.toNat_sub, BitVec.toNat_add, BitVec.toNat_ofNat] at *
      have := now.isLt; have := t.last.isLt
      omega
  unfold saveAllowed
  rw [if_pos (by rw [gt_iff_lt, BitVec.lt_def, key.1]; exact key.2)]

example : Frequent 100 0 [(60, .poll), (40, .schedule 1001), (60, .poll)] ∧
    implRun { period := 1000, last := BitVec.ofNat 32 (2 ^ 32 - 50) } (2 ^ 32 - 50)
      [(60, .poll), (40, .schedule 20), (10, .poll), (10, .poll), (10, .poll)] = [false, false, true, false] :=
  ⟨by simp [Frequent], by decide +kernel⟩

end Verif.Storage
