import Verif.Ocr.Model

namespace Verif.Ocr

open Verif

/-! ### Parsing never leaves its buffers -/

theorem find_prefix (pat : Text) (t : Text) : ∀ p, find pat t = some p →
    ∃ r, t.drop p = pat ++ r ∧ p ≤ t.length := by
  induction t with
  | nil =>
    intro p h
    unfold find at h
    cases pat with
    | nil => exact ⟨[], by simp at h; subst h; simp⟩
    | cons _ _ => simp at h
  | cons c r ih =>
    intro p h
    unfold find at h
    by_cases hp : pat.isPrefixOf (c :: r) = true
    · rw [if_pos hp] at h
      injection h with h
      subst h
      obtain ⟨q, hq⟩ := List.isPrefixOf_iff_prefix.mp hp
      exact ⟨q, by simp [hq], by simp⟩
    · rw [if_neg hp] at h
      cases hf : find pat r with
      | none => rw [hf] at h; simp at h
      | some k =>
        rw [hf] at h
        simp at h
        subst h
        obtain ⟨q, hq, hl⟩ := ih k hf
        exact ⟨q, by simpa using hq, by simp; omega⟩

theorem copyInto_length (buf src : List Nat) (n : Nat) (b : List Nat) (h : copyInto buf src n = some b) :
    b.length = buf.length := by
  unfold copyInto at h
  split at h
  · injection h with h
    subst h
    simp only [List.length_append, List.length_take, List.length_replicate, List.length_drop]
    omega
  · cases h

/-- The id buffer is never overrun and keeps its size. -/
theorem parseId_in_bounds (uuid status : Text) (h : uuid.length = 37) :
    ∃ r, parseId uuid status = some r ∧ r.1.length = 37 := by
  unfold parseId
  cases find tagId status with
  | none => exact ⟨_, rfl, h⟩
  | some p =>
    dsimp only
    cases find [34] (status.drop (p + 6)) with
    | none => exact ⟨_, rfl, h⟩
    | some n =>
      dsimp only
      by_cases hn : n > 36
      · rw [if_pos hn]; exact ⟨_, rfl, h⟩
      · rw [if_neg hn]
        cases hc : copyInto uuid (status.drop (p + 6)) n with
        | none =>
          unfold copyInto at hc
          rw [if_pos (by omega)] at hc
          cases hc
        | some b => exact ⟨_, rfl, by rw [← h]; exact copyInto_length _ _ _ _ hc⟩

/-- The id stays a terminated string: its last byte is never written. -/
theorem parseId_terminated (uuid status : Text) (h : uuid.length = 37) (h0 : uuid[36]? = some 0)
    (r : List Nat × Bool) (hr : parseId uuid status = some r) : r.1[36]? = some 0 := by
  unfold parseId at hr
  cases hf : find tagId status with
  | none => rw [hf] at hr; injection hr with hr; subst hr; exact h0
  | some p =>
    rw [hf] at hr
    dsimp only at hr
    cases hg : find [34] (status.drop (p + 6)) with
    | none => rw [hg] at hr; injection hr with hr; subst hr; exact h0
    | some n =>
      rw [hg] at hr
      dsimp only at hr
      by_cases hn : n > 36
      · rw [if_pos hn] at hr; injection hr with hr; subst hr; exact h0
      · rw [if_neg hn] at hr
        unfold copyInto at hr
        rw [if_pos (by omega)] at hr
        injection hr with hr
        subst hr
        rw [List.getElem?_append_right (by simp; omega)]
        simp only [List.length_append, List.length_take, List.length_replicate, List.getElem?_drop]
        have : n + (36 - (min n (status.drop (p + 6)).length + (n - min n (status.drop (p + 6)).length))) = 36 := by omega
        rw [this]; exact h0

/-- The end of the measurement is never before its start (the code subtracts the two pointers). -/
theorem span_end_after_start (status : Text) (p e : Nat) (hp : find tagResult status = some p)
    (he : (find tagComma (status.drop p)).or (find [125] (status.drop p)) = some e) : 20 ≤ e := by
  obtain ⟨r, hr, _⟩ := find_prefix _ _ _ hp
  rw [hr] at he
  have h1 : ∀ k, find tagComma (tagResult ++ r) = some k → 20 ≤ k := by
    intro k hk
    simp [find, tagResult, tagComma, List.isPrefixOf] at hk
    obtain ⟨a, _, ha⟩ := hk
    omega
  have h2 : ∀ k, find [125] (tagResult ++ r) = some k → 20 ≤ k := by
    intro k hk
    simp [find, tagResult, List.isPrefixOf] at hk
    obtain ⟨a, _, ha⟩ := hk
    omega
  cases hc : find tagComma (tagResult ++ r) with
  | some k => rw [hc] at he; simp at he; subst he; exact h1 _ hc
  | none => rw [hc] at he; simp at he; exact h2 _ he

/-- Full claim: parsing any reply stays inside the buffers. -/
def ParseInBounds : Prop := ∀ (uuid status : Text), uuid.length = 37 → (parseText uuid status).isSome

/-- Proved for every reply whose measurement text is not exactly 100 characters long. -/
theorem parse_in_bounds_partial (uuid status : Text) (h : uuid.length = 37)
    (h100 : ∀ st, measurementSpan status ≠ some (st, 100)) : (parseText uuid status).isSome := by
  unfold parseText
  obtain ⟨⟨u, b⟩, hr, hl⟩ := parseId_in_bounds uuid status h
  rw [hr]
  cases b with
  | false => rfl
  | true =>
    dsimp only
    split
    · rfl
    · cases hs : measurementSpan status with
      | none => rfl
      | some p =>
        obtain ⟨st, len⟩ := p
        have hne : len ≠ 100 := fun hh => h100 st (by rw [hs, hh])
        have hle : len ≤ 100 := by
          unfold measurementSpan at hs
          split at hs
          · cases hs
          · split at hs
            · cases hs
            · split at hs
              · cases hs
              · injection hs with hs
                injection hs with _ hs
                omega
        dsimp only
        have hm : ∃ v, measurement status st len = some v := by
          unfold measurement
          cases hc : copyInto (List.replicate 100 0) (status.drop st) len with
          | none =>
            unfold copyInto at hc
            rw [if_pos (by rw [List.length_replicate]; omega)] at hc
            cases hc
          | some b =>
            have hbl := copyInto_length _ _ _ _ hc
            rw [List.length_replicate] at hbl
            unfold store
            show ∃ v, (do let b ← (if len < b.length then some (b.set len 0) else none); pure (strtoull (b.takeWhile (· ≠ 0)))) = some v
            rw [if_pos (by omega)]
            exact ⟨_, rfl⟩
        obtain ⟨v, hv⟩ := hm
        rw [hv]
        dsimp only
        split <;> rfl

/-- A reply of the server: id, processed, measurement 12345. -/
def goodReply : Text := [123] ++ tagId ++ [97, 98, 34, 44] ++ tagProcessed ++ [49, 44] ++ tagResult ++ [49, 50, 51, 52, 53] ++ [44, 34, 125]
example : parseText (List.replicate 37 0) goodReply = some ([97, 98] ++ List.replicate 35 0, .reading 12345) := by
  decide +kernel
example : measurementSpan goodReply = some (47, 5) := by decide +kernel

/-- Violation: a measurement text of exactly 100 characters makes the code write a zero byte one
    past its 100-byte buffer. -/
theorem hundred_characters_violation : ¬ ParseInBounds := by
  intro h
  have := h (List.replicate 37 0) (tagId ++ [97, 34] ++ tagProcessed ++ [49] ++ tagResult ++ List.replicate 100 49 ++ [125]) (by decide)
  revert this; decide +kernel

/-! ### A well-formed reply is read correctly -/

/-- Decimal value of a digit text. -/
def value (ds : Text) : Nat := ds.foldl (fun v c => v * 10 + (c - 48)) 0

theorem digits_all (ds : Text) (h : ∀ c ∈ ds, 48 ≤ c ∧ c ≤ 57) : ∀ v,
    digits v ds = ds.foldl (fun v c => v * 10 + (c - 48)) v := by
  induction ds with
  | nil => intro v; rfl
  | cons c r ih =>
    intro v
    unfold digits
    rw [if_pos (h c (by simp)), ih (fun c hc => h c (by simp [hc]))]
    rfl

/-- A measurement of up to 99 digits is read as its decimal value (saturated at 64 bits). -/
theorem measurement_of_digits (status : Text) (st : Nat) (ds rest : Text)
    (hs : status.drop st = ds ++ rest) (hd : ∀ c ∈ ds, 48 ≤ c ∧ c ≤ 57) (hn : ds ≠ [])
    (hl : ds.length < 100) :
    measurement status st ds.length = some (min (value ds) (2 ^ 64 - 1)) := by
  have hc : copyInto (List.replicate 100 0) (status.drop st) ds.length =
      some (ds ++ List.replicate (100 - ds.length) 0) := by
    unfold copyInto
    rw [hs, if_pos (by rw [List.length_replicate]; omega)]
    rw [List.take_left, Nat.sub_self, List.drop_replicate]
    simp only [List.replicate_zero, List.append_nil]
  unfold measurement
  rw [hc]
  show (do let b ← store (ds ++ List.replicate (100 - ds.length) 0) ds.length 0; pure (strtoull (b.takeWhile (· ≠ 0)))) = _
  have hst : store (ds ++ List.replicate (100 - ds.length) 0) ds.length 0 =
      some (ds ++ List.replicate (100 - ds.length) 0) := by
    unfold store
    rw [if_pos (by simp; omega)]
    congr 1
    rw [List.set_append_right _ _ (Nat.le_refl _)]
    congr 1
    rw [Nat.sub_self]
    obtain ⟨k, hk⟩ : ∃ k, 100 - ds.length = k + 1 := ⟨99 - ds.length, by omega⟩
    rw [hk]; rfl
  rw [hst]
  show some (strtoull ((ds ++ List.replicate (100 - ds.length) 0).takeWhile (· ≠ 0))) = _
  have htw : (ds ++ List.replicate (100 - ds.length) 0).takeWhile (· ≠ 0) = ds := by
    obtain ⟨k, hk⟩ : ∃ k, 100 - ds.length = k + 1 := ⟨99 - ds.length, by omega⟩
    rw [hk, List.replicate_succ]
    rw [List.takeWhile_append_of_pos]
    · simp
    · intro c hcm
      have := hd c hcm
      simp; omega
  rw [htw]
  congr 1
  cases ds with
  | nil => exact absurd rfl hn
  | cons c r =>
    have hc := hd c (by simp)
    have hsp : isSpace c = false := by
      unfold isSpace
      simp
      omega
    unfold strtoull
    rw [List.dropWhile_cons, if_neg (by simp [hsp])]
    have h45 : c ≠ 45 := by omega
    have h43 : c ≠ 43 := by omega
    split
    · rename_i heq; injection heq with h1 _; exact absurd h1 h45
    · rename_i heq; injection heq with h1 _; exact absurd h1 h43
    · rw [digits_all _ hd]; rfl

example : measurement goodReply 47 5 = some 12345 := by decide +kernel

/-- A measurement with a minus sign is read as a huge positive number. -/
theorem negative_reading : strtoull [45, 53] = 18446744073709551611 := by decide +kernel

/-! ### Plausibility -/

/-- Readings of a history come with times that do not go back and stay below 2^42 s. -/
def ClockOk : Int → List Op → Prop
  | _, [] => True
  | t, .reading _ now :: r => t ≤ now ∧ now < t + 2 ^ 42 ∧ ClockOk now r
  | t, _ :: r => ClockOk t r

/-- Number of readings and time of the last one. -/
def readings : List Op → Nat
  | [] => 0
  | .reading _ _ :: r => readings r + 1
  | _ :: r => readings r

/-- The time of the last reading of a history. -/
def lastTime : Int → List Op → Int
  | t, [] => t
  | _, .reading _ now :: r => lastTime now r
  | t, _ :: r => lastTime t r

/-- The bound of the English claim: one maximum increment per photo period, elapsed or begun. -/
def bound (s : Ocr) (from_ to_ : Int) (n : Nat) : Nat :=
  s.maxInc * (((to_ - from_).toNat) / s.interval + n)

theorem periods_eq (d : Nat) (i : Nat) (hi : 3600 ≤ i) (hd : d < 2 ^ 42) :
    periods (d : Int) i = ((d / i + 1 : Nat) : Int) := by
  unfold periods
  have h1 : (d : Int).tdiv (i : Int) = ((d / i : Nat) : Int) := by
    rw [Int.tdiv_eq_ediv_of_nonneg (by omega)]; rfl
  rw [h1]
  have h2 : d / i ≤ d / 3600 := Nat.div_le_div_left hi (by decide)
  have h3 : d / 3600 < 1300000000 := by omega
  generalize d / i = q at h2 ⊢
  omega

theorem allowed_le (m : Nat) (k : Nat) (hk : k < 2 ^ 63) : allowed m (k : Int) ≤ m * k := by
  unfold allowed
  have : ((k : Int) % 2 ^ 64).toNat = k := by omega
  rw [this]
  exact Nat.mod_le _ _

/-- One reading: the accepted value never goes down, and up by at most the maximum increment for
    every photo period begun since the last accepted reading. -/
theorem accept_plausible (s : Ocr) (v : Nat) (now : Int) (h0 : s.lastOk ≠ 0) (hm : s.maxInc ≠ 0)
    (ht : s.ts ≤ now) (ht2 : now < s.ts + 2 ^ 42) :
    s.lastOk ≤ (accept s v now).lastOk ∧
    (accept s v now).lastOk - s.lastOk ≤ bound s s.ts now 1 := by
  unfold accept
  by_cases hp : plausible s v now = true
  · rw [if_pos hp]
    unfold plausible at hp
    by_cases h1 : s.lastOk = v
    · rw [if_pos h1] at hp; cases hp
    · rw [if_neg h1, if_neg (by simp [h0, hm])] at hp
      by_cases h2 : v < s.lastOk
      · rw [if_pos h2] at hp; cases hp
      · rw [if_neg h2] at hp
        by_cases h3 : s.interval ≥ 3600
        · rw [if_pos h3] at hp
          simp only [Bool.and_eq_true, decide_eq_true_eq] at hp
          obtain ⟨d, hd⟩ : ∃ d : Nat, now - s.ts = (d : Int) := ⟨(now - s.ts).toNat, by omega⟩
          have hd2 : d < 2 ^ 42 := by omega
          rw [hd, periods_eq d _ h3 hd2] at hp
          have hk : d / s.interval + 1 < 2 ^ 63 := by
            have := Nat.div_le_self d s.interval
            omega
          have hal := allowed_le s.maxInc _ hk
          refine ⟨by show s.lastOk ≤ v; omega, ?_⟩
          show v - s.lastOk ≤ bound s s.ts now 1
          unfold bound
          rw [hd]
          have : ((d : Int)).toNat = d := by omega
          rw [this]
          omega
        · rw [if_neg h3] at hp; cases hp
  · rw [if_neg hp]
    exact ⟨Nat.le_refl _, by omega⟩

example : (accept { lastOk := 1000, ts := 100000, counter := 1000, maxInc := 50 } 1140 108000).lastOk = 1140 ∧
    (accept { lastOk := 1000, ts := 100000, counter := 1000, maxInc := 50 } 1200 108000).lastOk = 1000 ∧
    (accept { lastOk := 1000, ts := 100000, counter := 1000, maxInc := 50 } 999 108000).lastOk = 1000 := by
  decide +kernel

theorem div_split (a b i : Nat) : a / i + b / i ≤ (a + b) / i := by
  by_cases hi : i = 0
  · subst hi; simp
  · have hpos : 0 < i := Nat.pos_of_ne_zero hi
    rw [Nat.le_div_iff_mul_le hpos, Nat.add_mul]
    exact Nat.add_le_add (Nat.div_mul_le_self _ _) (Nat.div_mul_le_self _ _)

/-- Whole histories of replies and restarts without a reset: the accepted reading never goes down
    and grows by at most the maximum increment per elapsed photo period plus one per reply. -/
theorem readings_plausible_partial (ops : List Op) : ∀ (s : Ocr) (now : Int), s.lastOk ≠ 0 → s.maxInc ≠ 0 →
    Op.reset ∉ ops → s.ts ≤ now → now < s.ts + 2 ^ 41 → ClockOk now ops → lastTime now ops < s.ts + 2 ^ 41 →
    s.lastOk ≤ (run s ops).lastOk ∧
    (run s ops).lastOk - s.lastOk ≤ bound s s.ts (lastTime now ops) (readings ops) := by
  have mono : ∀ (ops : List Op) (t : Int), ClockOk t ops → t ≤ lastTime t ops := by
    intro ops
    induction ops with
    | nil => intro t _; exact Int.le_refl _
    | cons o r ih =>
      intro t hc
      cases o with
      | reading v n => exact Int.le_trans hc.1 (ih n hc.2.2)
      | reset => exact ih t hc
      | restart => exact ih t hc
  induction ops with
  | nil => intro s now _ _ _ _ _ _ _; exact ⟨Nat.le_refl _, by show s.lastOk - s.lastOk ≤ _; omega⟩
  | cons o r ih =>
    intro s now h0 hm hr ht ht2 hc hl
    have hr' : Op.reset ∉ r := fun hh => hr (by simp [hh])
    cases o with
    | reset => exact absurd (by simp) hr
    | restart => exact ih (restart s) now h0 hm hr' ht ht2 hc hl
    | reading v n =>
      obtain ⟨c1, c2, c3⟩ := hc
      have hln := mono r n c3
      have hl' : lastTime n r < s.ts + 2 ^ 41 := hl
      have hst := accept_plausible s v n h0 hm (by omega) (by omega)
      have hframe : (accept s v n).maxInc = s.maxInc ∧ (accept s v n).interval = s.interval := by
        unfold accept; split <;> exact ⟨rfl, rfl⟩
      have hts : (accept s v n).ts = n ∨ ((accept s v n).ts = s.ts ∧ (accept s v n).lastOk = s.lastOk) := by
        unfold accept; split
        · left; rfl
        · right; exact ⟨rfl, rfl⟩
      show s.lastOk ≤ (run (accept s v n) r).lastOk ∧ (run (accept s v n) r).lastOk - s.lastOk ≤ bound s s.ts (lastTime n r) (readings r + 1)
      have h0' : (accept s v n).lastOk ≠ 0 := by omega
      have hm' : (accept s v n).maxInc ≠ 0 := by rw [hframe.1]; exact hm
      rcases hts with hts | ⟨hts, hlo⟩
      · have := ih (accept s v n) n h0' hm' hr' (by omega) (by omega) c3 (by omega)
        refine ⟨by omega, ?_⟩
        unfold bound at this hst ⊢
        rw [hframe.1, hframe.2, hts] at this
        have hdiv := div_split (n - s.ts).toNat (lastTime n r - n).toNat s.interval
        have hsum : (n - s.ts).toNat + (lastTime n r - n).toNat = (lastTime n r - s.ts).toNat := by omega
        rw [hsum] at hdiv
        have hmul := Nat.mul_le_mul_left s.maxInc hdiv
        simp only [Nat.mul_add] at this hst hmul ⊢
        omega
      · have := ih (accept s v n) n h0' hm' hr' (by omega) (by omega) c3 (by omega)
        refine ⟨by omega, ?_⟩
        unfold bound at this ⊢
        rw [hframe.1, hframe.2, hts, hlo] at this
        simp only [Nat.mul_add] at this ⊢
        omega

example : ClockOk 100000 [.reading 1040 103600, .restart, .reading 5000 107200, .reading 1090 107300] ∧
    (run { lastOk := 1000, ts := 100000, counter := 1000, maxInc := 50 } [.reading 1040 103600, .restart, .reading 5000 107200, .reading 1090 107300]).lastOk = 1090 := by
  refine ⟨by simp [ClockOk], by decide +kernel⟩

/-- Without restart the shown counter is the accepted reading, so the same holds for it. -/
theorem counter_is_reading (ops : List Op) (s : Ocr) (h : s.counter = s.lastOk) (hr : Op.restart ∉ ops) :
    (run s ops).counter = (run s ops).lastOk := by
  induction ops generalizing s with
  | nil => exact h
  | cons o r ih =>
    have hr' : Op.restart ∉ r := fun hh => hr (by simp [hh])
    refine ih (step s o) ?_ hr'
    cases o with
    | reading v n => simp only [step, accept]; split <;> first | rfl | exact h
    | reset => rfl
    | restart => exact absurd (by simp) hr

example : (run {} [.reading 1000 100000, .reading 1040 103600]).counter = 1040 := by decide +kernel

/-- Full claim about the shown counter, restarts included. -/
def CounterNeverDecreases : Prop := ∀ (ops : List Op) (o : Op) (s : Ocr), s.counter = s.lastOk →
  s.maxInc ≠ 0 → ClockOk s.ts (ops ++ [o]) → Op.reset ∉ ops ++ [o] →
  (run s ops).counter ≤ (run s (ops ++ [o])).counter

/-- Violation: after a restart the counter shows 0, and as long as the meter shows the same value
    it stays 0: the equal reading is not taken over. -/
theorem counter_lost_after_restart_violation : ¬ CounterNeverDecreases := by
  intro h
  have := h [.reading 1000 100000] .restart { maxInc := 50 } rfl (by decide) (by simp [ClockOk]) (by simp)
  revert this; decide +kernel

theorem counter_stays_zero (s : Ocr) (v : Nat) (now : Int) (hv : v = s.lastOk) :
    (accept (restart s) v now).counter = 0 := by
  subst hv
  unfold accept plausible
  rw [if_neg]
  · rfl
  · rw [if_pos]
    · simp
    · rfl

/-- Full claim without the assumption that the clock never goes back (elapsed time counts as 0
    then). -/
def JumpBounded : Prop := ∀ (s : Ocr) (v : Nat) (now : Int), s.lastOk ≠ 0 → s.maxInc ≠ 0 →
  s.interval ≥ 3600 → (accept s v now).lastOk - s.lastOk ≤ bound s s.ts now 1

/-- Violation: if the clock is set back by two photo intervals, the number of periods is negative,
    becomes a huge unsigned number, and any jump is accepted. -/
theorem clock_set_back_violation : ¬ JumpBounded := by
  intro h
  have := h { lastOk := 1000, ts := 100000, counter := 1000, maxInc := 50 } 99999999 92800 (by decide) (by decide) (by decide)
  revert this; decide +kernel

/-! ### Photo pacing -/

/-- Claim: after a failed attempt the next one comes 15 s later, not sooner and (for a working
    main loop) not much later: at any time between 15 s and an hour a pass tries again. -/
def RetryAfter15s : Prop := ∀ (sec t u : Nat) (s : Pace), 3600 ≤ sec → sec < 4294967 → s.autoLight = false →
  s.litSince = 0 → (pass sec s (clk t) false).2 = .photo false → t < u → u < t + 3600000 →
  ((pass sec (pass sec s (clk t) false).1 (clk u) true).2 = .photo true ↔ t + 15000 ≤ u)

/-- True if the last photo was taken exactly one interval before the failing attempt (and the
    advanced time stamp is not 0). -/
theorem retry_after_15s_partial (sec t u : Nat) (s : Pace) (hs : 3600 ≤ sec) (hs2 : sec < 4294967 - 15)
    (ha : s.autoLight = false) (hl : s.litSince = 0) (t0 : Nat) (h0 : s.lastPhoto = clk t0)
    (hz : (t0 + 15000) % 2 ^ 32 ≠ 0) (ht : t = t0 + sec * 1000) (hu : t ≤ u) (hu2 : u < t + 30000)
    (hp : (pass sec s (clk t) false).2 = .photo false) :
    (pass sec (pass sec s (clk t) false).1 (clk u) true).2 = .photo true ↔ t + 15000 ≤ u := by
  have hmod : sec * 1000 % 2 ^ 32 = sec * 1000 := by omega
  have hone : (pass sec s (clk t) false).1 = { s with lastPhoto := (s.lastPhoto + 15000) % 2 ^ 32 } := by
    unfold pass at hp ⊢
    by_cases hc : s.lastPhoto = 0 ∨ since (clk t) s.lastPhoto ≥ sec * 1000 % 2 ^ 32
    · rw [if_pos hc] at hp ⊢
      simp [ha, hl]
    · rw [if_neg hc] at hp
      cases hp
  rw [hone]
  unfold pass
  dsimp only
  have hlp : (s.lastPhoto + 15000) % 2 ^ 32 = clk (t0 + 15000) := by rw [h0]; unfold clk; omega
  rw [hlp, hmod, since_clk_eq _ _ (by omega) (by omega)]
  have hnz : clk (t0 + 15000) ≠ 0 := hz
  by_cases hc : u - (t0 + 15000) ≥ sec * 1000
  · rw [if_pos (Or.inr hc)]
    simp [ha, hl]
    omega
  · rw [if_neg (by intro h; rcases h with h | h; exact hnz h; exact hc h)]
    simp
    omega

example : (pass 3600 { lastPhoto := 1000 } 3601000 false).2 = .photo false ∧
    (pass 3600 (pass 3600 { lastPhoto := 1000 } 3601000 false).1 3615999 true).2 = .nothing ∧
    (pass 3600 (pass 3600 { lastPhoto := 1000 } 3601000 false).1 3616000 true).2 = .photo true := by
  decide +kernel

/-- Violation: if the very first attempt fails (at 20 s after start), the next comes only an hour
    and 15 s after the start. -/
theorem first_failure_waits_violation : ¬ RetryAfter15s := by
  intro h
  have := h 3600 20000 40000 {} (by decide) (by decide) rfl rfl (by decide +kernel) (by decide) (by decide)
  revert this; decide +kernel

/-- Violation, the other way: a first failure within 15 s of the start is retried at every pass. -/
theorem early_failure_hammers_violation : ¬ RetryAfter15s := by
  intro h
  have := h 3600 10000 10001 {} (by decide) (by decide) rfl rfl (by decide +kernel) (by decide) (by decide)
  revert this; decide +kernel

/-- After a successful photo no other attempt is made before the interval is over (intervals up to
    49.7 days; a photo taken when the millisecond clock reads exactly 0 counts as none). -/
theorem photos_one_interval_apart_partial (sec t u : Nat) (s : Pace) (cam : Bool) (hs2 : sec < 4294967)
    (hp : (pass sec s (clk t) true).2 = .photo true) (hz : clk t ≠ 0) (hu : t ≤ u) (hu2 : u < t + sec * 1000) :
    (pass sec (pass sec s (clk t) true).1 (clk u) cam).2 = .nothing := by
  have hlast : (pass sec s (clk t) true).1.lastPhoto = clk t := by
    unfold pass at hp ⊢
    by_cases hc : s.lastPhoto = 0 ∨ since (clk t) s.lastPhoto ≥ sec * 1000 % 2 ^ 32
    · rw [if_pos hc] at hp ⊢
      by_cases h1 : (s.autoLight && decide (s.litSince = 0)) = true
      · rw [if_pos h1] at hp; cases hp
      · rw [if_neg h1] at hp ⊢
        by_cases h2 : (decide (s.litSince ≠ 0) && decide (since (clk t) s.litSince ≤ 3000)) = true
        · rw [if_pos h2] at hp; cases hp
        · rw [if_neg h2]; rfl
    · rw [if_neg hc] at hp; cases hp
  revert hlast
  generalize (pass sec s (clk t) true).1 = q
  intro hq
  unfold pass
  have hmod : sec * 1000 % 2 ^ 32 = sec * 1000 := by omega
  rw [hq, hmod, since_clk_eq _ _ hu (by omega), if_neg]
  intro h
  rcases h with h | h
  · exact hz h
  · omega

example : (pass 3600 {} 5000 true).2 = .photo true ∧ (pass 3600 (pass 3600 {} 5000 true).1 3604999 true).2 = .nothing := by
  decide +kernel

/-- With automatic light a photo is only taken more than 3 s after the light went on. -/
theorem photo_is_lit (sec now : Nat) (s : Pace) (cam ok : Bool) (ha : s.autoLight = true)
    (hp : (pass sec s now cam).2 = .photo ok) : s.litSince ≠ 0 ∧ since now s.litSince > 3000 := by
  unfold pass at hp
  by_cases hc : s.lastPhoto = 0 ∨ since now s.lastPhoto ≥ sec * 1000 % 2 ^ 32
  · rw [if_pos hc] at hp
    by_cases h1 : (s.autoLight && decide (s.litSince = 0)) = true
    · rw [if_pos h1] at hp; cases hp
    · rw [if_neg h1] at hp
      by_cases h2 : (decide (s.litSince ≠ 0) && decide (since now s.litSince ≤ 3000)) = true
      · rw [if_pos h2] at hp; cases hp
      · simp [ha] at h1
        refine ⟨h1, ?_⟩
        simp [h1] at h2
        exact h2
  · rw [if_neg hc] at hp; cases hp

example : (pass 3600 { autoLight := true, litSince := 1000 } 4001 true).2 = .photo true := by decide +kernel

end Verif.Ocr
