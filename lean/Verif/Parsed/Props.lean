import Verif.Parsed.Model

/-!
# C106: numbers read from files and commands
-/

namespace Verif.Parsed

/-- Readings follow each other in time (newest first), with pauses of at most `gap` ms. -/
def Paced (gap : Nat) : List Ask → Prop
  | [] => True
  | [_] => True
  | a :: b :: as => b.t ≤ a.t ∧ a.t - b.t ≤ gap ∧ Paced gap (b :: as)

/-- The refresh time in force: at least 10 ms. -/
def period (timeMs : Nat) : Nat := max 10 timeMs

theorem new_refresh (timeMs : Nat) : (new timeMs).refreshMs = period timeMs := by
  unfold new period
  dsimp only
  split <;> omega

/-- What is true after each reading at `now`: the last attempt to read the source was at `t'`. -/
structure Fresh (src : Nat → Option Doc) (timeMs now : Nat) (p : Parser) : Prop where
  ms : p.refreshMs = period timeMs
  at' : ∃ t', t' ≤ now ∧ now - t' ≤ period timeMs ∧ p.last = clk t' ∧ (p.valid = true → src t' = some p.doc)

/-- The parser after a refresh. -/
theorem refresh_fresh (src : Nat → Option Doc) (timeMs now t gap : Nat) (p : Parser) (h : Fresh src timeMs now p) (h1 : now ≤ t) (h2 : t - now ≤ gap) (hg : period timeMs + gap < 2 ^ 32) :
    Fresh src timeMs t (refresh src t p).1 ∧ ((refresh src t p).1.valid = true → (refresh src t p).2 = true) := by
  obtain ⟨hms, t', a, b, c, d⟩ := h
  unfold refresh
  by_cases hr : p.last = 0 ∨ since (clk t) p.last > p.refreshMs
  · rw [if_pos hr]
    unfold refreshSource
    cases hs : src t with
    | none => exact ⟨⟨hms, t, Nat.le_refl t, by omega, rfl, fun h => (by cases h)⟩, fun h => (by cases h)⟩
    | some x => exact ⟨⟨hms, t, Nat.le_refl t, by omega, rfl, fun _ => hs⟩, fun _ => rfl⟩
  · rw [if_neg hr]
    refine ⟨⟨hms, t', by omega, ?_, c, d⟩, fun _ => rfl⟩
    have : ¬ since (clk t) p.last > p.refreshMs := fun h => hr (Or.inr h)
    rw [c, since_clk_eq t t' (by omega) (by omega), hms] at this
    omega

theorem getValue_fresh (src : Nat → Option Doc) (timeMs now : Nat) (key : String) (p : Parser) (h : Fresh src timeMs now p) : Fresh src timeMs now (getValue key p).1 := by
  unfold getValue
  cases p.doc key with
  | some v => exact h
  | none =>
    obtain ⟨hms, t', a, b, c, _⟩ := h
    exact ⟨hms, t', a, b, c, fun h => (by cases h)⟩

theorem sensor_fresh (src : Nat → Option Doc) (timeMs t : Nat) (key : String) (m : ℚ) (p : Parser) (h : Fresh src timeMs t (refresh src t p).1) :
    Fresh src timeMs t (sensor src t key m p).1 := by
  unfold sensor
  split
  · exact getValue_fresh src timeMs t key _ h
  · exact h

/-- The first reading reads the source. -/
theorem first_fresh (src : Nat → Option Doc) (timeMs t : Nat) : Fresh src timeMs t (refresh src t (new timeMs)).1 := by
  unfold refresh
  rw [if_pos (show (new timeMs).last = 0 ∨ _ from Or.inl rfl)]
  unfold refreshSource
  cases hs : src t with
  | none => exact ⟨new_refresh timeMs, t, Nat.le_refl t, by omega, rfl, fun h => (by cases h)⟩
  | some x => exact ⟨new_refresh timeMs, t, Nat.le_refl t, by omega, rfl, fun _ => hs⟩

theorem refreshed (src : Nat → Option Doc) (timeMs gap : Nat) (hg : period timeMs + gap < 2 ^ 32) (as : List Ask) (a : Ask) (h : Paced gap (a :: as)) :
    Fresh src timeMs a.t (refresh src a.t (run src timeMs as)).1 := by
  induction as generalizing a with
  | nil => exact first_fresh src timeMs a.t
  | cons b as ih =>
    obtain ⟨h1, h2, h3⟩ := h
    exact (refresh_fresh src timeMs b.t a.t gap _ (sensor_fresh src timeMs b.t b.key b.m _ (ih b h3)) h1 h2 hg).1

/-- A number that is given is one of the content. -/
theorem sensor_some (src : Nat → Option Doc) (t : Nat) (key : String) (m : ℚ) (p : Parser) (v : ℚ) (h : (sensor src t key m p).2 = some v) :
    (refresh src t p).1.valid = true ∧ ∃ x, (refresh src t p).1.doc key = some x ∧ v = x * m := by
  unfold sensor at h
  by_cases hr : (refresh src t p).2 = true
  · rw [if_pos hr] at h
    dsimp only at h
    generalize (refresh src t p).1 = q at *
    unfold getValue at h
    cases hd : q.doc key with
    | none =>
      rw [hd] at h
      dsimp only at h
      rw [if_neg Bool.false_ne_true] at h
      cases h
    | some x =>
      rw [hd] at h
      dsimp only at h
      by_cases hv : q.valid = true
      · rw [if_pos hv] at h
        exact ⟨hv, x, rfl, (Option.some.inj h).symm⟩
      · rw [if_neg hv] at h; cases h
  · rw [if_neg hr] at h; cases h

/-- **C106.** A number that a sensor shows was in the source, under the sensor's key, not longer than the refresh time ago. -/
theorem shown_was_there (src : Nat → Option Doc) (timeMs gap : Nat) (hg : period timeMs + gap < 2 ^ 32) (as : List Ask) (a : Ask) (h : Paced gap (a :: as)) (v : ℚ)
    (hv : answer src timeMs as a = some v) :
    ∃ t d x, t ≤ a.t ∧ a.t - t ≤ period timeMs ∧ src t = some d ∧ d a.key = some x ∧ v = x * a.m := by
  obtain ⟨_, t', e1, e2, _, e4⟩ := refreshed src timeMs gap hg as a h
  obtain ⟨h1, x, h2, h3⟩ := sensor_some _ _ _ _ _ _ hv
  exact ⟨t', _, x, e1, e2, e4 h1, h2, h3⟩

/-- The full claim: a number that has been in the source all along is shown. -/
def AlwaysShown : Prop :=
  ∀ (src : Nat → Option Doc) (timeMs gap : Nat) (as : List Ask) (a : Ask) (x : ℚ), period timeMs + gap < 2 ^ 32 → Paced gap (a :: as) →
    (∀ t, ∃ d, src t = some d ∧ d a.key = some x) → answer src timeMs as a = some (x * a.m)

/-- A source with one key. -/
def one (key : String) (x : ℚ) : Doc := fun k => if k = key then some x else none

/-- **Finding.** A sensor that asks for a key that is not there makes the numbers of all others unavailable until the source is
read again. -/
theorem always_violation : ¬ AlwaysShown := by
  intro h
  have := h (fun _ => some (one "temp" 21)) 5000 1000 [⟨1000, "humi", 1⟩] ⟨1001, "temp", 1⟩ 21 (by decide) ⟨by decide, by decide, trivial⟩
    (fun _ => ⟨_, rfl, by decide⟩)
  revert this
  decide +kernel

/-- A parser that has never been asked for a missing key. -/
def Sound (p : Parser) : Prop := p.last = 0 ∨ p.valid = true

theorem refresh_ok (src : Nat → Option Doc) (hs : ∀ t, ∃ d, src t = some d) (t : Nat) (p : Parser) (h : Sound p) :
    (refresh src t p).2 = true ∧ (refresh src t p).1.valid = true := by
  unfold refresh
  by_cases hr : p.last = 0 ∨ since (clk t) p.last > p.refreshMs
  · rw [if_pos hr]
    obtain ⟨d, hd⟩ := hs t
    rw [hd]
    exact ⟨rfl, rfl⟩
  · rw [if_neg hr]
    rcases h with h | h
    · exact absurd (Or.inl h) hr
    · exact ⟨rfl, h⟩

theorem sensor_ok (src : Nat → Option Doc) (hs : ∀ t, ∃ d, src t = some d) (t : Nat) (key : String) (m : ℚ) (p : Parser) (h : Sound p) (x : ℚ)
    (hk : (refresh src t p).1.doc key = some x) : (sensor src t key m p).2 = some (x * m) ∧ (sensor src t key m p).1.valid = true := by
  obtain ⟨h1, h2⟩ := refresh_ok src hs t p h
  unfold sensor
  rw [if_pos h1]
  dsimp only
  generalize (refresh src t p).1 = q at *
  unfold getValue
  rw [hk]
  dsimp only
  rw [if_pos h2]
  exact ⟨rfl, h2⟩

/-- The content after a refresh is one the source had. -/
theorem refresh_doc (src : Nat → Option Doc) (hs : ∀ t, ∃ d, src t = some d) (t : Nat) (p : Parser) (h : p.last = 0 ∨ ∃ t', src t' = some p.doc) :
    ∃ t', src t' = some (refresh src t p).1.doc := by
  unfold refresh
  by_cases hr : p.last = 0 ∨ since (clk t) p.last > p.refreshMs
  · rw [if_pos hr]
    obtain ⟨d, hd⟩ := hs t
    rw [hd]
    exact ⟨t, hd⟩
  · rw [if_neg hr]
    rcases h with h | h
    · exact absurd (Or.inl h) hr
    · exact h

theorem sensor_doc (src : Nat → Option Doc) (t : Nat) (key : String) (m : ℚ) (p : Parser) : (sensor src t key m p).1.doc = (refresh src t p).1.doc := by
  unfold sensor
  split
  · dsimp only
    generalize (refresh src t p).1 = q at *
    unfold getValue
    cases q.doc key <;> rfl
  · rfl

theorem run_sound (src : Nat → Option Doc) (timeMs : Nat) (hs : ∀ t, ∃ d, src t = some d) (as : List Ask) (hk : ∀ a ∈ as, ∀ t d, src t = some d → d a.key ≠ none) :
    Sound (run src timeMs as) ∧ ((run src timeMs as).last = 0 ∨ ∃ t', src t' = some (run src timeMs as).doc) := by
  induction as with
  | nil => exact ⟨Or.inl rfl, Or.inl rfl⟩
  | cons a as ih =>
    obtain ⟨i1, i2⟩ := ih (fun b hb => hk b (List.mem_cons_of_mem _ hb))
    obtain ⟨t', ht'⟩ := refresh_doc src hs a.t _ i2
    have hne := hk a List.mem_cons_self t' _ ht'
    obtain ⟨x, hx⟩ := Option.ne_none_iff_exists'.mp hne
    have := sensor_ok src hs a.t a.key a.m _ i1 x hx
    refine ⟨Or.inr this.2, Or.inr ⟨t', ?_⟩⟩
    show src t' = some (sensor src a.t a.key a.m (run src timeMs as)).1.doc
    rw [sensor_doc]
    exact ht'

/-- **C106.** As long as no sensor asks for a key that is missing, every number is shown. Missing: sensors that do (see
`always_violation`). -/
theorem always_partial (src : Nat → Option Doc) (timeMs : Nat) (hs : ∀ t, ∃ d, src t = some d) (as : List Ask)
    (hk : ∀ a ∈ as, ∀ t d, src t = some d → d a.key ≠ none) (a : Ask) (x : ℚ) (hx : ∀ t d, src t = some d → d a.key = some x) :
    answer src timeMs as a = some (x * a.m) := by
  obtain ⟨i1, i2⟩ := run_sound src timeMs hs as hk
  obtain ⟨t', ht'⟩ := refresh_doc src hs a.t _ i2
  exact (sensor_ok src hs a.t a.key a.m _ i1 x (hx t' _ ht')).1

/-- **C106.** A source that gives nothing, and one without the key, is shown as "not available" at the next refresh. -/
theorem gone (src : Nat → Option Doc) (t : Nat) (key : String) (m : ℚ) (p : Parser) (hr : p.last = 0 ∨ since (clk t) p.last > p.refreshMs)
    (h : src t = none ∨ ∃ d, src t = some d ∧ d key = none) : (sensor src t key m p).2 = none := by
  cases hx : (sensor src t key m p).2 with
  | none => rfl
  | some v =>
    exfalso
    obtain ⟨h1, x, h2, _⟩ := sensor_some _ _ _ _ _ _ hx
    unfold refresh at h1 h2
    rw [if_pos hr] at h1 h2
    rcases h with h | ⟨d, h, h'⟩
    · rw [h] at h1; cases h1
    · rw [h] at h2
      have h2 : d key = some x := h2
      rw [h'] at h2; cases h2

/-! ## Counters and meters -/

/-- The full claim: a counter never shows less than what the source has always had. -/
def CounterKept : Prop :=
  ∀ (src : Nat → Option Doc) (timeMs : Nat) (as : List Ask) (a : Ask) (x : ℚ), a.m = 1 → (∀ t d y, src t = some d → d a.key = some y → x ≤ y) → 0 ≤ x →
    x ≤ counter src timeMs as a

/-- **Finding.** A counter whose source cannot be read shows 0. -/
theorem counter_violation : ¬ CounterKept := by
  intro h
  have := h (fun _ => none) 5000 [] ⟨1000, "counter", 1⟩ 5 rfl (fun _ _ _ h => (by cases h)) (by decide)
  revert this
  decide +kernel

/-- **C106.** It shows the source's number when there is one. Missing: the rest. -/
theorem counter_partial (src : Nat → Option Doc) (timeMs gap : Nat) (hg : period timeMs + gap < 2 ^ 32) (as : List Ask) (a : Ask) (h : Paced gap (a :: as)) (v : ℚ)
    (hv : answer src timeMs as a = some v) :
    counter src timeMs as a = v ∧ ∃ t d x, t ≤ a.t ∧ a.t - t ≤ period timeMs ∧ src t = some d ∧ d a.key = some x ∧ v = x * a.m :=
  ⟨by unfold counter; rw [hv]; rfl, shown_was_there src timeMs gap hg as a h v hv⟩

/-- The full claim for meters: a voltage that is shown was in the source not longer than the refresh time ago, or is 0 since the
source could not be read. -/
def VoltageShown : Prop :=
  ∀ (src : Nat → Option Doc) (timeMs gap : Nat) (as : List Ask) (a : Ask), period timeMs + gap < 2 ^ 32 → Paced gap (a :: as) →
    (∃ t d x, t ≤ a.t ∧ a.t - t ≤ period timeMs ∧ src t = some d ∧ d a.key = some x ∧ voltage src timeMs as a = x * a.m * 100) ∨
    ((∃ t, t ≤ a.t ∧ a.t - t ≤ period timeMs ∧ src t = none) ∧ voltage src timeMs as a = 0)

/-- A source that is there at first only. -/
def broken (t : Nat) : Option Doc := if t ≤ 1000 then some (one "voltage" 230) else none

/-- **Finding.** After the source is lost a meter shows 0 V, but at the readings before the next refresh the old voltage again, however
old. -/
theorem voltage_violation : ¬ VoltageShown := by
  intro h
  rcases h broken 5000 7000 [⟨8000, "voltage", 1⟩, ⟨1000, "voltage", 1⟩] ⟨9000, "voltage", 1⟩ (by decide) ⟨by decide, by decide, by decide, by decide, trivial⟩ with ⟨t, d, x, h1, h2, h3, _⟩ | ⟨_, h2⟩
  · have h2 : 9000 - t ≤ 5000 := h2
    unfold broken at h3
    rw [if_neg (by omega)] at h3
    cases h3
  · revert h2
    decide +kernel

/-- The full claim: an energy that never goes down in the source never goes down on the meter. -/
def EnergyGrows : Prop :=
  ∀ (src : Nat → Option Doc) (timeMs : Nat) (as : List Ask) (a b : Ask), a.key = b.key → a.m = 1 → b.m = 1 → b.t ≤ a.t →
    (∀ t t' d d' x x', t ≤ t' → src t = some d → src t' = some d' → d a.key = some x → d' a.key = some x' → x ≤ x') →
    energy src timeMs (b :: as) ≤ energy src timeMs (a :: b :: as)

/-- A source whose energy is missing later. -/
def gap (t : Nat) : Option Doc := some (if t < 6000 then one "energy" 7 else one "other" 1)

/-- **Finding.** A meter whose key is missing in one reading shows an energy of 0. -/
theorem energy_violation : ¬ EnergyGrows := by
  intro h
  have := h gap 5000 [] ⟨7000, "energy", 1⟩ ⟨1000, "energy", 1⟩ rfl rfl rfl (by decide) (by
    intro t t' d d' x x' _ h1 h2 h3 h4
    unfold gap at h1 h2
    obtain rfl := Option.some.inj h1
    obtain rfl := Option.some.inj h2
    have h3 : (if t < 6000 then one "energy" 7 else one "other" 1) "energy" = some x := h3
    have h4 : (if t' < 6000 then one "energy" 7 else one "other" 1) "energy" = some x' := h4
    have e1 : one "energy" 7 "energy" = some 7 := by decide
    have e2 : one "other" 1 "energy" = none := by decide
    split at h3
    · split at h4
      · rw [e1] at h3 h4
        rw [← Option.some.inj h3, ← Option.some.inj h4]
      · rw [e2] at h4; cases h4
    · rw [e2] at h3; cases h3)
  revert this
  decide +kernel

/-- **C106.** Right after a refresh that finds its key a meter shows the source's number; one that finds no source keeps its energies.
Missing: the rest (see above). -/
theorem meter_partial (src : Nat → Option Doc) (f : ℚ) (t : Nat) (key : String) (m : ℚ) (p : Parser) (hr : p.last = 0 ∨ since (clk t) p.last > p.refreshMs) :
    (∀ d x, src t = some d → d key = some x → (meter src f t key m p).2 = some (x * m * f)) ∧ (src t = none → (meter src f t key m p).2 = none) := by
  refine ⟨fun d x hd hx => ?_, fun hd => ?_⟩
  · have e : refresh src t p = ({ p with last := clk t, valid := true, doc := d }, true) := by
      unfold refresh
      rw [if_pos hr, hd]
      rfl
    unfold meter
    rw [e, if_pos rfl]
    dsimp only
    unfold getValue
    dsimp only
    rw [hx]
  · have e : (refresh src t p).2 = false := by
      unfold refresh
      rw [if_pos hr, hd]
      rfl
    unfold meter
    rw [e, if_neg Bool.false_ne_true]

example : answer (fun _ => some (one "temp" 21)) 5000 [⟨1000, "temp", 1⟩] ⟨1001, "temp", 2⟩ = some 42 := by decide +kernel
example : Paced 1000 [⟨1001, "temp", 2⟩, ⟨1000, "temp", 1⟩] := ⟨by decide, by decide, trivial⟩

end Verif.Parsed
