import Verif.Probe.Spec
import Mathlib.Data.List.GetD

/-!
# C101: the ultrasonic distance sensor

`/repo/src/supla/sensor/HC_SR04.cpp` (HC below), `/repo/src/supla/tools.cpp` (TO), with the length of the echo as
given by `pulseIn` (microseconds, 0 for none).
-/

namespace Verif.Probe.Distance

/-! ## What is meant -/

/-- The length of an echo that counts. -/
def Echo (d : Nat) : Prop := 50 < d

/-- The number of attempts (newest first) since the last echo, or since the beginning. -/
def missed : List Nat → Nat
  | [] => 0
  | d :: ds => if 50 < d then 0 else missed ds + 1

/-- The echoes, newest first. -/
def echoes (ds : List Nat) : List Nat := ds.filter (fun d => decide (50 < d))

/-! ## The code -/

/-- The conversion `(duration / 2.0) / 29.1` to centimetres, HC line 93, in `double`: the quotient rounded down, except that
a quotient that is a whole number may come out as one less. -/
structure Cm where
  f : Nat → Nat
  mono : ∀ a b, a ≤ b → f a ≤ f b
  low : ∀ a, f a * 582 ≤ 10 * a
  high : ∀ a, 10 * a ≤ (f a + 1) * 582

/-- HC lines 24-37: ranges. -/
structure Range where
  minIn : Int
  maxIn : Int
  minOut : Int
  maxOut : Int

/-- HC.h lines 49-51: `failCount` is a `char`, kept as a number below 256; `readouts` and `index`. -/
structure St where
  fail : Nat
  ring : Nat → Nat
  idx : Nat

/-- The constructor. -/
def St.init : St := ⟨0, fun _ => 0, 0⟩

/-- HC lines 57-64. -/
def note (s : St) (d : Nat) : St :=
  if d > 50 then
    ⟨0, fun i => if i = (if s.idx + 1 > 4 then 0 else s.idx + 1) then d else s.ring i, if s.idx + 1 > 4 then 0 else s.idx + 1⟩
  else { s with fail := (s.fail + 1) % 256 }

/-- HC lines 66-77: number, sum, smallest and largest of the readouts that are there. -/
def scan (acc : Nat × Nat × Nat × Nat) (r : Nat) : Nat × Nat × Nat × Nat :=
  if r > 0 then (acc.1 + 1, acc.2.1 + r, if acc.2.2.1 > r ∨ acc.2.2.1 = 0 then r else acc.2.2.1, if acc.2.2.2 < r then r else acc.2.2.2) else acc

/-- HC lines 79-91. -/
def mean (d : Nat) (rs : List Nat) : Nat :=
  let a := rs.foldl scan (0, 0, 0, 0)
  if a.1 = 5 then (a.2.1 - a.2.2.1 - a.2.2.2) / 3
  else if a.1 > 0 then a.2.1 / a.1 else d

/-- `adjustRange`, TO lines 66-73; `none` if it divides by zero. -/
def adjust (g : Range) (x : Int) : Option Int :=
  if g.maxIn - g.minIn = 0 then none else some (Int.tdiv ((x - g.minIn) * (g.maxOut - g.minOut)) (g.maxIn - g.minIn) + g.minOut)

/-- HC lines 95-107. -/
def limit (g : Range) (v : Int) : Int :=
  if g.minOut < g.maxOut then (if v < g.minOut then g.minOut else if v > g.maxOut then g.maxOut else v)
  else (if v < g.maxOut then g.maxOut else if v > g.minOut then g.minOut else v)

/-- The `char` compared with 3, HC line 108: whether a `char` is signed depends on the processor. -/
def few (signed : Bool) (c : Nat) : Bool := if signed = true ∧ c ≥ 128 then true else decide (c ≤ 3)

/-- What is reported: undefined, not available or centimetres. -/
inductive Rep | undefined | missing | cm (v : Int)
deriving DecidableEq

/-- `getValue`, HC lines 49-110: the report in the state after the attempt; `d` is the length of the echo. -/
def report (C : Cm) (signed : Bool) (g : Range) (s : St) (d : Nat) : Rep :=
  match adjust g (C.f (mean d ((List.range 5).map s.ring)) : Nat) with
  | none => .undefined
  | some v => if few signed s.fail then .cm (limit g v) else .missing

/-- A history, newest first. -/
def run : List Nat → St
  | [] => St.init
  | d :: ds => note (run ds) d

/-! ## Averages -/

/-- The scan of five readouts that are there. -/
theorem scan_five (a b c d e : Nat) (h : 0 < a ∧ 0 < b ∧ 0 < c ∧ 0 < d ∧ 0 < e) :
    [a, b, c, d, e].foldl scan (0, 0, 0, 0) = (5, a + b + c + d + e, min (min (min (min a b) c) d) e, max (max (max (max a b) c) d) e) := by
  obtain ⟨ha, hb, hc, hd, he⟩ := h
  have step : ∀ n s lo hi r, 0 < r → 0 < lo → scan (n, s, lo, hi) r = (n + 1, s + r, min lo r, max hi r) := by
    intro n s lo hi r hr hl
    unfold scan
    rw [if_pos hr]
    dsimp only
    congr 3
    · by_cases h1 : lo > r
      · rw [if_pos (Or.inl h1)]; omega
      · rw [if_neg (by omega)]; omega
    · split <;> omega
  have first : scan (0, 0, 0, 0) a = (1, a, a, a) := by
    unfold scan
    rw [if_pos ha]
    dsimp only
    rw [if_pos (Or.inr rfl), if_pos ha]
    simp
  simp only [List.foldl_cons, List.foldl_nil]
  rw [first, step _ _ _ _ _ hb (by omega), step _ _ _ _ _ hc (by omega), step _ _ _ _ _ hd (by omega), step _ _ _ _ _ he (by omega)]

/-- **C101.** With five readouts, one of which may be anything, the average is within the range of the others. -/
theorem mean_robust (x : Nat) (rs : List Nat) (hl : rs.length = 5) (hp : ∀ r ∈ rs, 0 < r) (lo hi : Nat) (i : Nat)
    (h : ∀ j, j < 5 → j ≠ i → lo ≤ rs.getD j 0 ∧ rs.getD j 0 ≤ hi) : lo ≤ mean x rs ∧ mean x rs ≤ hi := by
  match rs, hl with
  | [a, b, c, d, e], _ =>
    have ha := hp a (by simp)
    have hb := hp b (by simp)
    have hc := hp c (by simp)
    have hd := hp d (by simp)
    have he := hp e (by simp)
    unfold mean
    rw [scan_five a b c d e ⟨ha, hb, hc, hd, he⟩]
    dsimp only
    rw [if_pos rfl]
    have h0 : 0 ≠ i → lo ≤ a ∧ a ≤ hi := h 0 (by omega)
    have h1 : 1 ≠ i → lo ≤ b ∧ b ≤ hi := h 1 (by omega)
    have h2 : 2 ≠ i → lo ≤ c ∧ c ≤ hi := h 2 (by omega)
    have h3 : 3 ≠ i → lo ≤ d ∧ d ≤ hi := h 3 (by omega)
    have h4 : 4 ≠ i → lo ≤ e ∧ e ≤ hi := h 4 (by omega)
    have key : ∀ p q r s o : Nat, (lo ≤ p ∧ p ≤ hi) → (lo ≤ q ∧ q ≤ hi) → (lo ≤ r ∧ r ≤ hi) → (lo ≤ s ∧ s ≤ hi) → ∀ m M, (m ≤ p ∧ m ≤ q ∧ m ≤ r ∧ m ≤ s ∧ m ≤ o) →
        (m = p ∨ m = q ∨ m = r ∨ m = s ∨ m = o) → (p ≤ M ∧ q ≤ M ∧ r ≤ M ∧ s ≤ M ∧ o ≤ M) → (M = p ∨ M = q ∨ M = r ∨ M = s ∨ M = o) →
        3 * lo ≤ p + q + r + s + o - m - M ∧ p + q + r + s + o - m - M ≤ 3 * hi := by
      intro p q r s o h1 h2 h3 h4 m M h5 h6 h7 h8
      omega
    have hm : ∀ m M, m = min (min (min (min a b) c) d) e → M = max (max (max (max a b) c) d) e →
        (m ≤ a ∧ m ≤ b ∧ m ≤ c ∧ m ≤ d ∧ m ≤ e) ∧ (m = a ∨ m = b ∨ m = c ∨ m = d ∨ m = e) ∧ (a ≤ M ∧ b ≤ M ∧ c ≤ M ∧ d ≤ M ∧ e ≤ M) ∧ (M = a ∨ M = b ∨ M = c ∨ M = d ∨ M = e) := by
      intro m M e1 e2
      omega
    obtain ⟨m1, m2, m3, m4⟩ := hm _ _ rfl rfl
    generalize min (min (min (min a b) c) d) e = m at *
    generalize max (max (max (max a b) c) d) e = M at *
    have fin : 3 * lo ≤ a + b + c + d + e - m - M ∧ a + b + c + d + e - m - M ≤ 3 * hi := by
      by_cases i0 : 0 = i
      · have := key b c d e a (h1 (by omega)) (h2 (by omega)) (h3 (by omega)) (h4 (by omega)) m M (by omega) (by omega) (by omega) (by omega)
        omega
      · by_cases i1 : 1 = i
        · have := key a c d e b (h0 i0) (h2 (by omega)) (h3 (by omega)) (h4 (by omega)) m M (by omega) (by omega) (by omega) (by omega)
          omega
        · by_cases i2 : 2 = i
          · have := key a b d e c (h0 i0) (h1 i1) (h3 (by omega)) (h4 (by omega)) m M (by omega) (by omega) (by omega) (by omega)
            omega
          · by_cases i3 : 3 = i
            · have := key a b c e d (h0 i0) (h1 i1) (h2 i2) (h4 (by omega)) m M (by omega) (by omega) (by omega) (by omega)
              omega
            · have := key a b c d e (h0 i0) (h1 i1) (h2 i2) (h3 i3) m M (by omega) (by omega) (by omega) (by omega)
              omega
    omega

/-! ## The ring holds the last five echoes -/

/-- The readouts are the newest echoes. -/
structure Holds (s : St) (es : List Nat) : Prop where
  idx : s.idx < 5
  ring : ∀ k, k < 5 → s.ring ((s.idx + 5 - k) % 5) = es.getD k 0

theorem run_holds (ds : List Nat) : Holds (run ds) (echoes ds) ∧ (run ds).fail = missed ds % 256 := by
  induction ds with
  | nil => exact ⟨⟨by decide, fun k _ => rfl⟩, rfl⟩
  | cons d ds ih =>
    obtain ⟨⟨i1, i2⟩, i3⟩ := ih
    show Holds (note (run ds) d) _ ∧ (note (run ds) d).fail = _
    unfold note missed
    by_cases h : 50 < d
    · have he : echoes (d :: ds) = d :: echoes ds := by
        unfold echoes
        rw [List.filter_cons_of_pos (by simpa using h)]
      rw [if_pos h, if_pos h, he]
      refine ⟨⟨?_, ?_⟩, rfl⟩
      · show (if (run ds).idx + 1 > 4 then 0 else (run ds).idx + 1) < 5
        split <;> omega
      · intro k hk
        show (if ((if (run ds).idx + 1 > 4 then 0 else (run ds).idx + 1) + 5 - k) % 5 = (if (run ds).idx + 1 > 4 then 0 else (run ds).idx + 1) then d
          else (run ds).ring (((if (run ds).idx + 1 > 4 then 0 else (run ds).idx + 1) + 5 - k) % 5)) = (d :: echoes ds).getD k 0
        cases k with
        | zero => rw [if_pos (by split <;> omega)]; rfl
        | succ k =>
          rw [if_neg (by split <;> omega)]
          have hk2 := i2 k (by omega)
          rw [show ((if (run ds).idx + 1 > 4 then 0 else (run ds).idx + 1) + 5 - (k + 1)) % 5 = ((run ds).idx + 5 - k) % 5 by split <;> omega]
          exact hk2
    · have he : echoes (d :: ds) = echoes ds := by
        unfold echoes
        rw [List.filter_cons_of_neg (by simpa using h)]
      rw [if_neg h, if_neg h, he]
      refine ⟨⟨i1, i2⟩, ?_⟩
      show ((run ds).fail + 1) % 256 = (missed ds + 1) % 256
      omega

/-- All five readouts are among the newest five echoes, at the places of a turned list. -/
theorem ring_mem (ds : List Nat) (h : 5 ≤ (echoes ds).length) : ∀ r ∈ (List.range 5).map (run ds).ring, r ∈ echoes ds := by
  obtain ⟨⟨h1, h2⟩, _⟩ := run_holds ds
  intro r hr
  obtain ⟨i, hi, rfl⟩ := List.mem_map.mp hr
  have hi := List.mem_range.mp hi
  have := h2 (((run ds).idx + 5 - i) % 5) (by omega)
  rw [show ((run ds).idx + 5 - ((run ds).idx + 5 - i) % 5) % 5 = i by omega] at this
  rw [this, List.getD_eq_getElem _ _ (by omega)]
  exact List.getElem_mem _

/-- If all but one of the last five echoes are between `lo` and `hi`, so is their average. -/
theorem robust (C : Cm) (ds : List Nat) (x : Nat) (h5 : 5 ≤ (echoes ds).length) (lo hi i : Nat)
    (h : ∀ j, j < 5 → j ≠ i → lo ≤ (echoes ds).getD j 0 ∧ (echoes ds).getD j 0 ≤ hi) :
    C.f lo ≤ C.f (mean x ((List.range 5).map (run ds).ring)) ∧ C.f (mean x ((List.range 5).map (run ds).ring)) ≤ C.f hi := by
  obtain ⟨⟨h1, h2⟩, _⟩ := run_holds ds
  have hm := mean_robust x ((List.range 5).map (run ds).ring) (by simp)
    (by
      intro r hr
      have := ring_mem ds h5 r hr
      unfold echoes at this
      have := (List.mem_filter.mp this).2
      have : 50 < r := by simpa using this
      omega)
    lo hi (((run ds).idx + 5 - i) % 5)
    (by
      intro j hj hne
      have hg : ((List.range 5).map (run ds).ring).getD j 0 = (run ds).ring j := by
        rw [List.getD_eq_getElem _ _ (by simpa using hj)]
        simp
      have := h2 (((run ds).idx + 5 - j) % 5) (by omega)
      rw [show ((run ds).idx + 5 - ((run ds).idx + 5 - j) % 5) % 5 = j by omega] at this
      rw [hg, this]
      by_cases hi5 : i < 5
      · exact h _ (by omega) (by omega)
      · exact h _ (by omega) (by omega))
  exact ⟨C.mono _ _ hm.1, C.mono _ _ hm.2⟩

/-! ## Limits -/

/-- **C101.** What is reported lies within the configured range, whichever way round it is. -/
theorem within (C : Cm) (signed : Bool) (g : Range) (s : St) (d : Nat) (v : Int) (h : report C signed g s d = .cm v) :
    min g.minOut g.maxOut ≤ v ∧ v ≤ max g.minOut g.maxOut := by
  unfold report at h
  split at h
  · cases h
  · split at h
    · have := Rep.cm.inj h
      rw [← this]
      unfold limit
      split <;> split <;> (try split) <;> omega
    · cases h

/-- The full claim: there is a report for every setting. -/
def Defined (C : Cm) : Prop := ∀ signed g s d, report C signed g s d ≠ .undefined

theorem defined_partial (C : Cm) (signed : Bool) (g : Range) (hg : g.minIn ≠ g.maxIn) (s : St) (d : Nat) : report C signed g s d ≠ .undefined := by
  unfold report adjust
  rw [if_neg (by omega)]
  dsimp only
  split <;> simp

/-- **Finding.** A range of one distance divides by zero. -/
theorem defined_violation (C : Cm) : ¬ Defined C := by
  intro h
  apply h true ⟨100, 100, 0, 100⟩ St.init 0
  unfold report adjust
  rw [if_pos (by rfl)]

/-- **C101.** The ends of the range are reported as its ends. -/
theorem ends (g : Range) (hg : g.minIn ≠ g.maxIn) : adjust g g.minIn = some g.minOut ∧ adjust g g.maxIn = some g.maxOut := by
  unfold adjust
  rw [if_neg (by omega), if_neg (by omega)]
  constructor
  · congr 1
    rw [show g.minIn - g.minIn = 0 by omega, Int.zero_mul, Int.zero_tdiv]
    omega
  · congr 1
    rw [Int.mul_tdiv_cancel_left _ (by omega)]
    omega

/-! ## Failures -/

/-- The full claim: a sensor that has not answered four times, or never has, is reported as missing. -/
def FailingReported (C : Cm) (signed : Bool) (g : Range) : Prop := ∀ ds d, ¬ Echo d → (4 ≤ missed (d :: ds) ∨ echoes ds = []) → report C signed g (run (d :: ds)) d = .missing

/-- **C101.** It is, for the 4th to the 127th attempt. -/
theorem failing_partial (C : Cm) (signed : Bool) (g : Range) (hg : g.minIn ≠ g.maxIn) (ds : List Nat) (d : Nat) (h4 : 4 ≤ missed (d :: ds)) (h127 : missed (d :: ds) ≤ 127) :
    report C signed g (run (d :: ds)) d = .missing := by
  have hf := (run_holds (d :: ds)).2
  unfold report adjust
  rw [if_neg (by omega)]
  dsimp only
  rw [if_neg]
  rw [hf, Nat.mod_eq_of_lt (by omega)]
  unfold few
  rw [if_neg (by omega)]
  have : ¬ missed (d :: ds) ≤ 3 := by omega
  simpa using this

/-- While there are at most three failures in a row, a value is reported. -/
theorem working (C : Cm) (signed : Bool) (g : Range) (hg : g.minIn ≠ g.maxIn) (ds : List Nat) (d : Nat) (h : missed (d :: ds) ≤ 3) :
    ∃ v, report C signed g (run (d :: ds)) d = .cm v := by
  have hf := (run_holds (d :: ds)).2
  unfold report adjust
  rw [if_neg (by omega)]
  dsimp only
  rw [if_pos]
  · exact ⟨_, rfl⟩
  · rw [hf, Nat.mod_eq_of_lt (by omega)]
    unfold few
    rw [if_neg (by omega)]
    simpa using h

theorem missed_replicate (n : Nat) (ds : List Nat) : missed (List.replicate n 0 ++ ds) = n + missed ds := by
  induction n with
  | zero => simp
  | succ n ih =>
    rw [List.replicate_succ, List.cons_append]
    show (if 50 < 0 then 0 else missed (List.replicate n 0 ++ ds) + 1) = _
    rw [if_neg (by omega), ih]
    omega

/-- **Finding.** The count of failures is a `char`: at the 256th failure in a row (the 128th, where a `char` is signed) the old
distance is reported again. -/
theorem wrap_reports (C : Cm) (signed : Bool) (g : Range) (hg : g.minIn ≠ g.maxIn) (ds : List Nat) (h0 : missed ds = 0) :
    ∃ v, report C signed g (run (List.replicate 256 0 ++ ds)) 0 = .cm v := by
  have hf := (run_holds (List.replicate 256 0 ++ ds)).2
  rw [missed_replicate, h0] at hf
  unfold report adjust
  rw [if_neg (by omega)]
  dsimp only
  rw [hf, if_pos]
  · exact ⟨_, rfl⟩
  · cases signed <;> decide

theorem wrap_violation (C : Cm) (signed : Bool) (g : Range) (hg : g.minIn ≠ g.maxIn) : ¬ FailingReported C signed g := by
  intro h
  obtain ⟨v, hv⟩ := wrap_reports C signed g hg [1000] rfl
  have h1 := h (List.replicate 255 0 ++ [1000]) 0 (by unfold Echo; omega) (Or.inl (by
    show 4 ≤ missed (List.replicate 256 0 ++ [1000])
    rw [missed_replicate]; omega))
  have h2 : report C signed g (run (List.replicate 256 0 ++ [1000])) 0 = .missing := h1
  rw [hv] at h2
  cases h2

theorem signed_wrap (C : Cm) (g : Range) (hg : g.minIn ≠ g.maxIn) (ds : List Nat) (h0 : missed ds = 0) (n : Nat) (h1 : 128 ≤ n) (h2 : n < 256) :
    ∃ v, report C true g (run (List.replicate n 0 ++ ds)) 0 = .cm v := by
  have hf := (run_holds (List.replicate n 0 ++ ds)).2
  rw [missed_replicate, h0] at hf
  unfold report adjust
  rw [if_neg (by omega)]
  dsimp only
  rw [hf, if_pos]
  · exact ⟨_, rfl⟩
  · unfold few
    rw [if_pos ⟨rfl, by omega⟩]

/-- **Finding.** A sensor that is not there is reported as the nearest distance when the device is switched on. -/
theorem never_violation (C : Cm) (signed : Bool) : ¬ ∀ ds d, ¬ Echo d → echoes ds = [] → report C signed ⟨0, 500, 0, 500⟩ (run (d :: ds)) d = .missing := by
  intro h
  have h1 := h [] 0 (by unfold Echo; omega) rfl
  obtain ⟨v, hv⟩ := working C signed ⟨0, 500, 0, 500⟩ (by decide) [] 0 (by decide)
  rw [hv] at h1
  cases h1

/-- The report as a function of the average. -/
def reported (g : Range) (cm : Int) : Option Int := (adjust g cm).map (limit g)

/-- A report is made of the average of the readouts. -/
theorem report_cm (C : Cm) (signed : Bool) (g : Range) (s : St) (d : Nat) (v : Int) (h : report C signed g s d = .cm v) :
    reported g (C.f (mean d ((List.range 5).map s.ring)) : Nat) = some v := by
  unfold report at h
  unfold reported
  split at h
  · cases h
  · next w hw =>
    split at h
    · rw [hw]; exact congrArg some (Rep.cm.inj h)
    · cases h

theorem limit_mono (g : Range) (ho : g.minOut ≤ g.maxOut) (a b : Int) (h : a ≤ b) : limit g a ≤ limit g b := by
  have key : ∀ x, limit g x = max g.minOut (min g.maxOut x) := by
    intro x
    unfold limit
    split <;> split <;> (try split) <;> omega
  rw [key, key]
  omega

/-- With a range that is not turned round, a longer distance is not reported as a shorter one. -/
theorem reported_mono (g : Range) (hi : g.minIn < g.maxIn) (ho : g.minOut ≤ g.maxOut) (a b v w : Int) (hab : a ≤ b)
    (ha : reported g a = some v) (hb : reported g b = some w) : v ≤ w := by
  unfold reported adjust at ha hb
  rw [if_neg (by omega), Option.map_some] at ha hb
  have ha := Option.some.inj ha
  have hb := Option.some.inj hb
  have hm : (a - g.minIn) * (g.maxOut - g.minOut) ≤ (b - g.minIn) * (g.maxOut - g.minOut) := Int.mul_le_mul_of_nonneg_right (by omega) (by omega)
  have hd := Int.tdiv_le_tdiv (c := g.maxIn - g.minIn) (by omega) hm
  generalize Int.tdiv ((a - g.minIn) * (g.maxOut - g.minOut)) (g.maxIn - g.minIn) = p at *
  generalize Int.tdiv ((b - g.minIn) * (g.maxOut - g.minOut)) (g.maxIn - g.minIn) = q at *
  rw [← ha, ← hb]
  exact limit_mono g ho _ _ (by omega)

/-- **C101.** If all but one of the last five echoes are between `lo` and `hi`, the distance reported is between those reported for
`lo` and for `hi`. -/
theorem outlier (C : Cm) (signed : Bool) (g : Range) (hi : g.minIn < g.maxIn) (ho : g.minOut ≤ g.maxOut) (ds : List Nat) (x : Nat) (h5 : 5 ≤ (echoes ds).length)
    (lo up i : Nat) (h : ∀ j, j < 5 → j ≠ i → lo ≤ (echoes ds).getD j 0 ∧ (echoes ds).getD j 0 ≤ up) (v a b : Int)
    (hv : report C signed g (run ds) x = .cm v) (ha : reported g (C.f lo : Nat) = some a) (hb : reported g (C.f up : Nat) = some b) : a ≤ v ∧ v ≤ b := by
  have hr := robust C ds x h5 lo up i h
  have hv := report_cm C signed g (run ds) x v hv
  exact ⟨reported_mono g hi ho _ _ _ _ (by omega) ha hv, reported_mono g hi ho _ _ _ _ (by omega) hv hb⟩

/-- **C101.** With the range of the constructor, the distance is reported as it is, up to five metres. -/
theorem plain (x : Nat) : reported ⟨0, 500, 0, 500⟩ x = some (min (x : Int) 500) := by
  unfold reported adjust
  rw [if_neg (by decide), Option.map_some]
  congr 1
  dsimp only
  have : Int.tdiv (((x : Int) - 0) * (500 - 0)) (500 - 0) = x := by
    rw [show ((x : Int) - 0) * (500 - 0) = (x : Int) * 500 by omega]
    exact Int.mul_tdiv_cancel _ (by decide)
  rw [this]
  unfold limit
  dsimp only
  rw [if_pos (by decide)]
  split <;> (try split) <;> omega

/-- The number sent, in hundredths: −1.0 for a sensor not available (distance.h line 24). -/
def sent : Rep → Option Int
  | .undefined => none
  | .missing => some (-100)
  | .cm v => some v

/-- The full claim: a distance is never sent as the number for a sensor not available. -/
def Told (C : Cm) : Prop := ∀ signed g s d v, report C signed g s d = .cm v → sent (.cm v) ≠ sent .missing

theorem told_partial (C : Cm) (signed : Bool) (g : Range) (h1 : 0 ≤ g.minOut) (h2 : 0 ≤ g.maxOut) (s : St) (d : Nat) (v : Int)
    (h : report C signed g s d = .cm v) : sent (.cm v) ≠ sent .missing := by
  have := within C signed g s d v h
  intro e
  have : v = -100 := Option.some.inj e
  omega

/-- **Finding.** With a range reaching below zero, one metre below is sent as "not available". -/
theorem told_violation (C : Cm) : ¬ Told C := by
  intro h
  obtain ⟨v, hv⟩ := working C true ⟨0, 500, -100, -100⟩ (by decide) [] 1000 (by decide)
  have hw := within C true _ _ _ v hv
  have : v = -100 := by simp at hw; omega
  exact h true _ _ _ v hv (by rw [this]; rfl)

/-- A conversion there is: without rounding. -/
def cmExact : Cm where
  f := fun a => 10 * a / 582
  mono := fun a b h => by omega
  low := fun a => by omega
  high := fun a => by omega

example : report cmExact true ⟨0, 500, 0, 500⟩ (run [5820, 5820, 5820, 30000, 5820]) 5820 = .cm 100 := by decide +kernel
example : report cmExact true ⟨20, 120, 100, 0⟩ (run [5820, 5820, 5820, 30000, 5820]) 5820 = .cm 20 := by decide +kernel
example : report cmExact true ⟨0, 500, 0, 500⟩ (run [0, 0, 0, 0, 5820]) 0 = .missing := by decide +kernel

end Verif.Probe.Distance
