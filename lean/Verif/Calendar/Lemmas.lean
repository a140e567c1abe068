import Verif.Calendar.Model

/-!
# The calendar
-/

namespace Verif.Calendar

/-! ## Specification -/

/-- Days of a month. -/
def length (y m : Int) : Int :=
  if m = 2 then (if (4 ∣ y ∧ ¬ 100 ∣ y) ∨ 400 ∣ y then 29 else 28) else if m = 4 ∨ m = 6 ∨ m = 9 ∨ m = 11 then 30 else 31

/-- A date and time of the Gregorian calendar. -/
def Valid (t : Stamp) : Prop :=
  1 ≤ t.month ∧ t.month ≤ 12 ∧ 1 ≤ t.day ∧ t.day ≤ length t.year t.month ∧ 0 ≤ t.hour ∧ t.hour ≤ 23 ∧ 0 ≤ t.min ∧ t.min ≤ 59 ∧ 0 ≤ t.sec ∧ t.sec ≤ 59

instance (t : Stamp) : Decidable (Valid t) := by unfold Valid; infer_instance

/-- The next day. -/
def nextDay (t : Stamp) : Stamp :=
  if t.day < length t.year t.month then { t with day := t.day + 1 }
  else if t.month < 12 then { t with month := t.month + 1, day := 1 }
  else { t with year := t.year + 1, month := 1, day := 1 }

/-- The next second. -/
def next (t : Stamp) : Stamp :=
  if t.sec < 59 then { t with sec := t.sec + 1 }
  else if t.min < 59 then { t with min := t.min + 1, sec := 0 }
  else if t.hour < 23 then { t with hour := t.hour + 1, min := 0, sec := 0 }
  else { nextDay t with hour := 0, min := 0, sec := 0 }

/-- Zeller's congruence: the day of the week, 0 for Sunday. -/
def zeller (t : Stamp) : Int :=
  let y := if t.month ≤ 2 then t.year - 1 else t.year
  let m := if t.month ≤ 2 then t.month + 12 else t.month
  (t.day + 13 * (m + 1) / 5 + y + y / 4 - y / 100 + y / 400 - 1) % 7

/-! ## Years -/

theorem leap_iff (y : Int) : leap y = true ↔ (4 ∣ y ∧ ¬ 100 ∣ y) ∨ 400 ∣ y := by
  unfold leap
  simp only [Bool.and_eq_true, Bool.or_eq_true, beq_iff_eq, bne_iff_ne]
  omega

/-- Days of a year. -/
theorem yearDays_succ (y : Int) : yearDays (y + 1) = yearDays y + 365 + (if leap y = true then 1 else 0) := by
  have h := leap_iff y
  unfold yearDays
  split
  · rename_i hl
    have := h.mp hl
    omega
  · rename_i hl
    have : ¬ ((4 ∣ y ∧ ¬ 100 ∣ y) ∨ 400 ∣ y) := fun c => hl (h.mpr c)
    omega

theorem year_estimate (d : Int) : yearDays (400 * d / 146097 + 1970 - 1) ≤ d ∧ d < yearDays (400 * d / 146097 + 1970 + 2) := by
  unfold yearDays
  omega

theorem year_mono (y : Int) : yearDays y + 365 ≤ yearDays (y + 1) := by
  rw [yearDays_succ]
  split <;> omega

theorem year_mono_nat (y : Int) (k : Nat) : yearDays y + 365 * k ≤ yearDays (y + k) := by
  induction k with
  | zero => simp
  | succ k ih =>
    have := year_mono (y + k)
    have e : y + ((k + 1 : Nat) : Int) = y + k + 1 := by omega
    rw [e]
    omega

theorem year_lt (y z : Int) (h : y < z) : yearDays (y + 1) ≤ yearDays z := by
  have := year_mono_nat (y + 1) (z - (y + 1)).toNat
  have e : y + 1 + ((z - (y + 1)).toNat : Int) = z := by omega
  rw [e] at this
  omega

/-- The year of a day. -/
theorem yearOf_spec (d : Int) : yearDays (yearOf d) ≤ d ∧ d < yearDays (yearOf d + 1) := by
  obtain ⟨h1, h2⟩ := year_estimate d
  unfold yearOf
  generalize 400 * d / 146097 + 1970 = y at *
  dsimp only
  split
  · rename_i h
    rw [show y - 1 + 1 = y by omega]
    exact ⟨h1, h⟩
  split
  · rename_i h
    rw [show y + 1 + 1 = y + 2 by omega]
    exact ⟨h, h2⟩
  · rename_i h3 h4
    exact ⟨by omega, by omega⟩

theorem yearOf_unique (d y : Int) (h1 : yearDays y ≤ d) (h2 : d < yearDays (y + 1)) : yearOf d = y := by
  obtain ⟨a, b⟩ := yearOf_spec d
  rcases Int.lt_trichotomy (yearOf d) y with h | h | h
  · have := year_lt _ _ h; omega
  · exact h
  · have := year_lt _ _ h; omega

/-! ## Months -/

theorem monthDays_values (l : Bool) :
    monthDays l 0 = 0 ∧ monthDays l 1 = 31 ∧ monthDays l 2 = 59 + l.toNat ∧ monthDays l 3 = 90 + l.toNat ∧ monthDays l 4 = 120 + l.toNat ∧
    monthDays l 5 = 151 + l.toNat ∧ monthDays l 6 = 181 + l.toNat ∧ monthDays l 7 = 212 + l.toNat ∧ monthDays l 8 = 243 + l.toNat ∧
    monthDays l 9 = 273 + l.toNat ∧ monthDays l 10 = 304 + l.toNat ∧ monthDays l 11 = 334 + l.toNat := by
  cases l <;> decide

/-- Days of month `m` (from 0). -/
def monthLength (l : Bool) (m : Int) : Int :=
  if m = 1 then 28 + l.toNat else if m = 3 ∨ m = 5 ∨ m = 8 ∨ m = 10 then 30 else 31

theorem monthLength_eq (y m : Int) : length y (m + 1) = monthLength (leap y) m := by
  have h := leap_iff y
  unfold length monthLength
  by_cases h1 : m = 1
  · rw [if_pos (by omega), if_pos h1]
    cases hl : leap y with
    | true => rw [if_pos (h.mp hl)]; rfl
    | false => rw [if_neg (fun c => by rw [h.mpr c] at hl; cases hl)]; rfl
  · rw [if_neg (by omega), if_neg h1]
    by_cases h2 : m = 3 ∨ m = 5 ∨ m = 8 ∨ m = 10
    · rw [if_pos (by omega), if_pos h2]
    · rw [if_neg (by omega), if_neg h2]

theorem month_cases (m : Int) (h0 : 0 ≤ m) (h1 : m ≤ 11) :
    m = 0 ∨ m = 1 ∨ m = 2 ∨ m = 3 ∨ m = 4 ∨ m = 5 ∨ m = 6 ∨ m = 7 ∨ m = 8 ∨ m = 9 ∨ m = 10 ∨ m = 11 := by omega

theorem month_next (l : Bool) (m : Int) (h0 : 0 ≤ m) (h1 : m ≤ 10) : monthDays l (m + 1) = monthDays l m + monthLength l m := by
  rcases month_cases m h0 (by omega) with rfl | rfl | rfl | rfl | rfl | rfl | rfl | rfl | rfl | rfl | rfl | rfl
  all_goals first | omega | (cases l <;> decide)

theorem month_end (l : Bool) : monthDays l 11 + monthLength l 11 = 365 + l.toNat := by cases l <;> decide

/-- The chain with its numbers. -/
def monthChain (k d : Int) : Int :=
  if d < 31 then 0 else if d < 59 + k then 1 else if d < 90 + k then 2 else if d < 120 + k then 3 else if d < 151 + k then 4
  else if d < 181 + k then 5 else if d < 212 + k then 6 else if d < 243 + k then 7 else if d < 273 + k then 8 else if d < 304 + k then 9
  else if d < 334 + k then 10 else 11

theorem monthOf_chain (l : Bool) (d : Int) : monthOf l d = monthChain l.toNat d := by
  obtain ⟨v0, v1, v2, v3, v4, v5, v6, v7, v8, v9, v10, v11⟩ := monthDays_values l
  unfold monthOf monthChain
  rw [v1, v2, v3, v4, v5, v6, v7, v8, v9, v10, v11]

/-- Where the months begin and end. -/
theorem month_range (l : Bool) (m : Int) (h0 : 0 ≤ m) (h1 : m ≤ 11) :
    (m = 0 ∧ monthDays l m = 0 ∧ monthLength l m = 31) ∨ (m = 1 ∧ monthDays l m = 31 ∧ monthLength l m = 28 + l.toNat) ∨
    (m = 2 ∧ monthDays l m = 59 + l.toNat ∧ monthLength l m = 31) ∨ (m = 3 ∧ monthDays l m = 90 + l.toNat ∧ monthLength l m = 30) ∨
    (m = 4 ∧ monthDays l m = 120 + l.toNat ∧ monthLength l m = 31) ∨ (m = 5 ∧ monthDays l m = 151 + l.toNat ∧ monthLength l m = 30) ∨
    (m = 6 ∧ monthDays l m = 181 + l.toNat ∧ monthLength l m = 31) ∨ (m = 7 ∧ monthDays l m = 212 + l.toNat ∧ monthLength l m = 31) ∨
    (m = 8 ∧ monthDays l m = 243 + l.toNat ∧ monthLength l m = 30) ∨ (m = 9 ∧ monthDays l m = 273 + l.toNat ∧ monthLength l m = 31) ∨
    (m = 10 ∧ monthDays l m = 304 + l.toNat ∧ monthLength l m = 30) ∨ (m = 11 ∧ monthDays l m = 334 + l.toNat ∧ monthLength l m = 31) := by
  rcases month_cases m h0 h1 with rfl | rfl | rfl | rfl | rfl | rfl | rfl | rfl | rfl | rfl | rfl | rfl <;> cases l <;> decide

theorem chain_range (k d : Int) (_h0 : 0 ≤ d) (h1 : d < 365 + k) :
    (monthChain k d = 0 ∧ d < 31) ∨ (monthChain k d = 1 ∧ 31 ≤ d ∧ d < 59 + k) ∨ (monthChain k d = 2 ∧ 59 + k ≤ d ∧ d < 90 + k) ∨
    (monthChain k d = 3 ∧ 90 + k ≤ d ∧ d < 120 + k) ∨ (monthChain k d = 4 ∧ 120 + k ≤ d ∧ d < 151 + k) ∨
    (monthChain k d = 5 ∧ 151 + k ≤ d ∧ d < 181 + k) ∨ (monthChain k d = 6 ∧ 181 + k ≤ d ∧ d < 212 + k) ∨
    (monthChain k d = 7 ∧ 212 + k ≤ d ∧ d < 243 + k) ∨ (monthChain k d = 8 ∧ 243 + k ≤ d ∧ d < 273 + k) ∨
    (monthChain k d = 9 ∧ 273 + k ≤ d ∧ d < 304 + k) ∨ (monthChain k d = 10 ∧ 304 + k ≤ d ∧ d < 334 + k) ∨
    (monthChain k d = 11 ∧ 334 + k ≤ d ∧ d < 365 + k) := by
  unfold monthChain
  by_cases c0 : d < 31
  · rw [if_pos c0]; exact .inl ⟨rfl, c0⟩
  rw [if_neg c0]
  by_cases c1 : d < 59 + k
  · rw [if_pos c1]; exact .inr (.inl ⟨rfl, by omega, c1⟩)
  rw [if_neg c1]
  by_cases c2 : d < 90 + k
  · rw [if_pos c2]; exact .inr (.inr (.inl ⟨rfl, by omega, c2⟩))
  rw [if_neg c2]
  by_cases c3 : d < 120 + k
  · rw [if_pos c3]; exact .inr (.inr (.inr (.inl ⟨rfl, by omega, c3⟩)))
  rw [if_neg c3]
  by_cases c4 : d < 151 + k
  · rw [if_pos c4]; exact .inr (.inr (.inr (.inr (.inl ⟨rfl, by omega, c4⟩))))
  rw [if_neg c4]
  by_cases c5 : d < 181 + k
  · rw [if_pos c5]; exact .inr (.inr (.inr (.inr (.inr (.inl ⟨rfl, by omega, c5⟩)))))
  rw [if_neg c5]
  by_cases c6 : d < 212 + k
  · rw [if_pos c6]; exact .inr (.inr (.inr (.inr (.inr (.inr (.inl ⟨rfl, by omega, c6⟩))))))
  rw [if_neg c6]
  by_cases c7 : d < 243 + k
  · rw [if_pos c7]; exact .inr (.inr (.inr (.inr (.inr (.inr (.inr (.inl ⟨rfl, by omega, c7⟩)))))))
  rw [if_neg c7]
  by_cases c8 : d < 273 + k
  · rw [if_pos c8]; exact .inr (.inr (.inr (.inr (.inr (.inr (.inr (.inr (.inl ⟨rfl, by omega, c8⟩))))))))
  rw [if_neg c8]
  by_cases c9 : d < 304 + k
  · rw [if_pos c9]; exact .inr (.inr (.inr (.inr (.inr (.inr (.inr (.inr (.inr (.inl ⟨rfl, by omega, c9⟩)))))))))
  rw [if_neg c9]
  by_cases c10 : d < 334 + k
  · rw [if_pos c10]; exact .inr (.inr (.inr (.inr (.inr (.inr (.inr (.inr (.inr (.inr (.inl ⟨rfl, by omega, c10⟩))))))))))
  rw [if_neg c10]
  exact .inr (.inr (.inr (.inr (.inr (.inr (.inr (.inr (.inr (.inr (.inr (⟨rfl, by omega, h1⟩)))))))))))

theorem toNat_bit (l : Bool) : (l.toNat : Int) = 0 ∨ (l.toNat : Int) = 1 := by cases l <;> decide

theorem monthOf_spec (l : Bool) (d : Int) (h0 : 0 ≤ d) (h1 : d < 365 + l.toNat) :
    0 ≤ monthOf l d ∧ monthOf l d ≤ 11 ∧ monthDays l (monthOf l d) ≤ d ∧ d < monthDays l (monthOf l d) + monthLength l (monthOf l d) := by
  rw [monthOf_chain]
  have hc := chain_range l.toNat d h0 h1
  generalize monthChain l.toNat d = m at *
  have hm : 0 ≤ m ∧ m ≤ 11 := by omega
  have hr := month_range l m hm.1 hm.2
  generalize monthDays l m = a at *
  generalize monthLength l m = b at *
  generalize (l.toNat : Int) = k at *
  refine ⟨hm.1, hm.2, ?_⟩
  rcases hr with h | h | h | h | h | h | h | h | h | h | h | h <;> omega

theorem monthOf_unique (l : Bool) (d m : Int) (h0 : 0 ≤ m) (h1 : m ≤ 11) (h2 : monthDays l m ≤ d) (h3 : d < monthDays l m + monthLength l m) :
    monthOf l d = m := by
  rw [monthOf_chain]
  have hr := month_range l m h0 h1
  have hk := toNat_bit l
  generalize monthDays l m = a at *
  generalize monthLength l m = b at *
  generalize (l.toNat : Int) = k at *
  have hd : 0 ≤ d ∧ d < 365 + k := by
    rcases hr with h | h | h | h | h | h | h | h | h | h | h | h <;> omega
  have hc := chain_range k d hd.1 hd.2
  generalize monthChain k d = n at *
  rcases hr with h | h | h | h | h | h | h | h | h | h | h | h <;> omega

/-! ## There and back -/

theorem mktime_valid (t : Stamp) (h1 : 1 ≤ t.month) (h12 : t.month ≤ 12) :
    mktime t = (yearDays t.year + monthDays (leap t.year) (t.month - 1) + (t.day - 1)) * 86400 + t.hour * 3600 + t.min * 60 + t.sec := by
  unfold mktime
  have e1 : (12 * t.year + (t.month - 1)) / 12 = t.year := by omega
  have e2 : (12 * t.year + (t.month - 1)) % 12 = t.month - 1 := by omega
  dsimp only
  rw [e1, e2]

theorem days_bound (t : Stamp) (h : Valid t) : 0 ≤ monthDays (leap t.year) (t.month - 1) + (t.day - 1) ∧
    monthDays (leap t.year) (t.month - 1) + (t.day - 1) < 365 + (leap t.year).toNat ∧
    monthDays (leap t.year) (t.month - 1) ≤ monthDays (leap t.year) (t.month - 1) + (t.day - 1) ∧
    t.day ≤ monthLength (leap t.year) (t.month - 1) := by
  obtain ⟨m1, m2, d1, d2, _⟩ := h
  have e := monthLength_eq t.year (t.month - 1)
  rw [show t.month - 1 + 1 = t.month by omega] at e
  rw [e] at d2
  generalize leap t.year = l at *
  have hl : 0 ≤ monthDays l (t.month - 1) ∧ monthDays l (t.month - 1) + monthLength l (t.month - 1) ≤ 365 + l.toNat := by
    have hr := month_range l (t.month - 1) (by omega) (by omega)
    have hk := toNat_bit l
    generalize monthDays l (t.month - 1) = a at *
    generalize monthLength l (t.month - 1) = b at *
    generalize (l.toNat : Int) = k at *
    clear e
    rcases hr with h | h | h | h | h | h | h | h | h | h | h | h <;> omega
  omega

/-- What is set is what is shown. -/
theorem localtime_mktime (t : Stamp) (h : Valid t) : localtime (mktime t) = t := by
  have hb := days_bound t h
  obtain ⟨m1, m2, d1, d2, h1, h2, i1, i2, s1, s2⟩ := h
  rw [mktime_valid t m1 m2]
  obtain ⟨b0, b1, b2, b3⟩ := hb
  have hy := yearDays_succ t.year
  have hk : ((leap t.year).toNat : Int) = if leap t.year = true then 1 else 0 := by cases leap t.year <;> rfl
  rw [hk] at b1
  generalize hd : yearDays t.year + monthDays (leap t.year) (t.month - 1) + (t.day - 1) = d at *
  have e1 : (d * 86400 + t.hour * 3600 + t.min * 60 + t.sec) / 86400 = d := by omega
  have e2 : (d * 86400 + t.hour * 3600 + t.min * 60 + t.sec) % 86400 / 3600 = t.hour := by omega
  have e3 : (d * 86400 + t.hour * 3600 + t.min * 60 + t.sec) % 3600 / 60 = t.min := by omega
  have e4 : (d * 86400 + t.hour * 3600 + t.min * 60 + t.sec) % 60 = t.sec := by omega
  have ey : yearOf d = t.year := yearOf_unique d t.year (by omega) (by omega)
  have em : monthOf (leap t.year) (d - yearDays t.year) = t.month - 1 := monthOf_unique _ _ _ (by omega) (by omega) (by omega) (by omega)
  unfold localtime
  dsimp only
  rw [e1, e2, e3, e4, ey, em]
  obtain ⟨y, m, dd, hh, mi, s⟩ := t
  dsimp only at *
  congr 1 <;> omega

/-- What is shown is a date, and the one that was set. -/
theorem localtime_valid (n : Int) : Valid (localtime n) ∧ mktime (localtime n) = n := by
  obtain ⟨y1, y2⟩ := yearOf_spec (n / 86400)
  have hy := yearDays_succ (yearOf (n / 86400))
  have hk : ((leap (yearOf (n / 86400))).toNat : Int) = if leap (yearOf (n / 86400)) = true then 1 else 0 := by cases leap (yearOf (n / 86400)) <;> rfl
  obtain ⟨m1, m2, m3, m4⟩ := monthOf_spec (leap (yearOf (n / 86400))) (n / 86400 - yearDays (yearOf (n / 86400))) (by omega) (by omega)
  have e := monthLength_eq (yearOf (n / 86400)) (monthOf (leap (yearOf (n / 86400))) (n / 86400 - yearDays (yearOf (n / 86400))))
  constructor
  · unfold Valid localtime
    dsimp only
    rw [e]
    omega
  · rw [mktime_valid _ (by unfold localtime; dsimp only; omega) (by unfold localtime; dsimp only; omega)]
    unfold localtime
    dsimp only
    generalize yearOf (n / 86400) = y at *
    generalize hm : monthOf (leap y) (n / 86400 - yearDays y) = m at *
    rw [show m + 1 - 1 = m by omega]
    omega

theorem length_pos (y m : Int) : 28 ≤ length y m := by
  unfold length
  repeat' split
  all_goals omega

theorem nextDay_valid (t : Stamp) (h : Valid t) : Valid (nextDay t) ∧ mktime (nextDay t) = mktime t + 86400 := by
  have hv := h
  obtain ⟨m1, m2, d1, d2, h1, h2, i1, i2, s1, s2⟩ := h
  have e := monthLength_eq t.year (t.month - 1)
  rw [show t.month - 1 + 1 = t.month by omega] at e
  unfold nextDay
  by_cases c1 : t.day < length t.year t.month
  · rw [if_pos c1]
    refine ⟨by unfold Valid; dsimp only; omega, ?_⟩
    have e1 := mktime_valid t m1 m2
    rw [e1, mktime_valid { t with day := t.day + 1 } m1 m2]
    dsimp only
    omega
  rw [if_neg c1]
  by_cases c2 : t.month < 12
  · rw [if_pos c2]
    refine ⟨?_, ?_⟩
    · have := length_pos t.year (t.month + 1)
      unfold Valid; dsimp only; omega
    · rw [mktime_valid t m1 m2, mktime_valid _ (by dsimp only; omega) (by dsimp only; omega)]
      dsimp only
      have hn := month_next (leap t.year) (t.month - 1) (by omega) (by omega)
      rw [show t.month - 1 + 1 = t.month by omega] at hn
      rw [show t.month + 1 - 1 = t.month by omega]
      omega
  · rw [if_neg c2]
    have c3 : t.month = 12 := by omega
    refine ⟨?_, ?_⟩
    · have := length_pos (t.year + 1) 1
      unfold Valid; dsimp only; omega
    · rw [mktime_valid t m1 m2, mktime_valid _ (by dsimp only; omega) (by dsimp only; omega)]
      dsimp only
      have hy := yearDays_succ t.year
      have he := month_end (leap t.year)
      have hk : ((leap t.year).toNat : Int) = if leap t.year = true then 1 else 0 := by cases leap t.year <;> rfl
      rw [c3] at e c1 d2 ⊢
      have z : monthDays (leap (t.year + 1)) (1 - 1) = 0 := (monthDays_values _).1
      rw [z]
      rw [show (12 : Int) - 1 = 11 by omega] at *
      omega

theorem next_valid (t : Stamp) (h : Valid t) : Valid (next t) ∧ mktime (next t) = mktime t + 1 := by
  have hv := h
  have hd := nextDay_valid t h
  obtain ⟨m1, m2, d1, d2, h1, h2, i1, i2, s1, s2⟩ := h
  unfold next
  by_cases c1 : t.sec < 59
  · rw [if_pos c1]
    refine ⟨by unfold Valid; dsimp only; omega, ?_⟩
    have e1 := mktime_valid t m1 m2
    rw [e1, mktime_valid { t with sec := t.sec + 1 } m1 m2]
    dsimp only
    omega
  rw [if_neg c1]
  by_cases c2 : t.min < 59
  · rw [if_pos c2]
    refine ⟨by unfold Valid; dsimp only; omega, ?_⟩
    have e1 := mktime_valid t m1 m2
    rw [e1, mktime_valid { t with min := t.min + 1, sec := 0 } m1 m2]
    dsimp only
    omega
  rw [if_neg c2]
  by_cases c3 : t.hour < 23
  · rw [if_pos c3]
    refine ⟨by unfold Valid; dsimp only; omega, ?_⟩
    have e1 := mktime_valid t m1 m2
    rw [e1, mktime_valid { t with hour := t.hour + 1, min := 0, sec := 0 } m1 m2]
    dsimp only
    omega
  rw [if_neg c3]
  obtain ⟨hw, hm⟩ := hd
  have same : (nextDay t).hour = t.hour ∧ (nextDay t).min = t.min ∧ (nextDay t).sec = t.sec := by
    unfold nextDay
    repeat' split
    all_goals exact ⟨rfl, rfl, rfl⟩
  obtain ⟨a1, a2, a3, a4, a5⟩ := hw
  refine ⟨by unfold Valid; dsimp only; omega, ?_⟩
  rw [mktime_valid (nextDay t) a1 a2, mktime_valid t m1 m2] at hm
  rw [mktime_valid t m1 m2, mktime_valid { nextDay t with hour := 0, min := 0, sec := 0 } a1 a2]
  dsimp only
  omega

/-- A second later. -/
theorem localtime_succ (n : Int) : localtime (n + 1) = next (localtime n) := by
  obtain ⟨hv, hm⟩ := localtime_valid n
  obtain ⟨nv, nm⟩ := next_valid _ hv
  rw [← localtime_mktime _ nv, nm, hm]

/-- The day of the week. -/
theorem weekDay_zeller (n : Int) : weekDay n = zeller (localtime n) := by
  obtain ⟨hv, hm⟩ := localtime_valid n
  generalize localtime n = t at *
  obtain ⟨m1, m2, d1, d2, h1, h2, i1, i2, s1, s2⟩ := hv
  have hl := leap_iff t.year
  have hr := month_range (leap t.year) (t.month - 1) (by omega) (by omega)
  rw [mktime_valid t m1 m2] at hm
  have hd : n / 86400 = yearDays t.year + monthDays (leap t.year) (t.month - 1) + (t.day - 1) := by omega
  unfold weekDay zeller
  rw [hd]
  clear hd hm d2
  have hk : (((leap t.year).toNat : Int) = 1 ∧ ((4 ∣ t.year ∧ ¬ 100 ∣ t.year) ∨ 400 ∣ t.year)) ∨
      (((leap t.year).toNat : Int) = 0 ∧ ¬ ((4 ∣ t.year ∧ ¬ 100 ∣ t.year) ∨ 400 ∣ t.year)) := by
    cases h : leap t.year with
    | true => exact .inl ⟨rfl, hl.mp h⟩
    | false => exact .inr ⟨rfl, fun c => by rw [hl.mpr c] at h; cases h⟩
  unfold yearDays
  generalize monthDays (leap t.year) (t.month - 1) = a at *
  generalize monthLength (leap t.year) (t.month - 1) = b at *
  generalize ((leap t.year).toNat : Int) = k at *
  generalize t.year = y at *
  generalize t.day = d at *
  generalize t.month = m at *
  clear hl
  dsimp only
  by_cases c : m ≤ 2
  · rw [if_pos c, if_pos c]
    rcases hr with h | h | h | h | h | h | h | h | h | h | h | h <;> first | omega | (obtain ⟨h, ha, _⟩ := h; rw [ha, show m = 1 by omega]; omega) | (obtain ⟨h, ha, _⟩ := h; rw [ha, show m = 2 by omega]; omega)
  · rw [if_neg c, if_neg c]
    have hq : (y - 1) / 4 - (y - 1) / 100 + (y - 1) / 400 + k = y / 4 - y / 100 + y / 400 := by omega
    generalize (y - 1) / 4 = q1 at *
    generalize (y - 1) / 100 = q2 at *
    generalize (y - 1) / 400 = q3 at *
    generalize y / 4 = q4 at *
    generalize y / 100 = q5 at *
    generalize y / 400 = q6 at *
    clear hk
    rcases hr with h | h | h | h | h | h | h | h | h | h | h | h <;> omega

end Verif.Calendar
