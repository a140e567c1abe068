import Verif.Probe.Model
import Mathlib.Tactic.Linarith

/-!
# C100: a sensor that works is reported as what it measures, one that fails as failing
-/

namespace Verif.Probe

/-! ## The line -/

theorem bits_length (n w : Nat) : (bits n w).length = n := by
  induction n with
  | zero => rfl
  | succ n ih => show (bits n w).length + 1 = n + 1; rw [ih]

theorem mod_succ (w n : Nat) : w % 2 ^ (n + 1) = (w / 2 ^ n % 2) * 2 ^ n + w % 2 ^ n := by
  rw [Nat.pow_succ, Nat.mod_mul, Nat.mul_comm (2 ^ n), Nat.add_comm]

theorem orBits_bits (n w : Nat) : orBits (bits n w) = w % 2 ^ n := by
  induction n with
  | zero => show 0 = w % 1; omega
  | succ n ih =>
    show (if decide (w / 2 ^ n % 2 = 1) = true then 2 ^ (bits n w).length else 0) + orBits (bits n w) = _
    rw [ih, bits_length, mod_succ]
    by_cases h : w / 2 ^ n % 2 = 1
    · rw [if_pos (by simpa using h), h, Nat.one_mul]
    · rw [if_neg (by simpa using h), show w / 2 ^ n % 2 = 0 by omega, Nat.zero_mul]

theorem shiftIn_bits (n w d : Nat) : (bits n w).foldl (fun d b => (2 * d + if b then 1 else 0) % 2 ^ 32) d % 2 ^ 32 = (d * 2 ^ n + w % 2 ^ n) % 2 ^ 32 := by
  induction n generalizing d with
  | zero => show d % 2 ^ 32 = (d * 1 + w % 1) % 2 ^ 32; omega
  | succ n ih =>
    show (bits n w).foldl _ ((2 * d + if decide (w / 2 ^ n % 2 = 1) = true then 1 else 0) % 2 ^ 32) % 2 ^ 32 = _
    rw [ih]
    have hb : (if decide (w / 2 ^ n % 2 = 1) = true then 1 else 0) = w / 2 ^ n % 2 := by
      by_cases h : w / 2 ^ n % 2 = 1
      · rw [if_pos (by simpa using h), h]
      · rw [if_neg (by simpa using h), show w / 2 ^ n % 2 = 0 by omega]
    rw [hb, mod_succ w n]
    generalize w / 2 ^ n % 2 = c
    generalize w % 2 ^ n = r
    have hm : ∀ x m : Nat, (x % 2 ^ 32 * m + r) % 2 ^ 32 = (x * m + r) % 2 ^ 32 := by
      intro x m
      rw [Nat.add_mod, Nat.mul_mod, Nat.mod_mod, ← Nat.mul_mod, ← Nat.add_mod]
    rw [hm]
    congr 1
    rw [Nat.pow_succ]
    generalize 2 ^ n = m
    rw [Nat.add_mul]
    have : 2 * d * m = d * (m * 2) := by rw [Nat.mul_comm m 2, ← Nat.mul_assoc, Nat.mul_comm d 2]
    omega

theorem foldl_lt (l : List Bool) (d : Nat) (h : d < 2 ^ 32) : l.foldl (fun d b => (2 * d + if b then 1 else 0) % 2 ^ 32) d < 2 ^ 32 := by
  induction l generalizing d with
  | nil => exact h
  | cons b l ih => exact ih _ (Nat.mod_lt _ (by decide))

theorem shiftIn_lt (l : List Bool) : shiftIn l < 2 ^ 32 := foldl_lt l 0 (by decide)

theorem shiftIn_word (w : Nat) (h : w < 2 ^ 32) : shiftIn (bits 32 w) = w := by
  have h1 := shiftIn_bits 32 w 0
  have h2 := shiftIn_lt (bits 32 w)
  unfold shiftIn at h2 ⊢
  rw [Nat.mod_eq_of_lt h2] at h1
  rw [h1]
  omega

theorem shiftIn_twice (w : Nat) (h : w < 2 ^ 16) : shiftIn (bits 16 w ++ bits 16 w) = w * 65536 + w := by
  have h1 := shiftIn_bits 16 w ((bits 16 w).foldl (fun d b => (2 * d + if b then 1 else 0) % 2 ^ 32) 0)
  have h0 := shiftIn_bits 16 w 0
  have h2 := shiftIn_lt (bits 16 w ++ bits 16 w)
  have h3 := shiftIn_lt (bits 16 w)
  unfold shiftIn at h2 h3 ⊢
  rw [List.foldl_append] at h2 ⊢
  rw [Nat.mod_eq_of_lt h2] at h1
  rw [Nat.mod_eq_of_lt h3] at h0
  generalize (bits 16 w).foldl (fun d b => (2 * d + if b then 1 else 0) % 2 ^ 32) 0 = x at *
  have hx : x = w := by omega
  subst hx
  rw [h1]
  omega

/-! ## Thermocouples -/

/-- **C100.** MAX6675: what is reported is what the chip sends, or nothing if the thermocouple is open. -/
theorem k_exact (tc : Nat) (h : tc < 4096) (op : Bool) (last : Nat) (hl : last < 2) :
    maxK (bits 16 (frame6675 tc op last)) = if op then none else some tc := by
  have hw : frame6675 tc op last < 65536 := by unfold frame6675; split <;> omega
  have ht : ∀ w, (bits 16 w).take 8 = bits 8 (w / 2 ^ 8) := by
    intro w
    simp only [bits, List.take, Nat.div_div_eq_div_mul]
    norm_num
  have hd : ∀ w, (bits 16 w).drop 8 = bits 8 w := fun w => rfl
  unfold maxK
  rw [ht, hd, orBits_bits, orBits_bits]
  have hv : (frame6675 tc op last / 2 ^ 8 % 2 ^ 8 * 2 ^ 8 + frame6675 tc op last % 2 ^ 8) % 2 ^ 16 = frame6675 tc op last := by omega
  dsimp only
  rw [hv]
  cases op with
  | true =>
    rw [if_pos (show frame6675 tc true last / 4 % 2 = 1 by unfold frame6675; simp only [if_true]; omega)]
    rfl
  | false =>
    rw [if_neg (show ¬ frame6675 tc false last / 4 % 2 = 1 by unfold frame6675; simp; omega)]
    show some (frame6675 tc false last / 2 ^ 3) = some tc
    congr 1
    unfold frame6675
    simp
    omega

/-- The full claim for a chip that is not there: nothing is reported, whether its line rests low or high. -/
def AbsentK : Prop := maxK (List.replicate 16 false) = none ∧ maxK (List.replicate 16 true) = none

/-- **Finding.** A MAX6675 that is not there, its line resting low, is reported as 0 degrees. -/
theorem absent_violation : ¬ AbsentK := by
  unfold AbsentK
  decide

/-- The other driver does see that. -/
theorem absent_both : maxBoth (List.replicate 32 false) = none ∧ maxBoth (List.replicate 32 true) = none := by decide +kernel

/-- The full claim for both chips: what is reported is what the chip measures, or nothing if it tells a fault. -/
def BothExact : Prop :=
  (∀ tc chip fault, -8192 ≤ tc → tc < 8192 → -2048 ≤ chip → chip < 2048 → fault < 8 →
    maxBoth (bits 32 (frame31855 tc chip fault)) = if fault = 0 then some tc else none) ∧
  (∀ tc op last, tc < 4096 → last < 2 → maxBoth (bits 16 (frame6675 tc op last) ++ bits 16 (frame6675 tc op last)) = if op then none else some (tc : Int))

theorem frame31855_lt (tc chip : Int) (fault : Nat) (hf : fault < 8) : frame31855 tc chip fault < 2 ^ 32 := by
  unfold frame31855
  split <;> omega

/-- The thermocouple is 16 times as warm as the chip: `tc / 4 = 16 * (chip / 16)`. -/
def Sixteenfold (tc chip : Int) : Prop := 0 ≤ tc ∧ tc = 4 * chip

/-- **C100.** MAX31855: unless the thermocouple is 16 times as warm as the chip, what is reported is what the chip
measures, or nothing in case of a fault. -/
theorem both_31855_partial (tc chip : Int) (fault : Nat) (h1 : -8192 ≤ tc) (h2 : tc < 8192) (h3 : -2048 ≤ chip) (h4 : chip < 2048) (hf : fault < 8)
    (hs : ¬ Sixteenfold tc chip ∨ (fault ≠ 0 ∧ fault ≠ 1)) :
    maxBoth (bits 32 (frame31855 tc chip fault)) = if fault = 0 then some tc else none := by
  have hlt := frame31855_lt tc chip fault hf
  unfold maxBoth
  rw [shiftIn_word _ hlt]
  unfold Sixteenfold at hs
  have hw : ((frame31855 tc chip fault : Nat) : Int) = tc % 16384 * 262144 + (if fault = 0 then 0 else 65536) + chip % 4096 * 16 + fault := by
    unfold frame31855
    split <;> omega
  generalize hW : frame31855 tc chip fault = W at *
  generalize hV : (if W < 2 ^ 31 then (W : Int) else (W : Int) - 2 ^ 32) = v
  have hv : v = (if W < 2 ^ 31 then (W : Int) else (W : Int) - 2 ^ 32) := hV.symm
  clear hV hW
  by_cases hz : fault = 0
  · rw [if_pos hz] at hw ⊢
    subst hz
    have hv2 : v = tc * 262144 + chip % 4096 * 16 := by
      split at hv <;> omega
    unfold decode
    have hc0 : 0 ≤ chip % 4096 := by omega
    have hc1 : chip % 4096 < 4096 := by omega
    have hcc : chip % 4096 < 2048 → chip = chip % 4096 := by omega
    generalize chip % 4096 = c at *
    have q1 : v / 65536 = tc * 4 := by omega
    have q2 : v % 65536 = c * 16 := by omega
    have hne : ¬ v / 65536 = v % 65536 := by
      rw [q1, q2]
      intro he
      rcases hs with hs | hs
      · exact hs (by omega)
      · exact hs.1 rfl
    rw [if_neg hne, if_neg (by omega)]
    have e : v / 262144 = tc := by omega
    rw [e]
    split
    · congr 1; omega
    · rfl
  · rw [if_neg hz] at hw ⊢
    unfold decode
    by_cases he : v / 65536 = v % 65536
    · rw [if_pos he]
      have h5 : v / 65536 / 4 % 2 = 1 ∨ v / 65536 ≤ 0 := by
        have hv2 : v = tc * 262144 + 65536 + chip % 4096 * 16 + fault := by
          split at hv <;> omega
        have hc0 : 0 ≤ chip % 4096 := by omega
        have hc1 : chip % 4096 < 4096 := by omega
        have hcc : chip % 4096 < 2048 → chip = chip % 4096 := by omega
        clear hv hw hlt
        generalize chip % 4096 = c at *
        have q1 : v / 65536 = tc * 4 + 1 := by omega
        have q2 : v % 65536 = c * 16 + fault := by omega
        rw [q1] at he ⊢
        rw [q2] at he
        by_contra hc
        rcases hs with hs | hs
        · exact hs (by omega)
        · omega
      rw [if_pos h5]
    · rw [if_neg he, if_pos (by split at hv <;> omega)]

/-- **Finding.** If the thermocouple is 16 times as warm as the chip, half its temperature is reported: its frame looks
like that of the other chip, sent twice. -/
theorem sixteenfold_half (tc chip : Int) (h0 : 0 < tc) (h2 : tc < 8192) (hs : Sixteenfold tc chip) : maxBoth (bits 32 (frame31855 tc chip 0)) = some (tc / 2) := by
  obtain ⟨_, hs⟩ := hs
  have hlt := frame31855_lt tc chip 0 (by decide)
  unfold maxBoth
  rw [shiftIn_word _ hlt]
  have hw : ((frame31855 tc chip 0 : Nat) : Int) = tc % 16384 * 262144 + chip % 4096 * 16 := by
    unfold frame31855
    simp only [if_true]
    omega
  rw [show tc % 16384 = tc by omega, show chip % 4096 = chip by omega] at hw
  generalize frame31855 tc chip 0 = W at *
  rw [if_pos (show W < 2 ^ 31 by omega)]
  generalize (W : Int) = v at *
  have q1 : v / 65536 = tc * 4 := by omega
  have q2 : v % 65536 = chip * 16 := by omega
  unfold decode
  rw [q1, q2, if_pos (by omega), if_neg (by omega)]
  congr 1
  omega

/-- 400 degrees at a chip of 25 degrees are reported as 200 degrees; so is a fault. -/
theorem sixteenfold_violation : ¬ BothExact := by
  intro h
  have h1 := h.1 1600 400 0 (by decide) (by decide) (by decide) (by decide) (by decide)
  rw [sixteenfold_half 1600 400 (by decide) (by decide) ⟨by decide, by decide⟩] at h1
  exact absurd h1 (by decide)

example : maxBoth (bits 32 (frame31855 1600 400 1)) = some 800 := by decide +kernel
example : maxBoth (bits 32 (frame31855 1600 401 0)) = some 1600 := by decide +kernel
example : maxBoth (bits 32 (frame31855 (-100) 401 0)) = some (-100) := by decide +kernel

/-- **C100.** MAX6675 at the driver for both chips: everything but 0 degrees. -/
theorem both_6675_partial (tc : Nat) (h : tc < 4096) (op : Bool) (last : Nat) (hl : last < 2) (h0 : tc ≠ 0 ∨ last ≠ 0) :
    maxBoth (bits 16 (frame6675 tc op last) ++ bits 16 (frame6675 tc op last)) = if op then none else some (tc : Int) := by
  have hw : frame6675 tc op last < 32768 := by unfold frame6675; split <;> omega
  unfold maxBoth
  rw [shiftIn_twice _ (by omega)]
  rw [if_pos (by omega)]
  have hv : ((frame6675 tc op last : Nat) : Int) = tc * 8 + (if op then 4 else 0) + last := by
    unfold frame6675; split <;> omega
  have hc : ((frame6675 tc op last * 65536 + frame6675 tc op last : Nat) : Int) = (frame6675 tc op last : Int) * 65536 + (frame6675 tc op last : Int) := by omega
  rw [hc]
  have hb : ((frame6675 tc op last : Nat) : Int) < 32768 := by omega
  have hp : 0 ≤ ((frame6675 tc op last : Nat) : Int) := by omega
  generalize ((frame6675 tc op last : Nat) : Int) = w at *
  unfold decode
  have e1 : (w * 65536 + w) / 65536 = w := by omega
  rw [e1, if_pos (by omega)]
  cases op with
  | true =>
    rw [if_pos (by simp only [if_true] at hv; left; omega)]
    rfl
  | false =>
    simp only [Bool.false_eq_true, if_false] at hv ⊢
    rw [if_neg (by omega)]
    congr 1
    omega

/-- **Finding.** A thermocouple of 0 degrees is reported as not available. -/
theorem zero_violation : ¬ BothExact := by
  intro h
  have h1 := h.2 0 false 0 (by decide) (by decide)
  exact absurd h1 (by decide +kernel)

/-! ## Failed attempts -/

theorem held_cons_some {α : Type} (v : α) (rs : List (Option α)) : held (some v :: rs) = some v := rfl

/-- The number of failed attempts since the last reading, or since the beginning. -/
def fails {α : Type} : List (Option α) → Nat
  | [] => 0
  | none :: rs => fails rs + 1
  | some _ :: _ => 0

theorem held_none {α : Type} (rs : List (Option α)) (h : 3 ≤ fails rs) : held (none :: rs) = none := by
  match rs, h with
  | none :: none :: none :: rs, _ => rfl
  | [], h => simp [fails] at h
  | some _ :: _, h => simp [fails] at h
  | [none], h => simp [fails] at h
  | none :: some _ :: _, h => simp [fails] at h
  | [none, none], h => simp [fails] at h
  | none :: none :: some _ :: _, h => simp [fails] at h

theorem held_keep {α : Type} (rs : List (Option α)) (h : fails rs < 3) : held (none :: rs) = held rs := by
  match rs, h with
  | [], _ => rfl
  | some _ :: _, _ => rfl
  | [none], _ => rfl
  | none :: some _ :: _, _ => rfl
  | [none, none], _ => rfl
  | none :: none :: some _ :: _, _ => rfl
  | none :: none :: none :: rs, h =>
    have : fails (none :: none :: none :: rs) = fails rs + 3 := rfl
    omega

theorem held_all_failed {α : Type} (rs : List (Option α)) (h : 4 ≤ fails rs) : held rs = none := by
  match rs, h with
  | none :: rs, h => exact held_none rs (by have : fails (none :: rs) = fails rs + 1 := rfl; omega)
  | [], h => simp [fails] at h
  | some _ :: _, h => simp [fails] at h

/-- A driver that counts failed attempts up to 3, in whatever way. -/
theorem held_of {α : Type} (f : Hold α → Option α → Hold α) (hs : ∀ s v, f s (some v) = ⟨0, some v⟩)
    (hn : ∀ s, s.retry < 3 → f s none = ⟨s.retry + 1, s.last⟩) (h3 : ∀ s, s.retry = 3 → (f s none).last = none ∧ ((f s none).retry = 0 ∨ (f s none).retry = 3))
    (rs : List (Option α)) :
    (runs f rs).last = held rs ∧ (((runs f rs).retry = fails rs ∧ fails rs ≤ 3) ∨ (4 ≤ fails rs ∧ (runs f rs).last = none ∧ (runs f rs).retry ≤ 3)) := by
  induction rs with
  | nil => exact ⟨rfl, Or.inl ⟨rfl, Nat.zero_le _⟩⟩
  | cons r rs ih =>
    obtain ⟨i1, i2⟩ := ih
    cases r with
    | some v =>
      have e : runs f (some v :: rs) = ⟨0, some v⟩ := hs _ v
      rw [e]
      exact ⟨rfl, Or.inl ⟨rfl, Nat.zero_le _⟩⟩
    | none =>
      have e : runs f (none :: rs) = f (runs f rs) none := rfl
      have ef : fails (none :: rs) = fails rs + 1 := rfl
      rw [e]
      rcases i2 with ⟨j1, j2⟩ | ⟨j1, j2, j3⟩
      · by_cases hlt : fails rs < 3
        · rw [hn _ (by omega)]
          refine ⟨?_, Or.inl ⟨?_, by omega⟩⟩
          · rw [held_keep rs hlt]; exact i1
          · show (runs f rs).retry + 1 = _; omega
        · obtain ⟨k1, k2⟩ := h3 (runs f rs) (by omega)
          refine ⟨by rw [k1, held_none rs (by omega)], Or.inr ⟨by omega, k1, by omega⟩⟩
      · rw [held_none rs (by omega)]
        by_cases hlt : (runs f rs).retry < 3
        · rw [hn _ hlt]
          exact ⟨j2, Or.inr ⟨by omega, j2, by show (runs f rs).retry + 1 ≤ 3; omega⟩⟩
        · obtain ⟨k1, k2⟩ := h3 (runs f rs) (by omega)
          exact ⟨k1, Or.inr ⟨by omega, k1, by omega⟩⟩

/-- **C100.** DS18B20 and DHT: what is reported is the newest reading of the last four attempts, or nothing. -/
theorem take_held {α : Type} (rs : List (Option α)) : (runs Hold.take rs).last = held rs :=
  (held_of Hold.take (fun _ _ => rfl) (fun s h => if_neg (by omega)) (fun s h => by
    have : Hold.take s none = ⟨0, none⟩ := if_pos (by omega)
    rw [this]; exact ⟨rfl, Or.inl rfl⟩) rs).1

/-- **C100.** SHT3x and the Sonoff Si7021. -/
theorem keep_held {α : Type} (rs : List (Option α)) : (runs Hold.keep rs).last = held rs :=
  (held_of Hold.keep (fun _ _ => rfl) (fun s h => if_neg (by show ¬ s.retry + 1 > 3; omega)) (fun s h => by
    have : Hold.keep s none = ⟨0, none⟩ := if_pos (by show s.retry + 1 > 3; omega)
    rw [this]; exact ⟨rfl, Or.inl rfl⟩) rs).1

/-- **C100.** BH1750. -/
theorem light_held {α : Type} (rs : List (Option α)) : (runs Hold.light rs).last = held rs :=
  (held_of Hold.light (fun _ _ => rfl) (fun s h => if_pos (by omega)) (fun s h => by
    have : Hold.light s none = ⟨0, none⟩ := if_neg (by omega)
    rw [this]; exact ⟨rfl, Or.inl rfl⟩) rs).1

/-- **C100.** MAX44009. -/
theorem lux_held {α : Type} (rs : List (Option α)) : (runs Hold.lux rs).last = held rs :=
  (held_of Hold.lux (fun _ _ => rfl) (fun s h => if_pos h) (fun s h => by
    have : Hold.lux s none = ⟨s.retry, none⟩ := if_neg (by omega)
    rw [this]; exact ⟨rfl, Or.inr h⟩) rs).1

/-- So a sensor that has failed four times is reported as failing. -/
theorem failing_reported {α : Type} (rs : List (Option α)) (h : ∀ r ∈ rs.take 4, r = none) : (runs Hold.take rs).last = none ∧ (runs Hold.keep rs).last = none := by
  have : held rs = none := by
    unfold held
    rw [show (rs.take 4).filterMap id = [] from List.filterMap_eq_nil_iff.mpr (fun a ha => h a ha)]
    rfl
  rw [take_held, keep_held]
  exact ⟨this, this⟩

example : (runs Hold.take [none, none, none, some 5, some 4]).last = some 5 := rfl
example : (runs Hold.take [none, none, none, none, some 5]).last = none := rfl

/-- The full claim: a temperature that is measured is reported. -/
def DallasReports : Prop := ∀ t rs, -55 * 16 ≤ t → t ≤ 125 * 16 → (runs Hold.take (dallas t :: rs)).last = some t

theorem dallas_partial (t : Int) (rs : List (Option Int)) (h0 : -55 * 16 ≤ t) (h : t ≠ 85 * 16) : (runs Hold.take (dallas t :: rs)).last = some t := by
  rw [take_held]
  unfold dallas
  rw [if_neg (by omega)]
  rfl

/-- **Finding.** A DS18B20 that measures 85.0 degrees is not reported as such. -/
theorem dallas_violation : ¬ DallasReports := by
  intro h
  exact absurd (h 1360 [] (by decide) (by decide)) (by decide)

/-- The full claim: a light level that is measured is reported. -/
def LightReports : Prop := ∀ v, 0 ≤ v → ∀ rs, (runs Hold.light (bright (some v) :: rs)).last = some v ∧ (runs Hold.lux (bright (some v) :: rs)).last = some v

theorem light_partial (v : Int) (hv : 0 < v) (rs : List (Option Int)) : (runs Hold.light (bright (some v) :: rs)).last = some v ∧ (runs Hold.lux (bright (some v) :: rs)).last = some v := by
  rw [light_held, lux_held]
  have : bright (some v) = some v := if_neg (by omega)
  rw [this]
  exact ⟨rfl, rfl⟩

/-- **Finding.** Darkness is reported as a failure of the light sensor: after the fourth reading of 0. -/
theorem dark_violation : ¬ LightReports := by
  intro h
  exact absurd (h 0 (by decide) []).1 (by decide)

theorem dark (n : Nat) (rs : List (Option Int)) : (runs Hold.light (List.replicate (n + 4) (bright (some 0)) ++ rs)).last = none := by
  rw [light_held]
  rfl

/-! ## Sonoff Si7021 -/

theorem si_five (n a b c d e : Nat) : siDecode n [a, b, c, d, e] = if n < 40 ∨ e ≠ (a + b + c + d) % 256 then none
    else some ((if c / 128 % 2 = 1 then -1 else 1) * ((c % 128 * 256 + d : Nat) : Int), a * 256 + b) := rfl

/-- **C100.** A frame of the sensor is decoded to what it measures. -/
theorem si_exact (humi : Nat) (temp : Int) (hh : humi < 65536) (ht : temp.natAbs < 32768) : siDecode 40 (frameSi humi temp) = some (temp, humi) := by
  unfold frameSi
  dsimp only
  rw [si_five, if_neg (by omega)]
  have e2 : humi / 256 * 256 + humi % 256 = humi := by omega
  rw [e2]
  congr 2
  split <;> split <;> omega

/-- One bit of one octet is turned over. -/
def flip (x k : Nat) : Nat := if x / 2 ^ k % 2 = 1 then x - 2 ^ k else x + 2 ^ k

theorem flip_ne (x k : Nat) (hx : x < 256) (hk : k < 8) : flip x k < 256 ∧ (flip x k + 256 - x) % 256 ≠ 0 := by
  unfold flip
  have : k = 0 ∨ k = 1 ∨ k = 2 ∨ k = 3 ∨ k = 4 ∨ k = 5 ∨ k = 6 ∨ k = 7 := by omega
  rcases this with h | h | h | h | h | h | h | h <;> subst h <;> norm_num <;> split <;> omega

/-- **C100.** A frame of which one bit is wrong is not taken. -/
theorem si_one_bit (a b c d e : Nat) (h : ∀ x ∈ [a, b, c, d, e], x < 256) (hs : siDecode 40 [a, b, c, d, e] ≠ none) (i k : Nat) (hi : i < 5) (hk : k < 8) :
    siDecode 40 ([a, b, c, d, e].modify i (fun x => flip x k)) = none := by
  have ha := h a (by simp)
  have hb := h b (by simp)
  have hc := h c (by simp)
  have hd := h d (by simp)
  have he := h e (by simp)
  have hsum : e = (a + b + c + d) % 256 := by
    by_contra hn
    apply hs
    rw [si_five, if_pos (Or.inr hn)]
  have fa := flip_ne a k ha hk
  have fb := flip_ne b k hb hk
  have fc := flip_ne c k hc hk
  have fd := flip_ne d k hd hk
  have fe := flip_ne e k he hk
  have hi' : i = 0 ∨ i = 1 ∨ i = 2 ∨ i = 3 ∨ i = 4 := by omega
  rcases hi' with h | h | h | h | h <;> subst h
  · show siDecode 40 [flip a k, b, c, d, e] = none
    rw [si_five, if_pos (Or.inr (by omega))]
  · show siDecode 40 [a, flip b k, c, d, e] = none
    rw [si_five, if_pos (Or.inr (by omega))]
  · show siDecode 40 [a, b, flip c k, d, e] = none
    rw [si_five, if_pos (Or.inr (by omega))]
  · show siDecode 40 [a, b, c, flip d k, e] = none
    rw [si_five, if_pos (Or.inr (by omega))]
  · show siDecode 40 [a, b, c, d, flip e k] = none
    rw [si_five, if_pos (Or.inr (by omega))]

/-- A frame that ends early is not taken. -/
theorem si_short (n : Nat) (h : n < 40) (d : List Nat) : siDecode n d = none := by
  unfold siDecode
  dsimp only
  rw [if_pos (Or.inl h)]

example : siDecode 40 (frameSi 456 (-123)) = some (-123, 456) := by decide

/-! ## BME280 and AHT -/

/-- The full claim: a value or "missing", never NaN (whose conversion to an integer is undefined). -/
def BmeNumbers : Prop := ∀ up begin r1 r2, bme up begin r1 r2 ≠ .nan

/-- **C100.** NaN is returned only if the sensor answers to `begin` but its reading is NaN. -/
theorem bme_partial (up begin : Bool) (r1 r2 : Option Rat) (h : begin = false ∨ ((up = true → r1 = none → r2 ≠ none) ∧ (up = false → r1 ≠ none))) :
    bme up begin r1 r2 ≠ .nan := by
  unfold bme
  cases up <;> cases begin <;> cases r1 <;> cases r2 <;> simp [Out.of] at h ⊢

/-- **Finding.** A BME280 that answers but whose readings are NaN is reported as NaN. -/
theorem bme_violation : ¬ BmeNumbers := by
  intro h
  exact absurd (h true true none none) (by simp [bme, Out.of])

/-- A pressure that was read is reported: as it is, or reduced to sea level if an altitude is set. -/
theorem pressure_read (begun begin : Bool) (r1 r2 : Option Rat) (v : Rat) (h : bme begun begin r1 r2 = .value v) :
    pressure none (bme begun begin r1 r2) = .value v ∧ ∀ k, pressure (some k) (bme begun begin r1 r2) = .value (k * v) := by
  rw [h]
  exact ⟨rfl, fun _ => rfl⟩

example : pressure (some 2) (bme true true none (some 500)) = .value 1000 := by decide +kernel

/-- The full claim: a missing pressure is reported as missing. -/
def PressureMissing : Prop := ∀ factor, pressure factor .missing = .missing

theorem pressure_partial : pressure none .missing = .missing := rfl

/-- **Finding.** If an altitude is set, a missing pressure is reported as a number. -/
theorem pressure_violation : ¬ PressureMissing := by
  intro h
  have := h (some 2)
  simp [pressure] at this

/-- A history of an AHT, newest first; the event begins with what is in memory. -/
def ahtRun (m : Option Int) : List (Option Int) → Option Int × Hold Int
  | [] => (m, ⟨0, none⟩)
  | r :: rs => aht (ahtRun m rs) r

/-- The full claim: what is reported is the newest reading of the last four attempts, or nothing. -/
def AhtHeld : Prop := ∀ m rs, (ahtRun m rs).2.last = held rs

/-- With no failing attempt that is so. -/
theorem aht_partial (m : Option Int) (v : Int) (rs : List (Option Int)) : (ahtRun m (some v :: rs)).2.last = some v := rfl

/-- **Finding.** An AHT that fails after it has worked is reported with its last reading for ever. -/
theorem aht_stale (m : Option Int) (v : Int) (rs : List (Option Int)) (n : Nat) : (ahtRun m (List.replicate n none ++ some v :: rs)).2.last = some v := by
  have : (ahtRun m (List.replicate n none ++ some v :: rs)).1 = some v ∧ (ahtRun m (List.replicate n none ++ some v :: rs)).2.last = some v := by
    induction n with
    | zero => exact ⟨rfl, rfl⟩
    | succ n ih =>
      rw [List.replicate_succ, List.cons_append]
      show (aht (ahtRun m (List.replicate n none ++ some v :: rs)) none).1 = some v ∧ (aht (ahtRun m (List.replicate n none ++ some v :: rs)) none).2.last = some v
      unfold aht
      dsimp only
      rw [ih.1]
      exact ⟨rfl, rfl⟩
  exact this.2

theorem aht_violation : ¬ AhtHeld := by
  intro h
  have h1 := h none (List.replicate 4 none ++ [some 200])
  rw [aht_stale none 200 [] 4] at h1
  exact absurd h1 (by decide)

end Verif.Probe
