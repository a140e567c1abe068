import Verif.Tools.Url

/-!
# C41: decimal numbers typed by a user are read as the number they denote

Settings in the configuration page and MQTT commands arrive as decimal text.
-/

namespace Verif.Tools

/-! ## Specification -/

/-- A text of decimal digits. -/
abbrev Digits (s : List Nat) : Prop := ∀ c ∈ s, 48 ≤ c ∧ c ≤ 57

/-- The number a text of decimal digits denotes: every digit counts ten times the following one. -/
def decimal : List Nat → Nat
  | [] => 0
  | c :: s => (c - 48) * 10 ^ s.length + decimal s

/-- The canonical text of a number, from Lean's library. -/
def decimalText (n : Nat) : List Nat := (Nat.toDigits 10 n).map Char.toNat

/-! ## The specification is what it should be -/

theorem decimal_append (a b : List Nat) : decimal (a ++ b) = decimal a * 10 ^ b.length + decimal b := by
  induction a with
  | nil => simp [decimal]
  | cons c a ih =>
    simp only [List.cons_append, decimal, ih, List.length_append, Nat.pow_add, Nat.add_mul, Nat.mul_assoc, Nat.add_assoc]

theorem decimal_lt (s : List Nat) (h : Digits s) : decimal s < 10 ^ s.length := by
  induction s with
  | nil => simp [decimal]
  | cons c s ih =>
    have hc := h c (by simp)
    have := ih (fun x hx => h x (by simp [hx]))
    simp only [decimal, List.length_cons, Nat.pow_succ]
    have h2 : (c - 48) * 10 ^ s.length ≤ 9 * 10 ^ s.length := Nat.mul_le_mul_right _ (by omega)
    omega

theorem digitChar_val (d : Nat) (h : d < 10) : (Nat.digitChar d).toNat = 48 + d := by
  have : d = 0 ∨ d = 1 ∨ d = 2 ∨ d = 3 ∨ d = 4 ∨ d = 5 ∨ d = 6 ∨ d = 7 ∨ d = 8 ∨ d = 9 := by omega
  rcases this with h | h | h | h | h | h | h | h | h | h <;> subst h <;> rfl

/-- The canonical text of a number denotes that number. -/
theorem decimal_text (n : Nat) : decimal (decimalText n) = n ∧ Digits (decimalText n) := by
  induction n using Nat.strongRecOn with
  | ind n ih =>
    by_cases h : n < 10
    · unfold decimalText
      rw [Nat.toDigits_of_lt_base h]
      have := digitChar_val n h
      constructor
      · simp [decimal, this]
      · intro c hc
        simp [this] at hc
        omega
    · obtain ⟨h1, h2⟩ := ih (n / 10) (by omega)
      have he : decimalText n = decimalText (n / 10) ++ [48 + n % 10] := by
        unfold decimalText
        rw [Nat.toDigits_eq_if (by omega), if_neg h, List.map_append]
        simp [digitChar_val (n % 10) (by omega)]
      rw [he, decimal_append, h1]
      constructor
      · simp [decimal]; omega
      · intro c hc
        simp at hc
        rcases hc with hc | hc
        · exact h2 c hc
        · omega

/-! ## Unsigned numbers -/

theorem uintLoop_digits (s : List Nat) (h : Digits s) (r : Nat) (hr : r < 2 ^ 32) :
    uintLoop r s = some ((r * 10 ^ s.length + decimal s) % 2 ^ 32) := by
  induction s generalizing r with
  | nil => simp [uintLoop, decimal, Nat.mod_eq_of_lt hr]
  | cons c s ih =>
    have hc := h c (by simp)
    simp only [uintLoop]
    rw [if_neg (by omega), ih (fun x hx => h x (by simp [hx])) _ (Nat.mod_lt _ (by decide))]
    congr 1
    simp only [decimal, List.length_cons]
    rw [Nat.add_mod, Nat.mul_mod, Nat.mod_mod, ← Nat.mul_mod, ← Nat.add_mod]
    congr 1
    rw [Nat.add_mul, Nat.pow_succ, Nat.mul_assoc, Nat.add_assoc, Nat.mul_comm 10 (10 ^ s.length)]

/-- **C41.** A text of digits is read as the number it denotes, modulo 2^32. -/
theorem uint_digits (s : List Nat) (h : Digits s) : stringToUInt s = decimal s % 2 ^ 32 := by
  unfold stringToUInt
  rw [uintLoop_digits s h 0 (by decide)]; simp

/-- **C41.** The text of every 32-bit number is read as that number. -/
theorem uint_round_trip (n : Nat) (h : n < 2 ^ 32) : stringToUInt (decimalText n) = n := by
  obtain ⟨h1, h2⟩ := decimal_text n
  rw [uint_digits _ h2, h1, Nat.mod_eq_of_lt h]

/-- **C41.** A text with any other character is read as 0. -/
theorem uint_other (s : List Nat) (h : ¬ Digits s) : stringToUInt s = 0 := by
  have : ∀ r, uintLoop r s = none := by
    induction s with
    | nil => exact absurd (fun c hc => by cases hc) h
    | cons c s ih =>
      intro r
      simp only [uintLoop]
      by_cases hc : c < 48 ∨ c > 57
      · rw [if_pos hc]
      · rw [if_neg hc]
        apply ih
        intro hs
        apply h
        intro x hx
        rcases List.mem_cons.mp hx with rfl | hx
        · omega
        · exact hs x hx
  unfold stringToUInt
  rw [this]; rfl

example : stringToUInt [52, 50] = 42 ∧ stringToUInt [45, 49] = 0 ∧ decimalText 4294967295 = [52, 50, 57, 52, 57, 54, 55, 50, 57, 53]
    ∧ stringToUInt [52, 50, 57, 52, 57, 54, 55, 50, 57, 54] = 0 := by decide +kernel

/-! ## Signed numbers -/

theorem intLoop_digits (minus : Bool) (s : List Nat) (h : Digits s) (r : Nat)
    (hr : r * 10 ^ s.length + decimal s < 2 ^ 31) :
    intLoop minus (r : Int) s
      = .val (if minus then -((r * 10 ^ s.length + decimal s : Nat) : Int) else (r * 10 ^ s.length + decimal s : Nat)) := by
  induction s generalizing r with
  | nil => simp [intLoop, decimal]
  | cons c s ih =>
    have hc := h c (by simp)
    have heq : r * 10 ^ (c :: s).length + decimal (c :: s) = (r * 10 + (c - 48)) * 10 ^ s.length + decimal s := by
      simp only [decimal, List.length_cons]
      rw [Nat.add_mul, Nat.pow_succ, Nat.mul_assoc, Nat.add_assoc, Nat.mul_comm 10 (10 ^ s.length)]
    rw [heq] at hr ⊢
    have hpos : 1 ≤ 10 ^ s.length := Nat.one_le_pow _ _ (by omega)
    have hle : (r * 10 + (c - 48)) * 1 ≤ (r * 10 + (c - 48)) * 10 ^ s.length := Nat.mul_le_mul_left _ hpos
    have hlt : r * 10 + (c - 48) < 2 ^ 31 := by omega
    simp only [intLoop]
    rw [if_neg (by omega)]
    have hf : (fits ((r : Int) * 10) && fits ((r : Int) * 10 + ((c - 48 : Nat) : Int))) = true := by
      simp only [fits, Bool.and_eq_true, decide_eq_true_eq]
      omega
    rw [if_pos hf]
    have hcast : (r : Int) * 10 + ((c - 48 : Nat) : Int) = ((r * 10 + (c - 48) : Nat) : Int) := by omega
    rw [hcast]
    exact ih (fun x hx => h x (by simp [hx])) _ hr

/-- **C41.** Digits with an optional minus sign in front are read as the number they denote, if its
magnitude is below 2^31. -/
theorem int_digits (s : List Nat) (h : Digits s) (hb : decimal s < 2 ^ 31) :
    stringToInt s = .val (decimal s) ∧ stringToInt (45 :: s) = .val (-(decimal s : Int)) := by
  have h1 := intLoop_digits false s h 0 (by simpa using hb)
  have h2 := intLoop_digits true s h 0 (by simpa using hb)
  simp at h1 h2
  refine ⟨?_, ?_⟩
  · cases s with
    | nil => rfl
    | cons c s =>
      have := h c (by simp)
      simp only [stringToInt]
      rw [if_neg (by omega)]
      exact h1
  · simp only [stringToInt, if_true]
    exact h2

/-- The full claim: every 32-bit number is read correctly. -/
def IntRoundTrip : Prop :=
  ∀ n : Int, -2 ^ 31 ≤ n → n < 2 ^ 31 →
    stringToInt (if n < 0 then 45 :: decimalText n.natAbs else decimalText n.natAbs) = .val n

/-- It holds except for the smallest number. -/
theorem int_round_trip_partial (n : Int) (h1 : -2 ^ 31 < n) (h2 : n < 2 ^ 31) :
    stringToInt (if n < 0 then 45 :: decimalText n.natAbs else decimalText n.natAbs) = .val n := by
  obtain ⟨h3, h4⟩ := decimal_text n.natAbs
  obtain ⟨h5, h6⟩ := int_digits _ h4 (by omega)
  split
  · rw [h6, h3]; congr 1; omega
  · rw [h5, h3]; congr 1; omega

/-- **Finding.** Reading "-2147483648" overflows. -/
theorem int_round_trip_violation : ¬ IntRoundTrip := by
  intro h
  have := h (-2147483648) (by decide) (by decide)
  revert this; decide +kernel

/-- The full claim: no text is undefined behaviour. -/
def IntSafe : Prop := ∀ s, stringToInt s ≠ .ub

/-- **Finding.** A long number (an MQTT command "2147483648") overflows a signed integer. -/
theorem int_safe_violation : ¬ IntSafe := by
  intro h
  have := h [50, 49, 52, 55, 52, 56, 51, 54, 52, 56]
  revert this; decide +kernel

/-- No text of at most nine characters does. -/
theorem int_safe_partial (s : List Nat) (h : s.length ≤ 9) : stringToInt s ≠ .ub := by
  have key : ∀ (s : List Nat) (minus : Bool) (r : Nat), (r + 1) * 10 ^ s.length ≤ 10 ^ 9 → intLoop minus (r : Int) s ≠ .ub := by
    intro s
    induction s with
    | nil => intro minus r _; simp [intLoop]
    | cons c s ih =>
      intro minus r hr
      simp only [intLoop]
      split
      · simp
      · rename_i hc
        simp only [List.length_cons] at hr
        rw [Nat.pow_succ] at hr
        have hpos : 1 ≤ 10 ^ s.length := Nat.one_le_pow _ _ (by omega)
        have hle : (r + 1) * 10 * 1 ≤ (r + 1) * 10 * 10 ^ s.length := Nat.mul_le_mul_left _ hpos
        have hr' : (r + 1) * 10 * 10 ^ s.length ≤ 10 ^ 9 := by
          rw [Nat.mul_assoc, Nat.mul_comm 10]; exact hr
        have hf : (fits ((r : Int) * 10) && fits ((r : Int) * 10 + ((c - 48 : Nat) : Int))) = true := by
          simp only [fits, Bool.and_eq_true, decide_eq_true_eq]
          omega
        rw [if_pos hf]
        have hcast : (r : Int) * 10 + ((c - 48 : Nat) : Int) = ((r * 10 + (c - 48) : Nat) : Int) := by omega
        rw [hcast]
        apply ih
        refine Nat.le_trans (Nat.mul_le_mul_right _ ?_) hr'
        omega
  cases s with
  | nil => simp [stringToInt]
  | cons c s =>
    simp only [stringToInt]
    split
    · refine key s true 0 ?_
      have : (10 : Nat) ^ s.length ≤ 10 ^ 9 := Nat.pow_le_pow_right (by omega) (by simp at h; omega)
      simpa using this
    · refine key (c :: s) false 0 ?_
      have : (10 : Nat) ^ (c :: s).length ≤ 10 ^ 9 := Nat.pow_le_pow_right (by omega) h
      simpa using this

/-! ## Fixed-point numbers -/

theorem padZeros_eq (n : Nat) (r : Nat) (h : r * 10 ^ n < 2 ^ 31) : padZeros n (r : Int) = .val ((r * 10 ^ n : Nat) : Int) := by
  induction n generalizing r with
  | zero => simp [padZeros]
  | succ n ih =>
    have heq : r * 10 ^ (n + 1) = r * 10 * 10 ^ n := by rw [Nat.pow_succ, Nat.mul_assoc, Nat.mul_comm 10]
    rw [heq] at h ⊢
    have hpos : 1 ≤ 10 ^ n := Nat.one_le_pow _ _ (by omega)
    have hle : r * 10 * 1 ≤ r * 10 * 10 ^ n := Nat.mul_le_mul_left _ hpos
    simp only [padZeros]
    rw [if_pos (by simp only [fits, decide_eq_true_eq]; omega)]
    have := ih (r * 10) h
    rw [show ((r * 10 : Nat) : Int) = (r : Int) * 10 by omega] at this
    exact this

/-- The first `n` decimal places, filled up with zeros. -/
def places (n : Nat) (f : List Nat) : List Nat := (f ++ List.replicate n 48).take n

theorem decimal_zeros (n : Nat) : decimal (List.replicate n 48) = 0 := by
  induction n with
  | zero => rfl
  | succ n ih => simp [List.replicate_succ, decimal, ih]

theorem places_nil (n : Nat) : places n [] = List.replicate n 48 := by simp [places]

theorem places_cons (n c : Nat) (f : List Nat) : places (n + 1) (c :: f) = c :: places n f := by
  simp [places, List.replicate_succ', ← List.append_assoc, List.take_append]

theorem length_places (n : Nat) (f : List Nat) : (places n f).length = n := by
  simp [places]

/-- Taking decimal places is dividing. -/
theorem places_div (i f : List Nat) (h : Digits f) (n : Nat) :
    decimal (i ++ places n f) = decimal (i ++ f) * 10 ^ n / 10 ^ f.length := by
  have h1 : decimal (i ++ f ++ List.replicate n 48) = decimal (i ++ f) * 10 ^ n := by
    rw [decimal_append, decimal_zeros]; simp
  have h2 : i ++ f ++ List.replicate n 48 = (i ++ places n f) ++ (f ++ List.replicate n 48).drop n := by
    unfold places
    rw [List.append_assoc i, List.append_assoc i, List.take_append_drop]
  have h3 : ((f ++ List.replicate n 48).drop n).length = f.length := by simp
  have h4 : decimal ((f ++ List.replicate n 48).drop n) < 10 ^ f.length := by
    rw [← h3]
    apply decimal_lt
    intro c hc
    have := List.mem_of_mem_drop hc
    simp at this
    rcases this with h5 | ⟨_, h5⟩
    · exact h c h5
    · omega
  rw [← h1, h2, decimal_append _ (List.drop _ _), h3]
  have hpos : 0 < 10 ^ f.length := Nat.pow_pos (by omega)
  rw [Nat.mul_comm, Nat.mul_add_div hpos, Nat.div_eq_of_lt h4]
  rfl

/-- The value of the reading so far, `r`, with further digits. -/
theorem shift (r c : Nat) (s : List Nat) :
    r * 10 ^ (c :: s).length + decimal (c :: s) = (r * 10 + (c - 48)) * 10 ^ s.length + decimal s := by
  simp only [decimal, List.length_cons]
  rw [Nat.add_mul, Nat.pow_succ, Nat.mul_assoc, Nat.add_assoc, Nat.mul_comm 10 (10 ^ s.length)]

theorem shift_le (a n b : Nat) : a ≤ a * 10 ^ n + b := by
  have hpos : 1 ≤ 10 ^ n := Nat.one_le_pow _ _ (by omega)
  have hle : a * 1 ≤ a * 10 ^ n := Nat.mul_le_mul_left _ hpos
  omega

/-- A number with its sign. -/
def signed (minus : Bool) (n : Nat) : Int := if minus then -(n : Int) else n

theorem floatEnd_eq (minus : Bool) (prec k : Nat) (r : Nat) (hk : k ≤ prec) (hb : r * 10 ^ (prec - k) < 2 ^ 31) :
    floatEnd minus prec k r = .val (signed minus (r * 10 ^ (prec - k))) := by
  unfold floatEnd
  have h1 : (if (k : Int) < 0 then (0 : Int) else k) = k := by split <;> omega
  have h2 : ((prec : Int) - (k : Int)).toNat = prec - k := by omega
  simp only [h1, h2]
  rw [padZeros_eq _ _ hb]
  rfl

theorem floatLoop_frac (minus : Bool) (prec : Nat) (f : List Nat) (h : Digits f) (k r : Nat) (hk : k < prec)
    (hb : r * 10 ^ (places (prec - k) f).length + decimal (places (prec - k) f) + 48 < 2 ^ 31) :
    floatLoop minus prec k r f
      = .val (signed minus (r * 10 ^ (places (prec - k) f).length + decimal (places (prec - k) f))) := by
  induction f generalizing k r with
  | nil =>
    rw [places_nil] at hb ⊢
    rw [decimal_zeros] at hb ⊢
    simp only [List.length_replicate, Nat.add_zero] at hb ⊢
    simp only [floatLoop]
    exact floatEnd_eq minus prec k r (by omega) (by omega)
  | cons c f ih =>
    have hc := h c (by simp)
    have hf : Digits f := fun x hx => h x (by simp [hx])
    obtain ⟨n, hn⟩ : ∃ n, prec - k = n + 1 := ⟨prec - k - 1, by omega⟩
    rw [hn, places_cons, shift] at hb ⊢
    have hle := shift_le (r * 10 + (c - 48)) (places n f).length (decimal (places n f))
    simp only [floatLoop]
    rw [if_neg (by omega), if_pos hc]
    have hfit : (fits ((r : Int) * 10) && fits ((r : Int) * 10 + (c : Int))) = true := by
      simp only [fits, Bool.and_eq_true, decide_eq_true_eq]
      omega
    have hk1 : (if (k : Int) ≥ 0 then (k : Int) + 1 else k) = k + 1 := by split <;> omega
    rw [if_pos hfit, hk1]
    have hcast : (r : Int) * 10 + (c : Int) - 48 = ((r * 10 + (c - 48) : Nat) : Int) := by omega
    have hcast2 : (k : Int) + 1 = ((k + 1 : Nat) : Int) := by omega
    rw [hcast, hcast2]
    by_cases hend : k + 1 = prec
    · rw [if_pos (by omega)]
      have hn0 : n = 0 := by omega
      subst hn0
      have hp0 : places 0 f = [] := by simp [places]
      rw [hp0] at hb hle ⊢
      simp only [List.length_nil, decimal, Nat.pow_zero, Nat.mul_one, Nat.add_zero] at hb ⊢
      have := floatEnd_eq minus prec (k + 1) (r * 10 + (c - 48)) (by omega)
        (by rw [show prec - (k + 1) = 0 by omega]; simp; omega)
      rw [this, show prec - (k + 1) = 0 by omega]; simp
    · rw [if_neg (by omega)]
      have hn2 : prec - (k + 1) = n := by omega
      have := ih hf (k + 1) (r * 10 + (c - 48)) (by omega) (by rw [hn2]; exact hb)
      rw [this, hn2]

theorem floatLoop_int (minus : Bool) (prec : Nat) (i : List Nat) (h : Digits i) (r : Nat) (t : List Nat)
    (hb : r * 10 ^ i.length + decimal i + 48 < 2 ^ 31) :
    floatLoop minus prec (-1) r (i ++ t) = floatLoop minus prec (-1) ((r * 10 ^ i.length + decimal i : Nat) : Int) t := by
  induction i generalizing r with
  | nil => simp [decimal]
  | cons c i ih =>
    have hc := h c (by simp)
    rw [shift] at hb ⊢
    have hle := shift_le (r * 10 + (c - 48)) i.length (decimal i)
    simp only [List.cons_append, floatLoop]
    rw [if_neg (by omega), if_pos hc]
    have hfit : (fits ((r : Int) * 10) && fits ((r : Int) * 10 + (c : Int))) = true := by
      simp only [fits, Bool.and_eq_true, decide_eq_true_eq]
      omega
    have hk1 : (if (-1 : Int) ≥ 0 then (-1 : Int) + 1 else -1) = -1 := by split <;> omega
    rw [if_pos hfit, hk1, if_neg (by omega)]
    have hcast : (r : Int) * 10 + (c : Int) - 48 = ((r * 10 + (c - 48) : Nat) : Int) := by omega
    rw [hcast]
    exact ih (fun x hx => h x (by simp [hx])) _ hb

theorem floatLoop_text (minus : Bool) (prec sep : Nat) (i f : List Nat) (hi : Digits i) (hf : Digits f)
    (hs : sep = 46 ∨ sep = 44) (hb : decimal (i ++ f) * 10 ^ prec / 10 ^ f.length + 48 < 2 ^ 31) :
    floatLoop minus prec (-1) 0 (i ++ sep :: f)
      = .val (signed minus (decimal (i ++ f) * 10 ^ prec / 10 ^ f.length)) := by
  rw [← places_div i f hf prec] at hb ⊢
  rw [decimal_append] at hb ⊢
  have hle := shift_le (decimal i) (places prec f).length (decimal (places prec f))
  have := floatLoop_int minus prec i hi 0 (sep :: f) (by omega)
  simp only [Nat.zero_mul, Nat.zero_add, Int.natCast_zero] at this
  rw [this]
  simp only [floatLoop]
  rw [if_neg (by omega), if_neg (by omega), if_pos hs]
  rw [show (-1 : Int) + 1 = ((0 : Nat) : Int) by omega]
  by_cases hp : prec = 0
  · subst hp
    rw [if_pos (by omega)]
    have hp0 : places 0 f = [] := by simp [places]
    rw [hp0] at hb ⊢
    simp only [List.length_nil, decimal, Nat.pow_zero, Nat.mul_one, Nat.add_zero] at hb ⊢
    have := floatEnd_eq minus 0 0 (decimal i) (by omega) (by simp; omega)
    simpa using this
  · rw [if_neg (by omega)]
    exact floatLoop_frac minus prec f hf 0 (decimal i) (by omega) hb

/-- **C41.** Digits, a point or comma, and further digits, with or without a minus sign, are read as the
number they denote in units of 10^-prec, cut off (not rounded) behind the last wanted decimal place, as
long as the result is below 2^31 - 48. -/
theorem float_text (prec sep : Nat) (i f : List Nat) (hi : Digits i) (hf : Digits f) (hs : sep = 46 ∨ sep = 44)
    (hb : decimal (i ++ f) * 10 ^ prec / 10 ^ f.length + 48 < 2 ^ 31) :
    floatStringToInt prec (i ++ sep :: f) = .val (decimal (i ++ f) * 10 ^ prec / 10 ^ f.length : Nat) ∧
    floatStringToInt prec (45 :: i ++ sep :: f) = .val (-((decimal (i ++ f) * 10 ^ prec / 10 ^ f.length : Nat) : Int)) := by
  have h1 := floatLoop_text false prec sep i f hi hf hs hb
  have h2 := floatLoop_text true prec sep i f hi hf hs hb
  constructor
  · cases i with
    | nil =>
      rw [List.nil_append] at h1 ⊢
      simp only [floatStringToInt]
      rw [if_neg (by omega)]; exact h1
    | cons c i =>
      have := hi c (by simp)
      rw [List.cons_append] at h1 ⊢
      simp only [floatStringToInt]
      rw [if_neg (by omega)]; exact h1
  · rw [List.cons_append]
    simp only [floatStringToInt, if_true]
    exact h2

/-- **C41.** Digits without a point, with or without a minus sign. -/
theorem float_whole (prec : Nat) (i : List Nat) (hi : Digits i) (hb : decimal i * 10 ^ prec + 48 < 2 ^ 31) :
    floatStringToInt prec i = .val (decimal i * 10 ^ prec : Nat) ∧
    floatStringToInt prec (45 :: i) = .val (-((decimal i * 10 ^ prec : Nat) : Int)) := by
  have hle := shift_le (decimal i) prec 0
  have key : ∀ minus, floatLoop minus prec (-1) 0 i = .val (signed minus (decimal i * 10 ^ prec)) := by
    intro minus
    have := floatLoop_int minus prec i hi 0 [] (by omega)
    simp only [Nat.zero_mul, Nat.zero_add, Int.natCast_zero, List.append_nil] at this
    rw [this]
    simp only [floatLoop]
    have := floatEnd_eq minus prec 0 (decimal i) (by omega) (by rw [Nat.sub_zero]; omega)
    simpa [floatEnd] using this
  constructor
  · cases i with
    | nil => exact key false
    | cons c i =>
      have := hi c (by simp)
      simp only [floatStringToInt]
      rw [if_neg (by omega)]; exact key false
  · simp only [floatStringToInt, if_true]
    exact key true

/-- "3.1415" with two places is 314, "-0,5" is -50, "7" is 700. -/
example : floatStringToInt 2 [51, 46, 49, 52, 49, 53] = .val 314 ∧ floatStringToInt 2 [45, 48, 44, 53] = .val (-50) ∧
    floatStringToInt 2 [55] = .val 700 := by decide +kernel

/-- The full claim: every number whose result is a 32-bit number is read correctly. -/
def FloatFits : Prop :=
  ∀ (prec sep : Nat) (i f : List Nat), Digits i → Digits f → (sep = 46 ∨ sep = 44) →
    decimal (i ++ f) * 10 ^ prec / 10 ^ f.length < 2 ^ 31 →
      floatStringToInt prec (i ++ sep :: f) = .val (decimal (i ++ f) * 10 ^ prec / 10 ^ f.length : Nat)

/-- **Finding.** The character code is added before '0' is subtracted, so "21474836.47" overflows. -/
theorem float_fits_violation : ¬ FloatFits := by
  intro h
  have := h 2 46 [50, 49, 52, 55, 52, 56, 51, 54] [52, 55] (by decide) (by decide) (Or.inl rfl) (by decide)
  revert this; decide +kernel

/-- **Finding.** Characters that are no digits are not rejected: "1.2.3" is read as 0.12 and "1e2" as 12. -/
example : floatStringToInt 2 [49, 46, 50, 46, 51] = .val 12 ∧ floatStringToInt 2 [49, 101, 50] = .val 1200 := by
  decide +kernel

end Verif.Tools
