import Verif.Form.Model
import Mathlib.Tactic.Linarith
import Mathlib.Tactic.Ring
import Mathlib.Tactic.FieldSimp
import Mathlib.Tactic.NormNum
import Mathlib.Tactic.Positivity

/-!
# Printing and reading numbers
-/

namespace Verif.Form
open Verif.Tools

/-! ## Digits -/

theorem lastDigits_length (n m : Nat) : (lastDigits n m).length = n := by
  induction n generalizing m with
  | zero => rfl
  | succ n ih => simp [lastDigits, ih]

theorem lastDigits_digits (n m : Nat) : Digits (lastDigits n m) := by
  induction n generalizing m with
  | zero => intro c hc; cases hc
  | succ n ih =>
    intro c hc
    simp only [lastDigits, List.mem_append, List.mem_singleton] at hc
    rcases hc with hc | hc
    · exact ih _ c hc
    · subst hc; omega

theorem lastDigits_decimal (n m : Nat) : decimal (lastDigits n m) = m % 10 ^ n := by
  induction n generalizing m with
  | zero => simp [lastDigits, decimal, Nat.mod_one]
  | succ n ih =>
    simp only [lastDigits, decimal_append, ih, decimal, List.length_singleton, List.length_nil]
    have h : m % 10 ^ (n + 1) = m % 10 + 10 * (m / 10 % 10 ^ n) := by
      rw [Nat.pow_succ', Nat.mod_mul]
    rw [h]; omega

theorem decimalText_ne (n : Nat) : decimalText n ≠ [] := by
  unfold decimalText
  intro h
  have := List.map_eq_nil_iff.mp h
  exact Nat.toDigits_ne_nil this

theorem decimalText_digits (n : Nat) : digits (decimalText n) = true := by
  unfold digits
  have h := (decimal_text n).2
  have h2 := decimalText_ne n
  cases hd : decimalText n with
  | nil => exact absurd hd h2
  | cons c s =>
    rw [hd] at h
    simp only [List.isEmpty_cons, Bool.not_false, Bool.true_and, List.all_eq_true, decide_eq_true_eq]
    exact h

theorem lastDigits_valid (n m : Nat) (h : n ≠ 0) : digits (lastDigits n m) = true := by
  unfold digits
  have h1 := lastDigits_digits n m
  have h2 := lastDigits_length n m
  cases hd : lastDigits n m with
  | nil => rw [hd] at h2; exact absurd h2.symm h
  | cons c s =>
    rw [hd] at h1
    simp only [List.isEmpty_cons, Bool.not_false, Bool.true_and, List.all_eq_true, decide_eq_true_eq]
    exact h1

/-! ## A printed number is a number -/

theorem noDot {s : List Nat} (h : Digits s) : ∀ c ∈ s, (c != 46) = true := by
  intro c hc
  have := h c hc
  simp; omega

theorem unsigned_dot (i f : List Nat) (hi : Digits i) (hi1 : digits i = true) (hf : digits f = true) :
    unsigned (i ++ 46 :: f) = true := by
  have h1 : (i ++ 46 :: f).takeWhile (· != 46) = i := by
    rw [List.takeWhile_append_of_pos (noDot hi)]; simp
  have h2 : (i ++ 46 :: f).dropWhile (· != 46) = 46 :: f := by
    rw [List.dropWhile_append_of_pos (noDot hi)]; simp
  unfold unsigned
  rw [h1, h2, hi1]
  simp [hf]

theorem isNumber_minus (s : List Nat) : isNumber (45 :: s) = unsigned s := by simp [isNumber]

theorem isNumber_plain (s : List Nat) (h : unsigned s = true) (hd : ∀ t, s ≠ 45 :: t) : isNumber s = true := by
  cases s with
  | nil => simp [unsigned, digits] at h
  | cons c t =>
    show (if c = 45 then unsigned t else unsigned (c :: t)) = true
    rw [if_neg (fun hc => hd t (by rw [hc]))]
    exact h

theorem append_not_minus (i t : List Nat) (hi : Digits i) (hne : i ≠ []) : ∀ u, i ++ t ≠ 45 :: u := by
  intro u h
  cases i with
  | nil => exact hne rfl
  | cons c i =>
    have hc := hi c (by simp)
    have := (List.cons.inj h).1
    omega

theorem wholeText_isNumber (n : Int) : isNumber (wholeText n) = true := by
  unfold wholeText
  have h : unsigned (decimalText n.natAbs) = true := by
    unfold unsigned; rw [decimalText_digits]; rfl
  split
  · rw [isNumber_minus, h]
  · refine isNumber_plain _ h ?_
    have := append_not_minus (decimalText n.natAbs) [] (decimal_text _).2 (decimalText_ne _)
    simpa using this

/-- The text after the sign. -/
def plainText (p m : Nat) : List Nat := decimalText (m / 10 ^ p) ++ (if p = 0 then [] else 46 :: lastDigits p m)

theorem plainText_unsigned (p m : Nat) : unsigned (plainText p m) = true := by
  unfold plainText
  split
  · rw [List.append_nil]; unfold unsigned; rw [decimalText_digits]; rfl
  · rename_i h
    exact unsigned_dot _ _ (decimal_text _).2 (decimalText_digits _) (lastDigits_valid _ _ h)

theorem fixedText_isNumber (P : Printf) (p : Nat) (x : Rat) : isNumber (fixedText P p x) = true := by
  have key : ∀ m, isNumber ((if x < 0 then [45] else []) ++ plainText p m) = true := by
    intro m
    split
    · show isNumber (45 :: plainText p m) = true
      rw [isNumber_minus]; exact plainText_unsigned p m
    · show isNumber (plainText p m) = true
      exact isNumber_plain _ (plainText_unsigned p m)
        (append_not_minus (decimalText (m / 10 ^ p)) _ (decimal_text _).2 (decimalText_ne _))
  unfold fixedText
  have := key (P.units p (if x < 0 then -x else x))
  unfold plainText at this
  dsimp only
  rw [List.append_assoc]
  exact this

/-! ## Reading -/

theorem plainText_read (q p m : Nat) (hq : q ≤ p) (hb : m * 10 ^ (p - q) + 48 < 2 ^ 31) :
    floatStringToInt p (plainText q m) = .val ((m * 10 ^ (p - q) : Nat) : Int) ∧
    floatStringToInt p (45 :: plainText q m) = .val (-((m * 10 ^ (p - q) : Nat) : Int)) := by
  unfold plainText
  by_cases h0 : q = 0
  · subst h0
    rw [if_pos rfl, List.append_nil, Nat.pow_zero, Nat.div_one]
    obtain ⟨h1, h2⟩ := decimal_text m
    have := float_whole p (decimalText m) h2 (by rw [h1]; simpa using hb)
    rw [h1] at this
    exact this
  · rw [if_neg h0]
    obtain ⟨h1, h2⟩ := decimal_text (m / 10 ^ q)
    have hd : decimal (decimalText (m / 10 ^ q) ++ lastDigits q m) = m := by
      rw [decimal_append, h1, lastDigits_decimal, lastDigits_length]
      have := Nat.div_add_mod m (10 ^ q)
      rw [Nat.mul_comm] at this
      exact this
    have hpow : 10 ^ p = 10 ^ (p - q) * 10 ^ q := by rw [← Nat.pow_add]; congr 1; omega
    have hv : m * 10 ^ p / 10 ^ q = m * 10 ^ (p - q) := by
      rw [hpow, ← Nat.mul_assoc, Nat.mul_div_cancel _ (Nat.pos_of_ne_zero (by positivity))]
    have := float_text p 46 (decimalText (m / 10 ^ q)) (lastDigits q m) h2 (lastDigits_digits q m) (Or.inl rfl)
      (by rw [hd, lastDigits_length, hv]; exact hb)
    rw [hd, lastDigits_length, hv] at this
    exact this

theorem fixedText_read (P : Printf) (q p : Nat) (x : Rat) (hq : q ≤ p)
    (hb : P.units q (if x < 0 then -x else x) * 10 ^ (p - q) + 48 < 2 ^ 31) :
    floatStringToInt p (fixedText P q x)
      = .val (signed (decide (x < 0)) (P.units q (if x < 0 then -x else x) * 10 ^ (p - q))) := by
  have key : ∀ m, m * 10 ^ (p - q) + 48 < 2 ^ 31 →
      floatStringToInt p ((if x < 0 then [45] else []) ++ plainText q m) = .val (signed (decide (x < 0)) (m * 10 ^ (p - q))) := by
    intro m hm
    obtain ⟨h1, h2⟩ := plainText_read q p m hq hm
    by_cases hx : x < 0
    · rw [if_pos hx, decide_eq_true hx]; exact h2
    · rw [if_neg hx, decide_eq_false hx]; exact h1
  have := key _ hb
  unfold plainText at this
  unfold fixedText
  dsimp only
  rw [List.append_assoc]
  exact this

/-! ## The places that are printed -/

/-- How many of the first powers of ten divide a number. -/
def zeros (n : Int) (p : Nat) : Nat := ((List.range p).filter (fun i => decide (n % 10 ^ (i + 1) = 0))).length

theorem zeros_all (n : Int) (p : Nat) (h : n % 10 ^ p = 0) : zeros n p = p := by
  unfold zeros
  have : (List.range p).filter (fun i => decide (n % 10 ^ (i + 1) = 0)) = List.range p := by
    rw [List.filter_eq_self]
    intro i hi
    have hi := List.mem_range.mp hi
    have hd : (10 : Int) ^ p ∣ n := Int.dvd_of_emod_eq_zero h
    have hd2 : (10 : Int) ^ (i + 1) ∣ n := Int.dvd_trans (pow_dvd_pow 10 (by omega)) hd
    simp [Int.emod_eq_zero_of_dvd hd2]
  rw [this, List.length_range]

theorem zeros_dvd (n : Int) (p : Nat) : zeros n p ≤ p ∧ (10 : Int) ^ zeros n p ∣ n := by
  induction p with
  | zero => exact ⟨Nat.le_refl 0, by simp [zeros]⟩
  | succ p ih =>
    by_cases h : n % 10 ^ (p + 1) = 0
    · rw [zeros_all n (p + 1) h]
      exact ⟨Nat.le_refl _, Int.dvd_of_emod_eq_zero h⟩
    · have : zeros n (p + 1) = zeros n p := by
        unfold zeros
        rw [List.range_succ, List.filter_append]
        simp [h]
      rw [this]
      exact ⟨by omega, ih.2⟩

theorem printPlaces_eq (n : Int) (p : Nat) : printPlaces n p = p - zeros n p := rfl

/-! ## A whole number sent with decimal places -/

theorem ratio_bounds (F : Single) (n : Int) (p : Nat) (hp : p ≤ 3) (hn : n.natAbs ≤ 2 ^ 22) :
    |F.rnd (F.rnd n / 10 ^ p) - (n : Rat) / 10 ^ p| ≤ |(n : Rat) / 10 ^ p| / 2 ^ 24 := by
  rw [F.whole n (by omega)]
  by_cases h0 : n = 0
  · subst h0
    have := F.whole 0 (by norm_num)
    simp at this ⊢
    exact this
  · refine F.near _ ?_
    have h1 : (1 : Rat) ≤ |(n : Rat)| := by
      have : (1 : Int) ≤ |n| := Int.one_le_abs h0
      exact_mod_cast this
    have h2 : (0 : Rat) < 10 ^ p := by positivity
    have h3 : (10 : Rat) ^ p ≤ 10 ^ 3 := pow_le_pow_right₀ (by norm_num) hp
    rw [abs_div, abs_of_pos h2, le_div_iff₀ h2]
    have h4 : (1 : Rat) / 2 ^ 100 * 10 ^ p ≤ 1 / 2 ^ 100 * 10 ^ 3 := by
      apply mul_le_mul_of_nonneg_left h3; norm_num
    have h5 : (1 : Rat) / 2 ^ 100 * 10 ^ 3 ≤ 1 := by norm_num
    linarith

/-- The sign survives, and the absolute value is close. -/
theorem ratio_abs (F : Single) (n : Int) (p : Nat) (hp : p ≤ 3) (hn : n.natAbs ≤ 2 ^ 22) :
    (F.rnd (F.rnd n / 10 ^ p) < 0 ↔ n < 0) ∧
    |(if F.rnd (F.rnd n / 10 ^ p) < 0 then -F.rnd (F.rnd n / 10 ^ p) else F.rnd (F.rnd n / 10 ^ p)) - (n.natAbs : Rat) / 10 ^ p|
      ≤ (n.natAbs : Rat) / 10 ^ p / 2 ^ 24 := by
  have hb := ratio_bounds F n p hp hn
  generalize F.rnd (F.rnd n / 10 ^ p) = x at hb ⊢
  have h2 : (0 : Rat) < 10 ^ p := by positivity
  have hna : ((n.natAbs : Nat) : Rat) = |(n : Rat)| := by
    rw [← Int.cast_abs, Int.abs_eq_natAbs]; simp
  rw [hna]
  have hdiv : |(n : Rat)| / 10 ^ p = |(n : Rat) / 10 ^ p| := by rw [abs_div, abs_of_pos h2]
  rw [hdiv]
  rcases lt_trichotomy n 0 with h | h | h
  · have hn0 : (n : Rat) < 0 := by exact_mod_cast h
    have hy : (n : Rat) / 10 ^ p < 0 := div_neg_of_neg_of_pos hn0 h2
    generalize (n : Rat) / 10 ^ p = y at hb hy ⊢
    rw [abs_of_neg hy] at hb ⊢
    have hb' := abs_le.mp hb
    have hx : x < 0 := by
      have : -y / 2 ^ 24 < -y := by
        rw [div_lt_iff₀ (by norm_num)]; linarith
      linarith [hb'.2]
    refine ⟨⟨fun _ => h, fun _ => hx⟩, ?_⟩
    rw [if_pos hx, abs_le]
    constructor <;> linarith [hb'.1, hb'.2]
  · subst h
    simp at hb
    subst hb
    simp
  · have hn0 : (0 : Rat) < n := by exact_mod_cast h
    have hy : 0 < (n : Rat) / 10 ^ p := div_pos hn0 h2
    generalize (n : Rat) / 10 ^ p = y at hb hy ⊢
    rw [abs_of_pos hy] at hb ⊢
    have hb' := abs_le.mp hb
    have hx : ¬ x < 0 := by
      have : y / 2 ^ 24 < y := by
        rw [div_lt_iff₀ (by norm_num)]; linarith
      linarith [hb'.1]
    refine ⟨⟨fun hc => absurd hc hx, fun hc => absurd hc (by omega)⟩, ?_⟩
    rw [if_neg hx]; exact hb

/-- What is printed is the number, exactly. -/
theorem units_exact (P : Printf) (q m : Nat) (x : Rat) (hx : 0 ≤ x) (h : |x * 10 ^ q - m| ≤ 1 / 4) : P.units q x = m := by
  have h1 := abs_le.mp (P.near q x hx)
  have h2 := abs_le.mp h
  have h3 : ((P.units q x : Nat) : Rat) < m + 1 := by linarith [h1.2, h2.2]
  have h4 : (m : Rat) < (P.units q x : Nat) + 1 := by linarith [h1.1, h2.1]
  have h5 : P.units q x < m + 1 := by exact_mod_cast h3
  have h6 : m < P.units q x + 1 := by exact_mod_cast h4
  omega

theorem sendFixed_units (P : Printf) (F : Single) (n : Int) (p : Nat) (hp : p ≤ 3) (hn : n.natAbs ≤ 2 ^ 22) :
    P.units (printPlaces n p) (if F.rnd (F.rnd n / 10 ^ p) < 0 then -F.rnd (F.rnd n / 10 ^ p) else F.rnd (F.rnd n / 10 ^ p))
      * 10 ^ (p - printPlaces n p) = n.natAbs := by
  obtain ⟨hz1, hz2⟩ := zeros_dvd n p
  have hab := (ratio_abs F n p hp hn).2
  have hnn : 0 ≤ (if F.rnd (F.rnd n / 10 ^ p) < 0 then -F.rnd (F.rnd n / 10 ^ p) else F.rnd (F.rnd n / 10 ^ p)) := by
    split
    · rename_i h; linarith
    · rename_i h; exact not_lt.mp h
  generalize (if F.rnd (F.rnd n / 10 ^ p) < 0 then -F.rnd (F.rnd n / 10 ^ p) else F.rnd (F.rnd n / 10 ^ p)) = x at hab hnn ⊢
  rw [printPlaces_eq]
  generalize zeros n p = z at hz1 hz2 ⊢
  have hpz : p - (p - z) = z := by omega
  rw [hpz]
  have hd : 10 ^ z ∣ n.natAbs := by
    have := Int.natAbs_dvd_natAbs.mpr hz2
    rwa [Int.natAbs_pow] at this
  obtain ⟨m, hm⟩ := hd
  have hmm : m * 10 ^ z = n.natAbs := by rw [hm, Nat.mul_comm]
  suffices hs : P.units (p - z) x = m by rw [hs, hmm]
  refine units_exact P _ m x hnn ?_
  have e1 : ((n.natAbs : Nat) : Rat) = m * 10 ^ z := by rw [← hmm]; push_cast; ring
  have e2 : (10 : Rat) ^ p = 10 ^ z * 10 ^ (p - z) := by rw [← pow_add]; congr 1; omega
  have pz : (0 : Rat) < 10 ^ z := by positivity
  have pq : (0 : Rat) < 10 ^ (p - z) := by positivity
  have e3 : ((n.natAbs : Nat) : Rat) / 10 ^ p = m / 10 ^ (p - z) := by
    rw [e1, e2]; field_simp
  rw [e3] at hab
  have hmle : (m : Rat) ≤ 2 ^ 22 := by
    have h1 : m ≤ n.natAbs := by rw [← hmm]; exact Nat.le_mul_of_pos_right m (by positivity)
    have h2 : m ≤ 2 ^ 22 := by omega
    exact_mod_cast h2
  have e4 : x * 10 ^ (p - z) - m = (x - m / 10 ^ (p - z)) * 10 ^ (p - z) := by field_simp
  rw [e4, abs_mul, abs_of_pos pq]
  have h6 : |x - m / 10 ^ (p - z)| * 10 ^ (p - z) ≤ (m / 10 ^ (p - z) / 2 ^ 24) * 10 ^ (p - z) :=
    mul_le_mul_of_nonneg_right hab (le_of_lt pq)
  have h7 : ((m : Rat) / 10 ^ (p - z) / 2 ^ 24) * 10 ^ (p - z) = m / 2 ^ 24 := by field_simp
  rw [h7] at h6
  have h8 : (m : Rat) / 2 ^ 24 ≤ 1 / 4 := by rw [div_le_iff₀ (by norm_num)]; linarith
  linarith

theorem signed_natAbs (n : Int) (b : Bool) (h : b = true ↔ n < 0) : signed b n.natAbs = n := by
  unfold signed
  cases b with
  | true =>
    have := h.mp rfl
    show -((n.natAbs : Nat) : Int) = n
    omega
  | false =>
    have : ¬ n < 0 := fun hc => by have := h.mpr hc; cases this
    show ((n.natAbs : Nat) : Int) = n
    omega

/-- **A number sent with decimal places is read as the same number.** -/
theorem sendFixed_read (P : Printf) (F : Single) (n : Int) (p : Nat) (hp : p ≤ 3) (hn : n.natAbs ≤ 2 ^ 22) :
    floatStringToInt p (sendFixed P F n p) = .val n := by
  have hu := sendFixed_units P F n p hp hn
  have hs := (ratio_abs F n p hp hn).1
  unfold sendFixed
  rw [fixedText_read P (printPlaces n p) p _ (by rw [printPlaces_eq]; omega) (by rw [hu]; omega), hu,
    signed_natAbs n _ (by rw [decide_eq_true_iff]; exact hs)]

theorem sendFixed_isNumber (P : Printf) (F : Single) (n : Int) (p : Nat) : isNumber (sendFixed P F n p) = true :=
  fixedText_isNumber _ _ _

/-- Without decimal places it is the text of the number. -/
theorem sendFixed_whole (P : Printf) (F : Single) (n : Int) (hn : n.natAbs ≤ 2 ^ 22) : sendFixed P F n 0 = wholeText n := by
  have hu := sendFixed_units P F n 0 (by omega) hn
  have hs := (ratio_abs F n 0 (by omega) hn).1
  have hp : printPlaces n 0 = 0 := rfl
  rw [hp, Nat.sub_zero, Nat.pow_zero, Nat.mul_one] at hu
  unfold sendFixed fixedText
  dsimp only
  rw [hp, hu, if_pos rfl, List.append_nil, Nat.pow_zero, Nat.div_one]
  unfold wholeText
  by_cases h : n < 0
  · rw [if_pos h, if_pos (hs.mpr h)]; rfl
  · rw [if_neg h, if_neg (fun hc => h (hs.mp hc))]; rfl

/-! ## Hundredths shown as tenths -/

/-- **What is shown of hundredths and read again is a nearest tenth.** -/
theorem tenths_read (P : Printf) (t : Int) (ht : t.natAbs ≤ 2 ^ 30) :
    ∃ m : Int, (10 * m - t).natAbs ≤ 5 ∧ floatStringToInt 1 (tenths P t) = .val m ∧
      (t.natAbs ≤ 2 ^ 27 → floatStringToInt 2 (tenths P t) = .val (10 * m)) := by
  have hsign : ((t : Rat) / 100 < 0) ↔ t < 0 := by
    constructor
    · intro h
      have : (t : Rat) < 0 := by
        by_contra hc
        have : 0 ≤ (t : Rat) / 100 := div_nonneg (not_lt.mp hc) (by norm_num)
        linarith
      exact_mod_cast this
    · intro h
      have : (t : Rat) < 0 := by exact_mod_cast h
      exact div_neg_of_neg_of_pos this (by norm_num)
  have habs : (if (t : Rat) / 100 < 0 then -((t : Rat) / 100) else (t : Rat) / 100) = (t.natAbs : Rat) / 100 := by
    have hna : ((t.natAbs : Nat) : Rat) = |(t : Rat)| := by
      rw [← Int.cast_abs, Int.abs_eq_natAbs]; simp
    rw [hna]
    split
    · rename_i h
      have : (t : Rat) < 0 := by exact_mod_cast hsign.mp h
      rw [abs_of_neg this]; ring
    · rename_i h
      have h2 : ¬ t < 0 := fun hc => h (hsign.mpr hc)
      have : (0 : Rat) ≤ t := by exact_mod_cast not_lt.mp h2
      rw [abs_of_nonneg this]
  have hu := P.near 1 ((t.natAbs : Rat) / 100) (by positivity)
  obtain ⟨k, hk⟩ : ∃ k, P.units 1 ((t.natAbs : Rat) / 100) = k := ⟨_, rfl⟩
  rw [hk] at hu
  have hu' := abs_le.mp hu
  have h1 : (10 * k : Nat) ≤ t.natAbs + 5 := by
    have : ((10 * k : Nat) : Rat) ≤ ((t.natAbs + 5 : Nat) : Rat) := by push_cast; linarith [hu'.2]
    exact_mod_cast this
  have h2 : t.natAbs ≤ 10 * k + 5 := by
    have : ((t.natAbs : Nat) : Rat) ≤ ((10 * k + 5 : Nat) : Rat) := by push_cast; linarith [hu'.1]
    exact_mod_cast this
  have hb : signed (decide ((t : Rat) / 100 < 0)) k = if t < 0 then -(k : Int) else k := by
    unfold signed
    by_cases h : t < 0
    · rw [if_pos h, decide_eq_true (hsign.mpr h)]; rfl
    · rw [if_neg h, decide_eq_false (fun hc => h (hsign.mp hc))]; rfl
  refine ⟨if t < 0 then -(k : Int) else k, ?_, ?_, ?_⟩
  · split <;> omega
  · unfold tenths
    have := fixedText_read P 1 1 ((t : Rat) / 100) (Nat.le_refl 1) (by rw [habs, hk]; omega)
    rw [habs, hk, Nat.sub_self, Nat.pow_zero, Nat.mul_one, hb] at this
    exact this
  · intro h3
    unfold tenths
    have := fixedText_read P 1 2 ((t : Rat) / 100) (by omega) (by rw [habs, hk]; omega)
    rw [habs, hk, show 2 - 1 = 1 from rfl, Nat.pow_one] at this
    rw [show ((2 : Nat) : Int) = 2 from rfl] at this
    rw [this]
    unfold signed
    by_cases h : t < 0
    · rw [if_pos h, decide_eq_true (hsign.mpr h)]; simp; omega
    · rw [if_neg h, decide_eq_false (fun hc => h (hsign.mp hc))]; simp; omega

theorem tenths_isNumber (P : Printf) (t : Int) : isNumber (tenths P t) = true := fixedText_isNumber _ _ _

/-! ## Whole numbers -/

theorem wholeText_read (n : Int) (h : n.natAbs < 2 ^ 31) : stringToInt (wholeText n) = .val n :=
  int_round_trip_partial n (by omega) (by omega)

theorem wholeText_uint (n : Nat) (h : n < 2 ^ 32) : stringToUInt (wholeText n) = n := by
  unfold wholeText
  rw [if_neg (by omega)]
  exact uint_round_trip n h

theorem wholeOf_text (n : Int) : wholeOf (wholeText n) = n := by
  unfold wholeText
  obtain ⟨h1, h2⟩ := decimal_text n.natAbs
  by_cases h : n < 0
  · rw [if_pos h]
    have h3 : ∀ s, wholeOf (45 :: s) = -(decimal s : Int) := fun s => by simp [wholeOf]
    rw [h3, h1]; omega
  · rw [if_neg h]
    have h3 := decimalText_ne n.natAbs
    cases hd : decimalText n.natAbs with
    | nil => exact absurd hd h3
    | cons c s =>
      rw [hd] at h1 h2
      have := h2 c (by simp)
      have h4 : wholeOf (c :: s) = (decimal (c :: s) : Int) := by
        unfold wholeOf; exact if_neg (by omega)
      rw [h4, h1]; omega

theorem wholeText_inj {a b : Int} (h : wholeText a = wholeText b) : a = b := by
  rw [← wholeOf_text a, ← wholeOf_text b, h]

end Verif.Form
