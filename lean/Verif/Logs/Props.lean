/-
Messages are shown whole or not at all; what the times beside them say.
-/
import Verif.Logs.Model
import Mathlib.Tactic.Ring

namespace Verif.Logs

open Tools (decimal decimalText Digits places)

/-! ## Making the text -/

/-- A message is shown whole or not at all. -/
theorem whole (alloc : Nat → Bool) (n : Nat) (out : Option Text) (t : Text) (h : log alloc n out = .shown t) : out = some t := by
  have hd : ∀ s, double alloc s ≠ .shown t := by
    intro s
    induction s using double.induct alloc with
    | case1 => unfold double; simp
    | case2 x h1 h2 => unfold double; rw [dif_neg h1, dif_pos h2]; simp
    | case3 x h1 h2 h3 ih => unfold double; rw [dif_neg h1, dif_neg h2, if_pos h3]; exact ih
    | case4 x h1 h2 h3 => unfold double; rw [dif_neg h1, dif_neg h2, if_neg h3]; simp
  unfold log at h
  split at h
  · cases out with
    | none => exact absurd h (hd _)
    | some u =>
      dsimp only at h
      split at h
      · injection h with h; rw [h]
      · split at h
        · cases h
        · split at h
          · injection h with h; rw [h]
          · cases h
  · cases h

/-- With memory for the pattern and for the text every message is shown. -/
theorem shown_if (alloc : Nat → Bool) (n : Nat) (t : Text) (h1 : alloc (min n 10240 + 10) = true)
    (h2 : alloc (t.length + 1) = true) (h3 : t.length + 1 < 2 ^ 31) : log alloc n (some t) = .shown t := by
  unfold log firstSize
  rw [if_pos h1]
  dsimp only
  by_cases h : t.length < min n 10240 + 10
  · rw [if_pos h]
  · rw [if_neg h, if_neg (show ¬ 2 ^ 31 ≤ t.length + 1 by omega), if_pos h2]

/-- Without memory for the pattern nothing is shown, and without memory for a text that is longer neither. -/
theorem dropped_if (alloc : Nat → Bool) (n : Nat) (t : Text) (h3 : t.length + 1 < 2 ^ 31)
    (h : alloc (min n 10240 + 10) = false ∨ (min n 10240 + 10 ≤ t.length ∧ alloc (t.length + 1) = false)) :
    log alloc n (some t) = .dropped := by
  unfold log firstSize
  by_cases h1 : alloc (min n 10240 + 10) = true
  · rcases h with h | ⟨h, h'⟩
    · rw [h] at h1; cases h1
    · rw [if_pos h1]
      dsimp only
      rw [if_neg (by omega), if_neg (by omega), if_neg (by rw [h']; simp)]
  · rw [if_neg h1]

example : log (fun n => n ≤ 100) 5 (some (List.replicate 50 65)) = .shown (List.replicate 50 65) ∧
    log (fun n => n ≤ 40) 5 (some (List.replicate 50 65)) = .dropped := by decide

/-- The full claim: making a message is never undefined. -/
def Defined : Prop := ∀ (alloc : Nat → Bool) (n : Nat) (out : Option Text), log alloc n out ≠ .undefined

theorem double_defined (alloc : Nat → Bool) (hm : ∀ n, 2 ^ 30 ≤ n → alloc n = false) (s : Nat) (hs : s < 2 ^ 30) :
    double alloc s = .dropped := by
  induction s using double.induct alloc with
  | case1 => unfold double; simp
  | case2 x h1 h2 => omega
  | case3 x h1 h2 h3 ih =>
    unfold double
    rw [dif_neg h1, dif_neg h2, if_pos h3]
    by_cases hx : 2 ^ 30 ≤ 2 * x
    · rw [hm _ hx] at h3; cases h3
    · exact ih (by omega)
  | case4 x h1 h2 h3 => unfold double; rw [dif_neg h1, dif_neg h2, if_neg h3]

/-- Proved for devices with less than a gigabyte of memory, and everywhere for texts that can be made. -/
theorem defined_partial (alloc : Nat → Bool) (n : Nat) (out : Option Text)
    (h : (∀ n, 2 ^ 30 ≤ n → alloc n = false) ∨ out ≠ none) (ht : ∀ t, out = some t → t.length + 1 < 2 ^ 31) :
    log alloc n out ≠ .undefined := by
  unfold log
  split
  · cases out with
    | none =>
      rcases h with h | h
      · dsimp only
        rw [double_defined alloc h _ (by unfold firstSize; omega)]
        simp
      · exact absurd rfl h
    | some t =>
      have := ht t rfl
      dsimp only
      split
      · simp
      · rw [if_neg (by omega)]
        split <;> simp
  · simp

/-- A message that cannot be made, where memory is always given (as Linux does): the size overflows. -/
theorem double_undefined (s : Nat) (hs : s ≠ 0) : double (fun _ => true) s = .undefined := by
  induction s using double.induct (fun _ => true) with
  | case1 => exact absurd rfl hs
  | case2 x h1 h2 => unfold double; rw [dif_neg h1, dif_pos h2]
  | case3 x h1 h2 h3 ih => unfold double; rw [dif_neg h1, dif_neg h2, if_pos h3]; exact ih (by omega)
  | case4 x h1 h2 h3 => exact absurd rfl h3

theorem defined_violation : ¬ Defined := fun h => by
  refine h (fun _ => true) 5 none ?_
  unfold log
  rw [if_pos rfl]
  exact double_undefined _ (by unfold firstSize; omega)

/-! ## Which messages -/

/-- A line is printed exactly for levels up to the one chosen, and it ends with the message. -/
theorem printed_iff (level pri sec usec : Nat) (msg : Text) :
    (∃ l, line level pri sec usec msg = some l ∧ (msg ++ [10]) <:+ l) ↔ pri ≤ level := by
  unfold line
  by_cases h : pri > level
  · rw [if_pos h]
    constructor
    · rintro ⟨l, hl, _⟩; cases hl
    · intro hp; omega
  · rw [if_neg h]
    refine ⟨fun _ => by omega, fun _ => ⟨_, rfl, ?_⟩⟩
    exact ⟨name pri ++ [91] ++ decimalText sec ++ [46] ++ fraction usec ++ [93, 32], by simp⟩

/-- One second and five millionths. -/
example : line 8 6 1 5 [65] = some ("INFO[1.5] A\n".toList.map Char.toNat) ∧ line 5 6 1 5 [65] = none := by decide +kernel

/-! ## The time beside a message -/

/-- Millionths of a second as a reader takes them from the digits after the point. -/
def readMicros (frac : Text) : Nat := decimal (places 6 frac)

/-- The full claim: the digits after the point say how many millionths of a second it was. -/
def TimeRight : Prop := ∀ u, u < 10 ^ 6 → readMicros (fraction u) = u

theorem text_step (n : Nat) (h : 10 ≤ n) : decimalText n = decimalText (n / 10) ++ [48 + n % 10] := by
  unfold decimalText
  rw [Nat.toDigits_of_base_le (by omega) h, List.map_append, List.map_cons, List.map_nil, Tools.digitChar_val _ (Nat.mod_lt _ (by omega))]

theorem text_length (k : Nat) : ∀ n, n < 10 ^ (k + 1) → (decimalText n).length ≤ k + 1 := by
  induction k with
  | zero =>
    intro n hn
    unfold decimalText
    rw [Nat.toDigits_of_lt_base (by simpa using hn)]
    simp
  | succ k ih =>
    intro n hn
    by_cases h : n < 10
    · unfold decimalText
      rw [Nat.toDigits_of_lt_base h]
      simp
    · rw [text_step n (by omega)]
      have := ih (n / 10) (by rw [Nat.pow_succ] at hn; omega)
      simp only [List.length_append, List.length_cons, List.length_nil]
      omega

theorem text_length_lt (n : Nat) : n < 10 ^ (decimalText n).length := by
  have := Tools.decimal_lt _ (Tools.decimal_text n).2
  rw [(Tools.decimal_text n).1] at this
  exact this

/-- What the digits say. -/
theorem read_fraction (u : Nat) (h : u < 10 ^ 6) :
    readMicros (fraction u) = u * 10 ^ (6 - (decimalText u).length) ∧ (decimalText u).length ≤ 6 := by
  have hl := text_length 5 u h
  refine ⟨?_, hl⟩
  unfold readMicros fraction places
  have : (decimalText u ++ List.replicate 6 48).take 6 = decimalText u ++ List.replicate (6 - (decimalText u).length) 48 := by
    rw [List.take_append, List.take_of_length_le hl, List.take_replicate]
    congr 2
    omega
  rw [this, Tools.decimal_append, Tools.decimal_zeros, (Tools.decimal_text u).1, List.length_replicate]
  rfl

/-- A number that is not 0 has no zero in front. -/
theorem text_front (u : Nat) (h : u ≠ 0) : 10 ^ ((decimalText u).length - 1) ≤ u := by
  by_contra hc
  generalize hl : (decimalText u).length = l at *
  match l, hl, hc with
  | 0, _, hc => simp at hc; omega
  | 1, _, hc => simp at hc; omega
  | l + 2, hl, hc =>
    have := text_length l u (by simpa using hc)
    omega

/-- The time is right exactly in the last nine tenths of each second and at its very beginning. -/
theorem time_right_iff (u : Nat) (h : u < 10 ^ 6) : readMicros (fraction u) = u ↔ u = 0 ∨ 10 ^ 5 ≤ u := by
  obtain ⟨h1, h2⟩ := read_fraction u h
  rw [h1]
  constructor
  · intro he
    by_cases hz : u = 0
    · exact Or.inl hz
    · right
      have hf := text_front u hz
      generalize (decimalText u).length = l at *
      by_cases hl : l = 6
      · rw [hl] at hf; exact hf
      · exfalso
        obtain ⟨k, hk⟩ : ∃ k, 6 - l = k + 1 := ⟨6 - l - 1, by omega⟩
        rw [hk, Nat.pow_succ] at he
        have : 1 ≤ 10 ^ k := Nat.one_le_pow _ _ (by omega)
        have h3 : u * 1 ≤ u * 10 ^ k := Nat.mul_le_mul_left u this
        have h4 : u * (10 ^ k * 10) = u * 10 ^ k * 10 := by ring
        rw [h4] at he
        omega
  · rintro (hz | hb)
    · rw [hz]; simp
    · have hlt := text_length_lt u
      generalize (decimalText u).length = l at *
      by_cases hl : l = 6
      · rw [hl]; simp
      · exfalso
        have : 10 ^ l ≤ 10 ^ 5 := Nat.pow_le_pow_right (by omega) (by omega)
        omega

/-- Each message of the first tenth of a second reads as if it came after it. -/
theorem early_reads_late (u : Nat) (h0 : u ≠ 0) (h : u < 10 ^ 5) : 10 ^ 5 ≤ readMicros (fraction u) := by
  obtain ⟨h1, h2⟩ := read_fraction u (by omega)
  have hf := text_front u h0
  rw [h1]
  have hp : 0 < (decimalText u).length := by
    by_contra hc
    have := text_length_lt u
    have hz : (decimalText u).length = 0 := by omega
    rw [hz] at this
    omega
  generalize (decimalText u).length = l at *
  have : 10 ^ (l - 1) * 10 ^ (6 - l) = 10 ^ 5 := by
    rw [← Nat.pow_add]
    congr 1
    omega
  rw [← this]
  exact Nat.mul_le_mul_right _ hf

theorem time_violation : ¬ TimeRight := fun h => by
  have := (time_right_iff 5 (by decide)).mp (h 5 (by decide))
  omega

/-- Proved for the times in question. -/
theorem time_partial (u : Nat) (h : u < 10 ^ 6) (hb : u = 0 ∨ 10 ^ 5 ≤ u) : readMicros (fraction u) = u :=
  (time_right_iff u h).mpr hb

/-- The full claim: of two messages in the same second the later one does not read as earlier. -/
def InOrder : Prop := ∀ u v, u ≤ v → v < 10 ^ 6 → readMicros (fraction u) ≤ readMicros (fraction v)

/-- Nine millionths of a second are printed as `.9`, a tenth and a millionth as `.100001`. -/
theorem order_violation : ¬ InOrder := fun h => by
  have h1 := h 9 100001 (by decide) (by decide)
  rw [(time_right_iff 100001 (by decide)).mpr (Or.inr (by decide))] at h1
  obtain ⟨h2, _⟩ := read_fraction 9 (by decide)
  rw [h2] at h1
  revert h1
  decide

end Verif.Logs
