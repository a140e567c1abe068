import Verif.Counter.Torn
import Mathlib.Tactic.Ring
import Mathlib.Algebra.Order.Group.Nat
/-!
# An impulse counter read, saved and reset while pulses arrive: what is read
-/
namespace Verif.Counter.Torn

/-- The full claim: what is read is a number the counter had while it was read. -/
def ReadsRight (read : Nat → List Nat → Nat) (w n : Nat) : Prop :=
  ∀ c ks, ks.length = n → c + ks.sum < 2 ^ (w * n) → c ≤ read c ks ∧ read c ks ≤ c + ks.sum

theorem pow_succ_word (w i : Nat) : 2 ^ (w * (i + 1)) = 2 ^ (w * i) * 2 ^ w := by rw [Nat.mul_succ, Nat.pow_add]

/-- A word and what is above it. -/
theorem split_word (w i c : Nat) : word w i c * 2 ^ (w * i) + c / 2 ^ (w * (i + 1)) * 2 ^ (w * (i + 1)) = c / 2 ^ (w * i) * 2 ^ (w * i) := by
  unfold word
  rw [pow_succ_word, ← Nat.div_div_eq_div_mul]
  have h := Nat.mod_add_div (c / 2 ^ (w * i)) (2 ^ w)
  generalize c / 2 ^ (w * i) = q at *
  generalize 2 ^ (w * i) = P at *
  generalize 2 ^ w = W at *
  calc q % W * P + q / W * (P * W) = (q % W + W * (q / W)) * P := by ring
    _ = q * P := by rw [h]

theorem div_mul_mono {a b : Nat} (P : Nat) (h : a ≤ b) : a / P * P ≤ b / P * P := Nat.mul_le_mul_right _ (Nat.div_le_div_right h)

/-! ## From the lowest word -/

theorem readLow_ge (w : Nat) (ks : List Nat) (i c : Nat) (h : c + ks.sum < 2 ^ (w * (i + ks.length))) :
    c / 2 ^ (w * i) * 2 ^ (w * i) ≤ readLow w i c ks := by
  induction ks generalizing i c with
  | nil =>
    have h' : c < 2 ^ (w * i) := by simpa using h
    rw [Nat.div_eq_of_lt h']; simp
  | cons k ks ih =>
    have h1 := ih (i + 1) (c + k) (by
      have e : i + 1 + ks.length = i + (k :: ks).length := by simp; omega
      rw [e]; simpa [List.sum_cons, Nat.add_assoc] using h)
    have h2 := split_word w i (c + k)
    have h3 := div_mul_mono (2 ^ (w * i)) (show c ≤ c + k by omega)
    show _ ≤ word w i (c + k) * 2 ^ (w * i) + readLow w (i + 1) (c + k) ks
    omega

/-- What is read from the lowest word up is never less than the counter was when reading began. -/
theorem never_less (w c : Nat) (ks : List Nat) (h : c + ks.sum < 2 ^ (w * ks.length)) : c ≤ readLow w 0 c ks := by
  have := readLow_ge w ks 0 c (by simpa using h)
  simpa using this

/-- If the pulses do not reach above word `i`, the words from `i` on are read as they are. -/
theorem readLow_still (w : Nat) (ks : List Nat) (i c : Nat) (h : c + ks.sum < 2 ^ (w * (i + ks.length)))
    (he : (c + ks.sum) / 2 ^ (w * i) = c / 2 ^ (w * i)) : readLow w i c ks = c / 2 ^ (w * i) * 2 ^ (w * i) := by
  induction ks generalizing i c with
  | nil =>
    have h' : c < 2 ^ (w * i) := by simpa using h
    rw [Nat.div_eq_of_lt h']; simp [readLow]
  | cons k ks ih =>
    have hs : c + (k :: ks).sum = c + k + ks.sum := by simp [Nat.add_assoc]
    rw [hs] at h he
    have hk : (c + k) / 2 ^ (w * i) = c / 2 ^ (w * i) := by
      have a := Nat.div_le_div_right (c := 2 ^ (w * i)) (show c ≤ c + k by omega)
      have b := Nat.div_le_div_right (c := 2 ^ (w * i)) (show c + k ≤ c + k + ks.sum by omega)
      omega
    have hup : (c + k + ks.sum) / 2 ^ (w * (i + 1)) = (c + k) / 2 ^ (w * (i + 1)) := by
      rw [pow_succ_word, ← Nat.div_div_eq_div_mul, ← Nat.div_div_eq_div_mul, he, hk]
    have h1 := ih (i + 1) (c + k) (by
      have e : i + 1 + ks.length = i + (k :: ks).length := by simp; omega
      rw [e]; exact h) hup
    have h2 := split_word w i (c + k)
    show word w i (c + k) * 2 ^ (w * i) + readLow w (i + 1) (c + k) ks = _
    rw [h1, h2, hk]

/-- Without a carry out of the lowest word during the reading, the number read is the counter at the moment the lowest word was read. -/
theorem no_carry_partial (w c k : Nat) (ks : List Nat) (h : c + k + ks.sum < 2 ^ (w * (ks.length + 1)))
    (hc : (c + k + ks.sum) / 2 ^ w = (c + k) / 2 ^ w) : readLow w 0 c (k :: ks) = c + k := by
  have h1 := readLow_still w ks 1 (c + k) (by rw [Nat.add_comm 1]; exact h) (by simpa using hc)
  have h2 := split_word w 0 (c + k)
  simp only [Nat.zero_add, Nat.mul_one, Nat.mul_zero, Nat.pow_zero, Nat.div_one] at h1 h2
  show word w 0 (c + k) * 2 ^ (w * 0) + readLow w 1 (c + k) ks = c + k
  simp only [Nat.mul_zero, Nat.pow_zero, Nat.mul_one]
  rw [h1]
  exact h2

/-- A meter at 1000 with five pulses while it is read. -/
example : readLow 8 0 1000 [0, 2, 0, 3, 0, 0, 0, 0] = 1000 := by decide

/-- In one word (64-bit processors) it is always right. -/
theorem one_word_right (w : Nat) : ReadsRight (readLow w 0) w 1 := by
  intro c ks hl h
  rcases ks with _ | ⟨k, _ | ⟨k', ks⟩⟩
  · simp at hl
  · have h1 := no_carry_partial w c k [] (by simpa using h) (by simp)
    rw [h1]; simp
  · simp at hl

theorem readLow_zeros (w m : Nat) : ∀ i c, c < 2 ^ (w * (i + m)) → readLow w i c (List.replicate m 0) = c / 2 ^ (w * i) * 2 ^ (w * i) := by
  intro i c h
  exact readLow_still w _ i c (by simpa using h) (by simp)

theorem readLow_append_zeros (w m : Nat) (ks : List Nat) : ∀ i c, readLow w i c (List.replicate m 0 ++ ks) + c / 2 ^ (w * (i + m)) * 2 ^ (w * (i + m)) =
    c / 2 ^ (w * i) * 2 ^ (w * i) + readLow w (i + m) c ks := by
  induction m with
  | zero => intro i c; simp [Nat.add_comm]
  | succ m ih =>
    intro i c
    have h1 := ih (i + 1) c
    have h2 := split_word w i c
    have e : i + (m + 1) = i + 1 + m := by omega
    rw [e, List.replicate_succ, List.cons_append]
    show word w i (c + 0) * 2 ^ (w * i) + readLow w (i + 1) (c + 0) (List.replicate m 0 ++ ks) + _ = _
    simp only [Nat.add_zero]
    omega

theorem succ_div (c P : Nat) (hP : 0 < P) : (c + 1) / P * P = if c % P = P - 1 then c / P * P + P else c / P * P := by
  have h := Nat.div_add_mod c P
  have hm := Nat.mod_lt c hP
  by_cases hc : c % P = P - 1
  · rw [if_pos hc]
    have : c + 1 = (c / P + 1) * P := by
      have e : (c / P + 1) * P = P * (c / P) + P := by ring
      rw [e]; omega
    rw [this, Nat.mul_div_cancel _ hP]
    ring
  · rw [if_neg hc]
    have : c + 1 = P * (c / P) + (c % P + 1) := by omega
    rw [this, Nat.mul_add_div hP, Nat.div_eq_of_lt (show c % P + 1 < P by omega)]
    rfl

/-- One pulse, after `i` words have been read: exactly what comes out. All of those words must be full for it to be wrong, and then the number is too large
by the weight of the next word. -/
theorem one_pulse (w i m c : Nat) (h : c + 1 < 2 ^ (w * (i + (m + 1)))) :
    readLow w 0 c (List.replicate i 0 ++ 1 :: List.replicate m 0) = c + if c % 2 ^ (w * i) = 2 ^ (w * i) - 1 then 2 ^ (w * i) else 0 := by
  have h1 := readLow_append_zeros w i (1 :: List.replicate m 0) 0 c
  have hz : readLow w i c (1 :: List.replicate m 0) = (c + 1) / 2 ^ (w * i) * 2 ^ (w * i) := by
    have h2 := readLow_zeros w m (i + 1) (c + 1) (by
      have e : i + 1 + m = i + (m + 1) := by omega
      rw [e]; exact h)
    have h3 := split_word w i (c + 1)
    show word w i (c + 1) * 2 ^ (w * i) + readLow w (i + 1) (c + 1) (List.replicate m 0) = _
    rw [h2, h3]
  have hs := succ_div c (2 ^ (w * i)) (Nat.two_pow_pos _)
  simp only [Nat.zero_add, Nat.mul_zero, Nat.pow_zero, Nat.div_one, Nat.mul_one] at h1
  rw [hz, hs] at h1
  generalize readLow w 0 c (List.replicate i 0 ++ 1 :: List.replicate m 0) = r at *
  generalize 2 ^ (w * i) = P at *
  by_cases hc : c % P = P - 1
  · rw [if_pos hc] at h1 ⊢; omega
  · rw [if_neg hc] at h1 ⊢; omega

/-- With 8-bit words a meter at 255 is read as 511, with 32-bit words one at 2^32 - 1 as 2^33 - 1: wrong for every word size, as soon as there are two words. -/
theorem carry_read (w m : Nat) (hw : 0 < w) : readLow w 0 (2 ^ w - 1) (0 :: 1 :: List.replicate m 0) = 2 ^ (w + 1) - 1 := by
  have hp : 2 ≤ 2 ^ w := by
    calc 2 = 2 ^ 1 := rfl
      _ ≤ 2 ^ w := Nat.pow_le_pow_right (by decide) hw
  have h := one_pulse w 1 m (2 ^ w - 1) (by
    have e : w * (1 + (m + 1)) = w + (w + w * m) := by ring
    rw [e, Nat.pow_add]
    have h2 : 2 ≤ 2 ^ (w + w * m) := by
      calc 2 = 2 ^ 1 := rfl
        _ ≤ 2 ^ (w + w * m) := Nat.pow_le_pow_right (by decide) (by omega)
    have h3 : 2 ^ w * 2 ≤ 2 ^ w * 2 ^ (w + w * m) := Nat.mul_le_mul_left _ h2
    omega)
  have hm : (2 ^ w - 1) % 2 ^ (w * 1) = 2 ^ (w * 1) - 1 := by rw [Nat.mul_one]; exact Nat.mod_eq_of_lt (by omega)
  rw [if_pos hm, Nat.mul_one] at h
  have e : List.replicate 1 0 ++ 1 :: List.replicate m 0 = 0 :: 1 :: List.replicate m 0 := rfl
  rw [e] at h
  rw [h, Nat.pow_succ]
  omega

theorem carry_violation (w n : Nat) (hw : 0 < w) (hn : 2 ≤ n) : ¬ ReadsRight (readLow w 0) w n := by
  intro h
  have hp : 2 ≤ 2 ^ w := by
    calc 2 = 2 ^ 1 := rfl
      _ ≤ 2 ^ w := Nat.pow_le_pow_right (by decide) hw
  have h1 := h (2 ^ w - 1) (0 :: 1 :: List.replicate (n - 2) 0) (by simp; omega) (by
    have h2 : 2 ^ (w * 2) ≤ 2 ^ (w * n) := Nat.pow_le_pow_right (by decide) (Nat.mul_le_mul_left _ hn)
    have h3 : 2 ^ (w * 2) = 2 ^ w * 2 ^ w := by rw [Nat.mul_two, Nat.pow_add]
    have h4 : 2 ^ w * 2 ≤ 2 ^ w * 2 ^ w := Nat.mul_le_mul_left _ hp
    simp
    omega)
  rw [carry_read w (n - 2) hw, Nat.pow_succ] at h1
  simp at h1
  omega

/-- Saved byte by byte on every platform: a meter at 255 can come back as 511 after a power cut. -/
theorem saved_violation : ¬ ReadsRight saved 8 8 := carry_violation 8 8 (by decide) (by decide)

/-- What is saved is never less than the counter was: pulses are not lost by saving. -/
theorem saved_not_less (c : Nat) (ks : List Nat) (hl : ks.length = 8) (h : c + ks.sum < 2 ^ 64) : c ≤ saved c ks :=
  never_less 8 c ks (by rw [hl]; exact h)

example : saved 255 [0, 1, 0, 0, 0, 0, 0, 0] = 511 := by decide
example : saved 65535 [0, 0, 1, 0, 0, 0, 0, 0] = 131071 := by decide

/-- The meter would go back: the next quiet reading is less than the last one, for every word size. -/
theorem backwards_violation (w n : Nat) (hw : 0 < w) (hn : 2 ≤ n) :
    ¬ ∀ c ks, ks.length = n → c + ks.sum < 2 ^ (w * n) → readLow w 0 c ks ≤ readLow w 0 (c + ks.sum) (List.replicate n 0) := by
  intro h
  refine carry_violation w n hw hn ?_
  intro c ks hl hs
  have h1 := h c ks hl hs
  have h2 := readLow_zeros w n 0 (c + ks.sum) (by simpa using hs)
  simp only [Nat.mul_zero, Nat.pow_zero, Nat.div_one, Nat.mul_one] at h2
  rw [h2] at h1
  exact ⟨never_less w c ks (by rw [hl]; exact hs), h1⟩

/-! ## From the highest word -/

theorem readHigh_lt (w : Nat) (l : List Nat) : ∀ x, readHigh w x l < 2 ^ (w * l.length) := by
  induction l with
  | nil => intro x; simp [readHigh]
  | cons b l ih =>
    intro x
    have hw : word w l.length (x + b) < 2 ^ w := Nat.mod_lt _ (Nat.two_pow_pos _)
    have := ih (x + b)
    show word w l.length (x + b) * 2 ^ (w * l.length) + readHigh w (x + b) l < 2 ^ (w * (l.length + 1))
    rw [pow_succ_word]
    have h3 : (word w l.length (x + b) + 1) * 2 ^ (w * l.length) ≤ 2 ^ w * 2 ^ (w * l.length) := Nat.mul_le_mul_right _ hw
    rw [Nat.add_mul, Nat.one_mul] at h3
    rw [Nat.mul_comm (2 ^ (w * l.length))]
    omega

theorem readHigh_le (w : Nat) (l : List Nat) : ∀ x, (x + l.sum) / 2 ^ (w * l.length) = x / 2 ^ (w * l.length) →
    readHigh w x l ≤ (x + l.sum) % 2 ^ (w * l.length) := by
  induction l with
  | nil => intro x _; simp [readHigh]
  | cons a l ih =>
    intro x hx
    have hsl : x + (a :: l).sum = x + a + l.sum := by simp [Nat.add_assoc]
    have hll : (a :: l).length = l.length + 1 := rfl
    rw [hsl, hll] at hx ⊢
    have hxa : (x + a) / 2 ^ (w * (l.length + 1)) = x / 2 ^ (w * (l.length + 1)) := by
      have p := Nat.div_le_div_right (c := 2 ^ (w * (l.length + 1))) (show x ≤ x + a by omega)
      have q := Nat.div_le_div_right (c := 2 ^ (w * (l.length + 1))) (show x + a ≤ x + a + l.sum by omega)
      omega
    have s1 := split_word w l.length (x + a)
    have s2 := split_word w l.length (x + a + l.sum)
    have d1 := Nat.div_add_mod (x + a + l.sum) (2 ^ (w * (l.length + 1)))
    have d2 := Nat.div_add_mod (x + a + l.sum) (2 ^ (w * l.length))
    rw [Nat.mul_comm] at d1 d2
    rw [hx, ← hxa] at s2 d1
    show word w l.length (x + a) * 2 ^ (w * l.length) + readHigh w (x + a) l ≤ _
    by_cases hq : (x + a + l.sum) / 2 ^ (w * l.length) = (x + a) / 2 ^ (w * l.length)
    · have := ih (x + a) hq
      rw [hq] at s2 d2
      omega
    · have hlt : (x + a) / 2 ^ (w * l.length) + 1 ≤ (x + a + l.sum) / 2 ^ (w * l.length) := by
        have p := Nat.div_le_div_right (c := 2 ^ (w * l.length)) (show x + a ≤ x + a + l.sum by omega)
        omega
      have hm := Nat.mul_le_mul_right (2 ^ (w * l.length)) hlt
      rw [Nat.add_mul, Nat.one_mul] at hm
      have := readHigh_lt w l (x + a)
      omega

/-- What is read from the highest word down is never more than the counter is when reading ends. -/
theorem never_more (w c : Nat) (ks : List Nat) (h : c + ks.sum < 2 ^ (w * ks.length)) : readHigh w c ks ≤ c + ks.sum := by
  exact le_trans (readHigh_le w ks c (by rw [Nat.div_eq_of_lt h, Nat.div_eq_of_lt (by omega)])) (Nat.mod_le _ _)

/-- But it can be less than the counter was: at the carry a meter of two words is read as zero, for every word size. -/
theorem high_violation (w : Nat) (hw : 0 < w) : ¬ ReadsRight (readHigh w) w 2 := by
  intro h
  have hp : 2 ≤ 2 ^ w := by
    calc 2 = 2 ^ 1 := rfl
      _ ≤ 2 ^ w := Nat.pow_le_pow_right (by decide) hw
  have h1 := h (2 ^ w - 1) [0, 1] rfl (by
    have h3 : 2 ^ (w * 2) = 2 ^ w * 2 ^ w := by rw [Nat.mul_two, Nat.pow_add]
    have h4 : 2 ^ w * 2 ≤ 2 ^ w * 2 ^ w := Nat.mul_le_mul_left _ hp
    simp
    omega)
  have e1 : word w 1 (2 ^ w - 1) = 0 := by
    unfold word
    rw [Nat.mul_one, Nat.div_eq_of_lt (by omega)]
    exact Nat.zero_mod _
  have e2 : word w 0 (2 ^ w - 1 + 1) = 0 := by
    unfold word
    rw [Nat.mul_zero, Nat.pow_zero, Nat.div_one, Nat.sub_add_cancel (by omega), Nat.mod_self]
  have e : readHigh w (2 ^ w - 1) [0, 1] = 0 := by
    show word w 1 (2 ^ w - 1 + 0) * 2 ^ (w * 1) + (word w 0 (2 ^ w - 1 + 0 + 1) * 2 ^ (w * 0) + 0) = 0
    rw [Nat.add_zero, e1, e2]
    simp
  rw [e] at h1
  omega

/-! ## Reset -/

theorem zeroWord_mod (w i c : Nat) : zeroWord w i c = c / 2 ^ (w * (i + 1)) * 2 ^ (w * (i + 1)) + c % 2 ^ (w * i) := by
  unfold zeroWord
  have h1 := split_word w i c
  have h2 := Nat.div_add_mod c (2 ^ (w * i))
  rw [Nat.mul_comm] at h2
  omega

theorem resetLow_count (w : Nat) (ks : List Nat) (i p c : Nat) (hi : 1 ≤ i) (hp : c % 2 ^ (w * i) = p) (hs : p + ks.sum < 2 ^ w)
    (hc : c + ks.sum < 2 ^ (w * (i + ks.length))) : resetLow w i c ks = p + ks.sum := by
  induction ks generalizing i p c with
  | nil =>
    have h' : c < 2 ^ (w * i) := by simpa using hc
    rw [Nat.mod_eq_of_lt h'] at hp
    simp [resetLow, hp]
  | cons k ks ih =>
    have hsum : (k :: ks).sum = k + ks.sum := by simp
    rw [hsum] at hs hc ⊢
    have hww : 2 ^ w ≤ 2 ^ (w * i) := Nat.pow_le_pow_right (by decide) (Nat.le_mul_of_pos_right _ hi)
    have hk : (c + k) % 2 ^ (w * i) = p + k := by
      rw [Nat.add_mod, hp, Nat.mod_eq_of_lt (show k < 2 ^ (w * i) by omega), Nat.mod_eq_of_lt (by omega)]
    have hz := zeroWord_mod w i (c + k)
    rw [hk] at hz
    have hle : zeroWord w i (c + k) ≤ c + k := Nat.sub_le _ _
    have hpos : 2 ^ (w * i) ≤ 2 ^ (w * (i + 1)) := Nat.pow_le_pow_right (by decide) (Nat.mul_le_mul_left _ (by omega))
    have h1 := ih (i + 1) (p + k) (zeroWord w i (c + k)) (by omega) (by
      rw [hz, Nat.add_comm, Nat.add_mul_mod_self_right, Nat.mod_eq_of_lt (by omega)]) (by omega) (by
      have e : i + 1 + ks.length = i + (k :: ks).length := by simp; omega
      rw [e]; omega)
    show resetLow w (i + 1) (zeroWord w i (c + k)) ks = _
    rw [h1]; omega

/-- A reset from the lowest word up loses and invents nothing: afterwards the counter is the number of pulses since the lowest word was cleared,
as long as these are fewer than a word holds. -/
theorem reset_counts (w c k : Nat) (ks : List Nat) (hs : ks.sum < 2 ^ w) (hc : c + k + ks.sum < 2 ^ (w * (ks.length + 1))) :
    resetLow w 0 c (k :: ks) = ks.sum := by
  have hz := zeroWord_mod w 0 (c + k)
  simp only [Nat.zero_add, Nat.mul_one, Nat.mul_zero, Nat.pow_zero, Nat.mod_one, Nat.add_zero] at hz
  have h1 := resetLow_count w ks 1 0 (zeroWord w 0 (c + k)) (le_refl _) (by rw [hz, Nat.mul_one, Nat.mul_mod_left]) (by omega) (by
    have hle : zeroWord w 0 (c + k) ≤ c + k := Nat.sub_le _ _
    rw [Nat.add_comm 1]; omega)
  show resetLow w 1 (zeroWord w 0 (c + k)) ks = _
  rw [h1]; omega

example : resetLow 8 0 511 [1, 3, 0, 2, 0, 0, 0, 0] = 5 := by decide

/-- From the highest word down a pulse at the wrong moment leaves a whole word's worth on the meter, for every word size. -/
theorem reset_high (w : Nat) (hw : 0 < w) : resetHigh w (2 ^ w - 1) [0, 1] = 2 ^ w := by
  have hp : 2 ≤ 2 ^ w := by
    calc 2 = 2 ^ 1 := rfl
      _ ≤ 2 ^ w := Nat.pow_le_pow_right (by decide) hw
  have e1 : zeroWord w 1 (2 ^ w - 1) = 2 ^ w - 1 := by
    unfold zeroWord word
    rw [Nat.mul_one, Nat.div_eq_of_lt (by omega), Nat.zero_mod, Nat.zero_mul]
    rfl
  have e2 : zeroWord w 0 (2 ^ w - 1 + 1) = 2 ^ w := by
    unfold zeroWord word
    rw [Nat.mul_zero, Nat.pow_zero, Nat.div_one, Nat.sub_add_cancel (by omega), Nat.mod_self]
    simp
  show zeroWord w 0 (zeroWord w 1 (2 ^ w - 1) + 1) = 2 ^ w
  rw [e1, e2]

theorem reset_high_violation (w : Nat) (hw : 0 < w) : ¬ ∀ c ks, ks.length = 2 → c + ks.sum < 2 ^ (w * 2) → resetHigh w c ks ≤ ks.sum := by
  intro h
  have hp : 2 ≤ 2 ^ w := by
    calc 2 = 2 ^ 1 := rfl
      _ ≤ 2 ^ w := Nat.pow_le_pow_right (by decide) hw
  have h1 := h (2 ^ w - 1) [0, 1] rfl (by
    have h3 : 2 ^ (w * 2) = 2 ^ w * 2 ^ w := by rw [Nat.mul_two, Nat.pow_add]
    have h4 : 2 ^ w * 2 ≤ 2 ^ w * 2 ^ w := Nat.mul_le_mul_left _ hp
    simp
    omega)
  rw [reset_high w hw] at h1
  simp at h1
  omega

/-! ## Increments from two sides -/

theorem pulses (n : Nat) : ∀ s : Nat × Nat, (List.replicate n Act.pulse).foldl act s = (s.1 + n, s.2) := by
  induction n with
  | zero => intro s; rfl
  | succ n ih =>
    intro s
    rw [List.replicate_succ, List.foldl_cons, ih]
    show (s.1 + 1 + n, s.2) = (s.1 + (n + 1), s.2)
    rw [Nat.add_assoc, Nat.add_comm 1]

/-- An INCREMENT action with `a` pulses before, `b` between load and store, `d` after: exactly the `b` pulses are lost. -/
theorem increment_loses (c a b d : Nat) :
    acts c (List.replicate a .pulse ++ .load :: (List.replicate b .pulse ++ .store :: List.replicate d .pulse)) = c + a + 1 + d := by
  unfold acts
  rw [List.foldl_append, pulses, List.foldl_cons, List.foldl_append, pulses, List.foldl_cons, pulses]
  rfl

/-- Every pulse and every action counts. -/
def AllCounted : Prop := ∀ c a b d,
  acts c (List.replicate a .pulse ++ .load :: (List.replicate b .pulse ++ .store :: List.replicate d .pulse)) = c + (a + b + d) + 1

theorem increment_violation : ¬ AllCounted := by
  intro h
  have := h 0 0 1 0
  revert this; decide

/-- Without a pulse in between, all are counted. -/
theorem increment_counted_partial (c a d : Nat) :
    acts c (List.replicate a .pulse ++ .load :: .store :: List.replicate d .pulse) = c + (a + d) + 1 := by
  have h := increment_loses c a 0 d
  simp only [List.replicate_zero, List.nil_append] at h
  rw [h]; omega

end Verif.Counter.Torn
