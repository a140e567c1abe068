import Verif.Crc16.Model
import Verif.Crc16.Spec

/-! Helper lemmas for the CRC-16 claims: linearity and injectivity of the bit step, and the
bit-serial form of the byte update. -/

namespace Verif.Crc16

/-- The bits of a byte in the order in which the CRC consumes them (least significant first). -/
def byteBits (a : BitVec 8) : List Bool :=
  [a.getLsbD 0, a.getLsbD 1, a.getLsbD 2, a.getLsbD 3, a.getLsbD 4, a.getLsbD 5, a.getLsbD 6,
   a.getLsbD 7]

/-- A bit as a word. -/
def bit16 (b : Bool) : BitVec 16 := if b then 1#16 else 0#16

/-- Feed bits one by one. -/
def feed (c : BitVec 16) : List Bool → BitVec 16
  | [] => c
  | b :: bs => feed (bitStep (c ^^^ bit16 b)) bs

theorem feed_append (c : BitVec 16) (xs ys : List Bool) : feed c (xs ++ ys) = feed (feed c xs) ys := by
  induction xs generalizing c with
  | nil => rfl
  | cons x xs ih => simp [feed, ih]

theorem bitStep_eq (c : BitVec 16) :
    bitStep c = (c >>> 1) ^^^ (if c.getLsbD 0 then 0xA001#16 else 0#16) := by
  unfold bitStep; split <;> simp

theorem bitStep_xor (a b : BitVec 16) : bitStep (a ^^^ b) = bitStep a ^^^ bitStep b := by
  simp only [bitStep_eq, BitVec.getLsbD_xor, BitVec.ushiftRight_xor_distrib]
  generalize a >>> 1 = x
  generalize b >>> 1 = y
  generalize 40961#16 = p
  apply BitVec.eq_of_getLsbD_eq
  intro i _
  cases a.getLsbD 0 <;> cases b.getLsbD 0 <;> simp <;>
    cases x.getLsbD i <;> cases y.getLsbD i <;> cases p.getLsbD i <;> rfl

theorem bitStep_zero : bitStep 0#16 = 0#16 := by decide

theorem bitSteps_zero (n : Nat) : bitSteps n 0#16 = 0#16 := by
  induction n with
  | zero => rfl
  | succ n ih => simp [bitSteps, bitStep_zero, ih]

theorem bitSteps_xor (n : Nat) (a b : BitVec 16) :
    bitSteps n (a ^^^ b) = bitSteps n a ^^^ bitSteps n b := by
  induction n generalizing a b with
  | zero => rfl
  | succ n ih => simp [bitSteps, bitStep_xor, ih]

theorem bitSteps_add (m n : Nat) (a : BitVec 16) : bitSteps (m + n) a = bitSteps n (bitSteps m a) := by
  induction m generalizing a with
  | zero => simp [bitSteps]
  | succ m ih => rw [Nat.succ_add]; simp [bitSteps, ih]

theorem bitStep_eq_zero {x : BitVec 16} (h : bitStep x = 0#16) : x = 0#16 := by
  rw [bitStep_eq] at h
  have h15 := congrArg (fun v => BitVec.getLsbD v 15) h
  cases hl : x.getLsbD 0
  · rw [hl] at h
    apply BitVec.eq_of_getLsbD_eq
    intro i hi
    cases i with
    | zero => simpa using hl
    | succ i =>
      have := congrArg (fun v => BitVec.getLsbD v i) h
      simp at this
      simp
      rw [Nat.add_comm] at this
      exact this
  · rw [hl] at h15
    simp at h15

theorem bitSteps_eq_zero {n : Nat} {x : BitVec 16} (h : bitSteps n x = 0#16) : x = 0#16 := by
  induction n generalizing x with
  | zero => exact h
  | succ n ih => exact bitStep_eq_zero (ih h)

/-- The word whose bit `i` is the `i`-th element of the list. -/
def word : List Bool → BitVec 16
  | [] => 0#16
  | b :: bs => bit16 b ^^^ (word bs <<< 1)

theorem bitStep_shl (x : BitVec 16) (h : x.getLsbD 15 = false) : bitStep (x <<< 1) = x := by
  rw [bitStep_eq]
  apply BitVec.eq_of_getLsbD_eq
  intro i hi
  simp
  by_cases h15 : i = 15
  · subst h15; simpa using h.symm
  · have : 1 + i < 16 := by omega
    simp [this]

theorem bit16_high (b : Bool) (i : Nat) : (bit16 b).getLsbD (i+1) = false := by
  unfold bit16; split <;> simp

theorem word_high (bs : List Bool) (i : Nat) (h : bs.length ≤ i) : (word bs).getLsbD i = false := by
  induction bs generalizing i with
  | nil => simp [word]
  | cons b bs ih =>
    cases i with
    | zero => simp at h
    | succ i =>
      simp [word, bit16_high]
      intro _
      exact ih i (by simpa using h)

theorem feed_eq_steps (bs : List Bool) (c : BitVec 16) (h : bs.length ≤ 16) :
    feed c bs = bitSteps bs.length (c ^^^ word bs) := by
  induction bs generalizing c with
  | nil => simp [feed, bitSteps, word]
  | cons b bs ih =>
    simp only [feed, List.length_cons, bitSteps, word]
    rw [ih _ (by simp at h; omega)]
    congr 1
    rw [← BitVec.xor_assoc, bitStep_xor (c ^^^ bit16 b), bitStep_shl]
    exact word_high bs 15 (by simp at h; omega)

theorem word_byteBits (a : BitVec 8) : word (byteBits a) = a.setWidth 16 := by
  revert a; decide

/-- The byte update is the bit-serial CRC over the bits of the byte. -/
theorem update_eq_feed (c : BitVec 16) (a : BitVec 8) : update c a = feed c (byteBits a) := by
  rw [feed_eq_steps _ _ (by simp [byteBits]), word_byteBits]; rfl

/-- All bits of a record in the order in which the CRC consumes them. -/
def bits (m : List (BitVec 8)) : List Bool := m.flatMap byteBits

theorem foldl_update_eq_feed (m : List (BitVec 8)) (c : BitVec 16) :
    m.foldl update c = feed c (bits m) := by
  induction m generalizing c with
  | nil => rfl
  | cons a m ih => simp [bits, feed_append, ih, update_eq_feed]

theorem bits_length (m : List (BitVec 8)) : (bits m).length = 8 * m.length := by
  induction m with
  | nil => rfl
  | cons a m ih => simp [bits, byteBits] at ih ⊢; omega

theorem byteBits_getD (a : BitVec 8) (j : Nat) (h : j < 8) : (byteBits a).getD j false = a.getLsbD j := by
  match j, h with
  | 0, _ | 1, _ | 2, _ | 3, _ | 4, _ | 5, _ | 6, _ | 7, _ => rfl

theorem bits_getD (m : List (BitVec 8)) (j : Nat) : (bits m).getD j false = bitAt m j := by
  induction m generalizing j with
  | nil => simp [bits, bitAt]
  | cons a m ih =>
    have hb : bits (a :: m) = byteBits a ++ bits m := by simp [bits]
    have h8 : (byteBits a).length = 8 := rfl
    rw [hb]
    by_cases h : j < 8
    · rw [List.getD_eq_getElem?_getD, List.getElem?_append_left (by rw [h8]; exact h),
        ← List.getD_eq_getElem?_getD, byteBits_getD a j h]
      have : j / 8 = 0 := by omega
      have h2 : j % 8 = j := by omega
      simp [bitAt, this, h2]
    · rw [List.getD_eq_getElem?_getD, List.getElem?_append_right (by rw [h8]; omega),
        ← List.getD_eq_getElem?_getD, h8, ih]
      have : j / 8 = (j - 8) / 8 + 1 := by omega
      have h2 : j % 8 = (j - 8) % 8 := by omega
      simp [bitAt, this, h2]

/-- Bitwise difference of two bit lists. -/
def xorBits : List Bool → List Bool → List Bool
  | a :: as, b :: bs => (a ^^ b) :: xorBits as bs
  | _, _ => []

theorem xorBits_length (x y : List Bool) (h : x.length = y.length) : (xorBits x y).length = x.length := by
  induction x generalizing y with
  | nil => cases y <;> simp [xorBits] at *
  | cons a x ih => cases y with
    | nil => simp at h
    | cons b y => simp [xorBits, ih y (by simpa using h)]

theorem xorBits_getD (x y : List Bool) (h : x.length = y.length) (j : Nat) :
    (xorBits x y).getD j false = ((x.getD j false) ^^ (y.getD j false)) := by
  induction x generalizing y j with
  | nil => cases y with
    | nil => simp [xorBits]
    | cons b y => simp at h
  | cons a x ih => cases y with
    | nil => simp at h
    | cons b y => cases j with
      | zero => simp [xorBits]
      | succ j => simpa [xorBits] using ih y (by simpa using h) j

theorem bit16_xor (a b : Bool) : bit16 (a ^^ b) = bit16 a ^^^ bit16 b := by
  cases a <;> cases b <;> decide

theorem feed_xor (c d : BitVec 16) (x y : List Bool) (h : x.length = y.length) :
    feed (c ^^^ d) (xorBits x y) = feed c x ^^^ feed d y := by
  induction x generalizing y c d with
  | nil => cases y with
    | nil => simp [xorBits, feed]
    | cons b y => simp at h
  | cons a x ih => cases y with
    | nil => simp at h
    | cons b y =>
      simp only [xorBits, feed]
      rw [← ih _ _ y (by simpa using h), ← bitStep_xor, bit16_xor]
      congr 2
      simp only [BitVec.xor_assoc]
      congr 1
      rw [← BitVec.xor_assoc, BitVec.xor_comm d, BitVec.xor_assoc]

theorem feed_zeros (n : Nat) (c : BitVec 16) : feed c (List.replicate n false) = bitSteps n c := by
  induction n generalizing c with
  | zero => rfl
  | succ n ih => simp [List.replicate_succ, feed, bitSteps, ih, bit16]

theorem word_eq_zero (bs : List Bool) (h16 : bs.length ≤ 16) (h : word bs = 0#16) : bs = List.replicate bs.length false := by
  induction bs with
  | nil => rfl
  | cons b bs ih =>
    have hb : b = false := by
      have := congrArg (fun v => BitVec.getLsbD v 0) h
      cases b
      · rfl
      · simp [word, bit16] at this
    subst hb
    simp [List.replicate_succ]
    apply ih (by simp at h16; omega)
    apply BitVec.eq_of_getLsbD_eq
    intro i hi
    by_cases h15 : i = 15
    · subst h15; rw [word_high bs 15 (by simp at h16; omega)]; rfl
    · have := congrArg (fun v => BitVec.getLsbD v (i+1)) h
      simp [word, bit16] at this
      simp
      exact this (by omega)

/-- Two equally long bit strings with the same CRC from the same start value have a difference whose
CRC from zero is zero. -/
theorem feed_diff (c : BitVec 16) (x y : List Bool) (h : x.length = y.length) (he : feed c x = feed c y) :
    feed 0#16 (xorBits x y) = 0#16 := by
  have := feed_xor c c x y h
  rw [he] at this
  simpa using this

/-- A bit string that is zero outside a window of 16 bits and has CRC zero (from zero) is all zero. -/
theorem window_zero (e : List Bool) (i : Nat) (hw : ∀ j, (j < i ∨ i + 16 ≤ j) → e.getD j false = false)
    (h0 : feed 0#16 e = 0#16) : ∀ j, e.getD j false = false := by
  have hsplit : e = e.take i ++ ((e.drop i).take 16 ++ (e.drop i).drop 16) := by
    rw [List.take_append_drop, List.take_append_drop]
  have hA : e.take i = List.replicate (e.take i).length false := by
    rw [List.eq_replicate_iff]
    refine ⟨rfl, ?_⟩
    intro b hb
    obtain ⟨k, hk, rfl⟩ := List.mem_iff_getElem.mp hb
    have hk' : k < i ∧ k < e.length := by simp at hk; omega
    have := hw k (Or.inl hk'.1)
    simpa [List.getD_eq_getElem?_getD, hk'.2] using this
  have hC : (e.drop i).drop 16 = List.replicate ((e.drop i).drop 16).length false := by
    rw [List.eq_replicate_iff]
    refine ⟨rfl, ?_⟩
    intro b hb
    obtain ⟨k, hk, rfl⟩ := List.mem_iff_getElem.mp hb
    have hk' : i + 16 + k < e.length := by simp at hk; omega
    have := hw (i + 16 + k) (Or.inr (by omega))
    simp [List.getD_eq_getElem?_getD, hk'] at this
    rw [List.getElem_drop, List.getElem_drop]
    have e2 : i + (16 + k) = i + 16 + k := by omega
    simp only [e2]; exact this
  have hB16 : ((e.drop i).take 16).length ≤ 16 := by simp; omega
  rw [hsplit, feed_append, feed_append, hA, feed_zeros, bitSteps_zero, hC, feed_zeros] at h0
  have h1 := bitSteps_eq_zero h0
  rw [feed_eq_steps _ _ hB16] at h1
  have h2 := bitSteps_eq_zero h1
  have hB := word_eq_zero _ hB16 (by simpa using h2)
  intro j
  rw [hsplit, hA, hB, hC]
  simp only [List.replicate_append_replicate]
  simp [List.getD_eq_getElem?_getD, List.getElem?_replicate]
  split <;> rfl


/-! ### Parity -/

/-- Exclusive or of all bits of a word. -/
def parity16 (c : BitVec 16) : Bool :=
  (c.getLsbD 0 ^^ c.getLsbD 1 ^^ c.getLsbD 2 ^^ c.getLsbD 3 ^^ c.getLsbD 4 ^^ c.getLsbD 5 ^^
   c.getLsbD 6 ^^ c.getLsbD 7 ^^ c.getLsbD 8 ^^ c.getLsbD 9 ^^ c.getLsbD 10 ^^ c.getLsbD 11 ^^
   c.getLsbD 12 ^^ c.getLsbD 13 ^^ c.getLsbD 14 ^^ c.getLsbD 15)

/-- Parity of a list of bits. -/
def par : List Bool → Bool
  | [] => false
  | b :: bs => b ^^ par bs

theorem parity_bitStep (c : BitVec 16) : parity16 (bitStep c) = parity16 c := by
  rw [bitStep_eq]
  unfold parity16
  simp only [BitVec.getLsbD_xor, BitVec.getLsbD_ushiftRight]
  have h16 : c.getLsbD (1 + 15) = false := by simp
  rw [h16]
  simp only [Nat.reduceAdd]
  cases c.getLsbD 0
  · simp
  · simp

theorem parity_xor (a b : BitVec 16) : parity16 (a ^^^ b) = (parity16 a ^^ parity16 b) := by
  unfold parity16
  simp only [BitVec.getLsbD_xor]
  haveI : Std.Commutative Bool.xor := ⟨Bool.xor_comm⟩
  haveI : Std.Associative Bool.xor := ⟨Bool.xor_assoc⟩
  ac_rfl

theorem parity_feed (c : BitVec 16) (bs : List Bool) : parity16 (feed c bs) = (parity16 c ^^ par bs) := by
  induction bs generalizing c with
  | nil => simp [feed, par]
  | cons b bs ih =>
    rw [feed, ih, parity_bitStep, parity_xor, par]
    have : parity16 (bit16 b) = b := by cases b <;> decide
    rw [this, Bool.xor_assoc]

/-- `par` is the parity of the number of set positions. -/
theorem par_eq_count (e : List Bool) :
    par e = decide (((List.range e.length).filter (fun j => e.getD j false)).length % 2 = 1) := by
  induction e with
  | nil => decide
  | cons b e ih =>
    rw [par, ih, List.length_cons, List.range_succ_eq_map, List.filter_cons, List.filter_map]
    have hf : ((fun j => (b :: e).getD j false) ∘ Nat.succ) = fun j => e.getD j false := by
      funext j; simp
    rw [hf]
    generalize List.filter (fun j => e.getD j false) (List.range e.length) = l
    cases b
    · simp
    · simp only [List.getD_cons_zero, if_true, List.length_cons, List.length_map, Bool.true_xor]
      rw [← decide_not]
      apply decide_eq_decide.mpr
      omega

/-! ### Period of the bit step on the word 1 -/

/-- `bitStep` on natural numbers, for evaluation by the kernel. -/
def stepN (n : Nat) : Nat := if n % 2 = 1 then (n / 2) ^^^ 0xA001 else n / 2

theorem stepN_eq (c : BitVec 16) : (bitStep c).toNat = stepN c.toNat := by
  unfold bitStep stepN
  have : c.getLsbD 0 = decide (c.toNat % 2 = 1) := by
    simp [BitVec.getLsbD, Nat.testBit_zero]
  rw [this]
  by_cases h : c.toNat % 2 = 1 <;> simp [h, Nat.shiftRight_eq_div_pow]

/-- Apply `f` to the value of `n`; the case split makes the kernel evaluate `n` first. -/
def force (n : Nat) (f : Nat → Nat) : Nat :=
  match n with
  | 0 => f 0
  | m + 1 => f (m + 1)

theorem force_eq (n : Nat) (f : Nat → Nat) : force n f = f n := by cases n <;> rfl

/-- `2^k` steps. -/
def pow2N : Nat → Nat → Nat
  | 0, n => stepN n
  | k + 1, n => force (pow2N k n) (pow2N k)

theorem pow2N_eq (k : Nat) (c : BitVec 16) : (bitSteps (2 ^ k) c).toNat = pow2N k c.toNat := by
  induction k generalizing c with
  | zero => exact stepN_eq c
  | succ k ih =>
    rw [Nat.pow_succ, Nat.mul_two, bitSteps_add, ih, ih, pow2N, force_eq]

/-- Powers of two steps, one after another (evaluated eagerly by `force`). -/
def stepsFor : List Nat → Nat → Nat
  | [], n => n
  | k :: ks, n => force (pow2N k n) (stepsFor ks)

theorem stepsFor_eq (ks : List Nat) (c : BitVec 16) :
    (bitSteps ((ks.map (2 ^ ·)).sum) c).toNat = stepsFor ks c.toNat := by
  induction ks generalizing c with
  | nil => rfl
  | cons k ks ih => rw [List.map_cons, List.sum_cons, bitSteps_add, ih, pow2N_eq, stepsFor, force_eq]

theorem period : bitSteps 32767 1#16 = 1#16 := by
  apply BitVec.eq_of_toNat_eq
  rw [show 32767 = ((List.range 15).map (2 ^ ·)).sum from by decide, stepsFor_eq]
  decide +kernel

theorem no_period (ks : List Nat) (h : stepsFor ks 1 ≠ 1) :
    bitSteps ((ks.map (2 ^ ·)).sum) 1#16 ≠ 1#16 := by
  intro he
  apply h
  have := congrArg BitVec.toNat he
  rw [stepsFor_eq] at this
  simpa using this

theorem no_period_4681 : bitSteps 4681 1#16 ≠ 1#16 :=
  no_period [0, 3, 6, 9, 12] (by decide +kernel)
theorem no_period_1057 : bitSteps 1057 1#16 ≠ 1#16 :=
  no_period [0, 5, 10] (by decide +kernel)
theorem no_period_217 : bitSteps 217 1#16 ≠ 1#16 :=
  no_period [0, 3, 4, 6, 7] (by decide +kernel)

theorem period_mul (a n : Nat) (h : bitSteps a 1#16 = 1#16) : bitSteps (a * n) 1#16 = 1#16 := by
  induction n with
  | zero => rfl
  | succ n ih => rw [Nat.mul_succ, bitSteps_add, ih, h]

theorem period_mod (a b : Nat) (ha : bitSteps a 1#16 = 1#16) (hb : bitSteps b 1#16 = 1#16) :
    bitSteps (b % a) 1#16 = 1#16 := by
  have h := Nat.div_add_mod b a
  rw [← h, bitSteps_add, period_mul a _ ha] at hb
  exact hb

theorem period_gcd (a b : Nat) (ha : bitSteps a 1#16 = 1#16) (hb : bitSteps b 1#16 = 1#16) :
    bitSteps (Nat.gcd a b) 1#16 = 1#16 := by
  induction a, b using Nat.gcd.induction with
  | H0 n => simpa using hb
  | H1 m n hm ih =>
    rw [Nat.gcd_rec]
    exact ih (period_mod m n ha hb) ha

/-- A proper divisor of 32767 = 7 * 31 * 151 divides 4681, 1057 or 217. -/
theorem proper_divisor (g : Nat) (h : g ∣ 32767) (hlt : g < 32767) : g ∣ 4681 ∨ g ∣ 1057 ∨ g ∣ 217 := by
  obtain ⟨q, hq⟩ := h
  have hall : ∀ q : Fin 152, 1 < q.val → 32767 % q.val = 0 → (q.val % 7 = 0 ∨ q.val % 31 = 0 ∨ q.val % 151 = 0) := by
    decide +kernel
  have hall2 : ∀ g : Fin 216, 0 < g.val → 32767 % g.val = 0 → (4681 % g.val = 0 ∨ 1057 % g.val = 0 ∨ 217 % g.val = 0) := by
    decide +kernel
  have hg0 : 0 < g := by
    rcases Nat.eq_zero_or_pos g with h | h
    · subst h; omega
    · exact h
  by_cases hs : g < 216
  · have := hall2 ⟨g, hs⟩ hg0 (by show 32767 % g = 0; rw [hq]; exact Nat.mul_mod_right g q)
    rcases this with h | h | h
    · exact Or.inl (Nat.dvd_of_mod_eq_zero h)
    · exact Or.inr (Or.inl (Nat.dvd_of_mod_eq_zero h))
    · exact Or.inr (Or.inr (Nat.dvd_of_mod_eq_zero h))
  · have hq1 : 1 < q := by
      rcases Nat.lt_or_ge 1 q with h | h
      · exact h
      · have : g * q ≤ g * 1 := Nat.mul_le_mul_left g h
        omega
    have hq2 : q < 152 := by
      rcases Nat.lt_or_ge q 152 with h | h
      · exact h
      · have : 216 * 152 ≤ g * q := Nat.mul_le_mul (by omega) h
        omega
    have := hall ⟨q, hq2⟩ hq1 (by show 32767 % q = 0; rw [hq]; exact Nat.mul_mod_left g q)
    rcases this with h | h | h <;> obtain ⟨t, ht⟩ := Nat.dvd_of_mod_eq_zero h <;> simp only at ht
    · left; exact ⟨t, by rw [ht] at hq; rw [Nat.mul_left_comm] at hq; omega⟩
    · right; left; exact ⟨t, by rw [ht] at hq; rw [Nat.mul_left_comm] at hq; omega⟩
    · right; right; exact ⟨t, by rw [ht] at hq; rw [Nat.mul_left_comm] at hq; omega⟩

theorem no_short_period (d : Nat) (h0 : 0 < d) (h : d < 32767) : bitSteps d 1#16 ≠ 1#16 := by
  intro hd
  have hg := period_gcd d 32767 hd period
  have hlt : Nat.gcd d 32767 < 32767 := Nat.lt_of_le_of_lt (Nat.gcd_le_left _ h0) h
  rcases proper_divisor _ (Nat.gcd_dvd_right d 32767) hlt with ⟨k, hk⟩ | ⟨k, hk⟩ | ⟨k, hk⟩
  · exact no_period_4681 (by rw [hk]; exact period_mul _ _ hg)
  · exact no_period_1057 (by rw [hk]; exact period_mul _ _ hg)
  · exact no_period_217 (by rw [hk]; exact period_mul _ _ hg)

theorem all_false_eq (e : List Bool) (h : ∀ j, e.getD j false = false) : e = List.replicate e.length false := by
  rw [List.eq_replicate_iff]
  refine ⟨rfl, ?_⟩
  intro b hb
  obtain ⟨k, hk, rfl⟩ := List.mem_iff_getElem.mp hb
  have := h k
  simpa [List.getD_eq_getElem?_getD, hk] using this

theorem two_bits_nonzero (e : List Bool) (i k : Nat) (hik : i < k) (hd : k - i < 32767)
    (he : ∀ j, e.getD j false = (decide (j = i) || decide (j = k))) : feed 0#16 e ≠ 0#16 := by
  have hklen : k < e.length := by
    rcases Nat.lt_or_ge k e.length with h | h
    · exact h
    · have := he k
      simp [List.getD_eq_getElem?_getD, h] at this
  have hget : ∀ j, (h : j < e.length) → e[j] = (decide (j = i) || decide (j = k)) := by
    intro j h
    have := he j
    simpa [List.getD_eq_getElem?_getD, h] using this
  have hsplit : e = List.replicate i false ++ (true :: (List.replicate (k - i - 1) false ++
      (true :: List.replicate (e.length - k - 1) false))) := by
    apply List.ext_getElem
    · simp; omega
    · intro j hj hj'
      rw [hget j hj]
      rw [List.getElem_append]
      split
      · rename_i h
        simp at h
        simp; omega
      · rename_i h
        simp at h
        rw [List.getElem_cons]
        split
        · rename_i h2
          simp at h2
          simp; omega
        · rename_i h2
          simp at h2
          rw [List.getElem_append]
          split
          · rename_i h3
            simp at h3
            simp; omega
          · rename_i h3
            simp at h3
            rw [List.getElem_cons]
            split
            · rename_i h4
              simp at h4
              simp; omega
            · rename_i h4
              simp at h4
              simp; omega
  rw [hsplit]
  intro h0
  rw [feed_append, feed_zeros, bitSteps_zero, feed, feed_append, feed_zeros, feed, feed_zeros] at h0
  have h1 := bitStep_eq_zero (bitSteps_eq_zero h0)
  have h2 : bitSteps (k - i - 1) (bitStep (0#16 ^^^ bit16 true)) = bitSteps (k - i) 1#16 := by
    have : k - i = (k - i - 1) + 1 := by omega
    rw [this]; simp [bitSteps, bit16]
  rw [h2] at h1
  apply no_short_period (k - i) (by omega) hd
  have h3 := congrArg (· ^^^ 1#16) h1
  simpa [bit16, BitVec.xor_assoc] using h3

end Verif.Crc16
