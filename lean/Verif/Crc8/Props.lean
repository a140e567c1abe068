import Verif.Crc8.Model

/-!
# C157: what the CRC-8 detects
-/

namespace Verif.Crc8

/-- The eight steps of a byte. -/
abbrev T (x : BitVec 8) : BitVec 8 := bitSteps 8 x

theorem bitStep_xor (a b : BitVec 8) : bitStep (a ^^^ b) = bitStep a ^^^ bitStep b := by
  unfold bitStep
  rw [BitVec.getLsbD_xor, BitVec.shiftLeft_xor_distrib]
  cases a.getLsbD 7 <;> cases b.getLsbD 7
  · rfl
  · show (a <<< 1 ^^^ b <<< 1) ^^^ 0x07#8 = a <<< 1 ^^^ (b <<< 1 ^^^ 0x07#8)
    rw [BitVec.xor_assoc]
  · show (a <<< 1 ^^^ b <<< 1) ^^^ 0x07#8 = (a <<< 1 ^^^ 0x07#8) ^^^ b <<< 1
    rw [BitVec.xor_assoc, BitVec.xor_assoc, BitVec.xor_comm (b <<< 1)]
  · show (a <<< 1 ^^^ b <<< 1) = (a <<< 1 ^^^ 0x07#8) ^^^ (b <<< 1 ^^^ 0x07#8)
    rw [BitVec.xor_assoc, ← BitVec.xor_assoc 0x07#8, BitVec.xor_comm 0x07#8, BitVec.xor_assoc (b <<< 1),
      BitVec.xor_self, BitVec.xor_zero]

theorem T_xor (a b : BitVec 8) : T (a ^^^ b) = T a ^^^ T b := by
  simp only [T, bitSteps, bitStep_xor]

theorem T_zero_iff : ∀ x : BitVec 8, T x = 0#8 → x = 0#8 := by decide +kernel

theorem xor_eq_zero (a b : BitVec 8) : a ^^^ b = 0#8 ↔ a = b := BitVec.xor_eq_zero_iff

theorem T_inj (a b : BitVec 8) (h : T a = T b) : a = b := by
  apply (xor_eq_zero a b).1
  apply T_zero_iff
  rw [T_xor, h]
  exact BitVec.xor_self

theorem xor_right_inj (a b c : BitVec 8) (h : a ^^^ c = b ^^^ c) : a = b := by
  have := congrArg (· ^^^ c) h
  simpa [BitVec.xor_assoc] using this

theorem xor_left_inj (a b c : BitVec 8) (h : c ^^^ a = c ^^^ b) : a = b :=
  xor_right_inj a b c (by rw [BitVec.xor_comm a, BitVec.xor_comm b]; exact h)

/-- Different states stay different through the same bytes. -/
theorem rest_inj (m : List (BitVec 8)) (c d : BitVec 8) (h : m.foldl update c = m.foldl update d) :
    c = d := by
  induction m generalizing c d with
  | nil => exact h
  | cons a m ih => exact xor_right_inj _ _ a (T_inj _ _ (ih _ _ h))

/-! ## The claims -/

/-- A message followed by a byte passes the check against zero exactly when the
byte is its CRC. -/
theorem appended_iff (m : List (BitVec 8)) (x : BitVec 8) :
    crc8 (m ++ [x]) = 0#8 ↔ x = crc8 m := by
  unfold crc8
  rw [List.foldl_append]
  show T (m.foldl update 0#8 ^^^ x) = 0#8 ↔ _
  constructor
  · intro h
    exact ((xor_eq_zero _ _).1 (T_zero_iff _ h)).symm
  · intro h
    rw [h, BitVec.xor_self]
    decide

/-- Any change of one byte, anywhere in a message of any length, is detected. -/
theorem one_byte_detected (p s : List (BitVec 8)) (a b : BitVec 8) (h : a ≠ b) :
    crc8 (p ++ a :: s) ≠ crc8 (p ++ b :: s) := by
  intro e
  unfold crc8 at e
  rw [List.foldl_append, List.foldl_append] at e
  exact h (xor_left_inj _ _ _ (T_inj _ _ (rest_inj s _ _ e)))

example : crc8 ([1, 2] ++ 3 :: [4, 5]) ≠ crc8 ([1, 2] ++ 131 :: [4, 5]) :=
  one_byte_detected _ _ _ _ (by decide)

/-- A burst of at most eight bits over the border of two bytes: the last `8 - j`
bits of one and the first `j` of the next, as given by the pattern `e`. -/
theorem burst_pattern : ∀ j : Fin 9, ∀ e : BitVec 8,
    T (e >>> j.val) = e <<< (8 - j.val) → e = 0#8 := by decide +kernel

/-- Any burst of flipped bits no longer than eight, also over the border of two
bytes, anywhere in a message of any length, is detected. -/
theorem burst_detected (p s : List (BitVec 8)) (a b e : BitVec 8) (j : Nat) (hj : j ≤ 8)
    (he : e ≠ 0#8) :
    crc8 (p ++ (a ^^^ (e >>> j)) :: (b ^^^ (e <<< (8 - j))) :: s) ≠ crc8 (p ++ a :: b :: s) := by
  intro h
  unfold crc8 at h
  rw [List.foldl_append, List.foldl_append] at h
  have h1 := T_inj _ _ (rest_inj s _ _ h)
  generalize p.foldl update 0#8 = c at h1
  have h2 : update c (a ^^^ (e >>> j)) = update c a ^^^ T (e >>> j) := by
    show T (c ^^^ (a ^^^ (e >>> j))) = T (c ^^^ a) ^^^ T (e >>> j)
    rw [← BitVec.xor_assoc, T_xor]
  rw [h2] at h1
  generalize update c a = u at h1
  have h3 : T (e >>> j) ^^^ e <<< (8 - j) = 0#8 := by
    have h4 : (u ^^^ b) ^^^ (T (e >>> j) ^^^ e <<< (8 - j)) = (u ^^^ b) ^^^ 0#8 := by
      rw [BitVec.xor_zero]
      refine Eq.trans ?_ h1
      ac_rfl
    exact xor_left_inj _ _ _ h4
  exact he (burst_pattern ⟨j, by omega⟩ e ((xor_eq_zero _ _).1 h3))

example : crc8 ([7#8] ++ (0x10#8 ^^^ (0xC1#8 >>> 3)) :: (0x22#8 ^^^ (0xC1#8 <<< (8 - 3))) :: [9#8]) ≠
    crc8 ([7#8] ++ 0x10#8 :: 0x22#8 :: [9#8]) :=
  burst_detected [7] [9] 0x10#8 0x22#8 0xC1#8 3 (by decide) (by decide)

/-! ### An odd number of flipped bits -/

/-- Whether an odd number of bits of the byte is set. -/
def odd (x : BitVec 8) : Bool :=
  x.getLsbD 0 ^^ x.getLsbD 1 ^^ x.getLsbD 2 ^^ x.getLsbD 3 ^^ x.getLsbD 4 ^^ x.getLsbD 5 ^^
    x.getLsbD 6 ^^ x.getLsbD 7

/-- Whether the two messages differ in an odd number of bits. -/
def oddDiff : List (BitVec 8) → List (BitVec 8) → Bool
  | a :: m, b :: n => odd (a ^^^ b) ^^ oddDiff m n
  | _, _ => false

theorem odd_T : ∀ x : BitVec 8, odd (T x) = odd x := by decide +kernel

theorem odd_xor (a b : BitVec 8) : odd (a ^^^ b) = (odd a ^^ odd b) := by
  have h : ∀ p q x y : Bool, ((p ^^ q) ^^ (x ^^ y)) = ((p ^^ x) ^^ (q ^^ y)) := by decide
  unfold odd
  simp only [BitVec.getLsbD_xor]
  rw [h _ _ (a.getLsbD 1) (b.getLsbD 1), h _ _ (a.getLsbD 2) (b.getLsbD 2),
    h _ _ (a.getLsbD 3) (b.getLsbD 3), h _ _ (a.getLsbD 4) (b.getLsbD 4),
    h _ _ (a.getLsbD 5) (b.getLsbD 5), h _ _ (a.getLsbD 6) (b.getLsbD 6),
    h _ _ (a.getLsbD 7) (b.getLsbD 7)]

theorem odd_fold (m n : List (BitVec 8)) (c d : BitVec 8) (h : m.length = n.length) :
    odd (m.foldl update c ^^^ n.foldl update d) = (odd (c ^^^ d) ^^ oddDiff m n) := by
  induction m generalizing n c d with
  | nil =>
    cases n with
    | nil => simp [oddDiff]
    | cons b n => cases h
  | cons a m ih =>
    cases n with
    | nil => cases h
    | cons b n =>
      rw [List.foldl_cons, List.foldl_cons, ih n _ _ (Nat.succ.inj h)]
      have : odd (update c a ^^^ update d b) = (odd (c ^^^ d) ^^ odd (a ^^^ b)) := by
        show odd (T (c ^^^ a) ^^^ T (d ^^^ b)) = _
        rw [← T_xor, odd_T, odd_xor, odd_xor, odd_xor, odd_xor, odd_xor]
        cases odd c <;> cases odd a <;> cases odd d <;> cases odd b <;> rfl
      rw [this]
      simp only [oddDiff]
      rw [Bool.xor_assoc]

/-- Any odd number of flipped bits, anywhere, is detected. -/
theorem odd_flips_detected (m n : List (BitVec 8)) (h : m.length = n.length)
    (ho : oddDiff m n = true) : crc8 m ≠ crc8 n := by
  intro e
  have := odd_fold m n 0#8 0#8 h
  unfold crc8 at e
  rw [e, BitVec.xor_self, BitVec.xor_self, ho] at this
  revert this
  decide

example : crc8 [0x01, 0x80, 0x10] ≠ crc8 [0x00, 0x00, 0x00] :=
  odd_flips_detected _ _ rfl (by decide)

/-! ### What it does not detect -/

/-- The full claim: messages of different content have different CRC unless they
have the same number of bytes. -/
def LengthDetected : Prop :=
  ∀ m n : List (BitVec 8), m.length ≠ n.length → crc8 m ≠ crc8 n

/-- Zero bytes in front of a message change nothing. -/
theorem leading_zeros_violation (k : Nat) (m : List (BitVec 8)) :
    crc8 (List.replicate k 0#8 ++ m) = crc8 m := by
  unfold crc8
  rw [List.foldl_append]
  congr 1
  induction k with
  | zero => rfl
  | succ k ih =>
    rw [List.replicate_succ, List.foldl_cons]
    rw [show update 0#8 0#8 = 0#8 by decide]
    exact ih

/-- A block of zeros of any length, such as erased memory of some chips, passes
the check with a CRC of zero. -/
theorem zeros_pass_violation (k : Nat) : crc8 (List.replicate k 0#8) = 0#8 := by
  have := leading_zeros_violation k []
  rw [List.append_nil] at this
  exact this

theorem length_violation : ¬ LengthDetected := by
  intro h
  exact h [0#8] [] (by decide) (by decide)

end Verif.Crc8
