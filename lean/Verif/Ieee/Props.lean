/-!
# C110: readings as 64-bit numbers on boards without them

On AVR boards `double` has 32 bits; a reading (temperature, distance, pressure, weight…) is put into the
eight bytes of a channel value by `float2DoublePacked`. Models `/repo/src/supla/tools.cpp:29-64` with the
bit fields of `/repo/src/supla/IEEE754tools.h:18-48` and its caller
`/repo/src/supla/channels/channel.cpp:149-155`.

Simplifications: the bit fields of `_FLOATCONV` and `_DBLCONV` lie in the order and without the gaps they
have on AVR (avr-gcc, which aligns to bytes). `_DBLCONV dbl;` is not initialised (line 33): the 29 bits of
`filler` are whatever is on the stack, hence an argument of the model.
-/

namespace Verif.Ieee

/-! ### Specification: the two formats of IEEE 754 -/

/-- What the bits of a floating point number say. A finite number is given by its sign and its magnitude
as a multiple of `2^-1074`, the smallest number of the 64-bit format; every number of either format is
such a multiple. -/
inductive Meaning where
  | finite (neg : Bool) (magnitude : Nat)
  | inf (neg : Bool)
  | nan
  deriving DecidableEq, Repr

/-- IEEE 754 binary32, from its 32 bits: sign, 8 bits of exponent, 23 of fraction. `2^-149`, the smallest
number, is `2^925` times `2^-1074`. -/
def single (b : Nat) : Meaning :=
  let neg := decide (b / 2 ^ 31 % 2 = 1)
  let e := b / 2 ^ 23 % 2 ^ 8
  let m := b % 2 ^ 23
  if e = 255 then (if m = 0 then .inf neg else .nan)
  else if e = 0 then .finite neg (m * 2 ^ 925)
  else .finite neg ((2 ^ 23 + m) * 2 ^ (e - 1) * 2 ^ 925)

/-- IEEE 754 binary64, from its 64 bits: sign, 11 bits of exponent, 52 of fraction. -/
def double (b : Nat) : Meaning :=
  let neg := decide (b / 2 ^ 63 % 2 = 1)
  let e := b / 2 ^ 52 % 2 ^ 11
  let m := b % 2 ^ 52
  if e = 2047 then (if m = 0 then .inf neg else .nan)
  else if e = 0 then .finite neg m
  else .finite neg ((2 ^ 52 + m) * 2 ^ (e - 1))

example : single 0x3F800000 = .finite false (2 ^ 1074) ∧ double 0x3FF0000000000000 = .finite false (2 ^ 1074) ∧
    double 0xC000000000000000 = .finite true (2 ^ 1075) ∧ single 0x7FC00000 = .nan := by
  decide +kernel

/-! ### Model -/

/-- `_FLOATCONV`, `IEEE754tools.h:18-29`. -/
structure Fl where
  s : Nat
  e : Nat
  m : Nat
  deriving DecidableEq, Repr

/-- The fields of the 32 bits of a float. -/
def Fl.of (b : Nat) : Fl := ⟨b / 2 ^ 31 % 2, b / 2 ^ 23 % 2 ^ 8, b % 2 ^ 23⟩

/-- The bits of the fields. -/
def Fl.bits (f : Fl) : Nat := f.m + f.e * 2 ^ 23 + f.s * 2 ^ 31

/-- `_DBL`, `IEEE754tools.h:34-39`. -/
structure Db where
  filler : Nat
  m : Nat
  e : Nat
  s : Nat
  deriving DecidableEq, Repr

/-- The bits of the fields. -/
def Db.bits (d : Db) : Nat := d.filler + d.m * 2 ^ 29 + d.e * 2 ^ 52 + d.s * 2 ^ 63

/-- The fields of 64 bits. -/
def Db.of (b : Nat) : Db := ⟨b % 2 ^ 29, b / 2 ^ 29 % 2 ^ 23, b / 2 ^ 52 % 2 ^ 11, b / 2 ^ 63 % 2⟩

/-- `float2DoublePacked`, `tools.cpp:29-51` (without `IEEE754_ENABLE_MSB`): the 64 bits of the eight bytes,
lowest byte first. `fill` is what was in the 29 bits of `filler`. -/
def pack (fill : Nat) (b : Nat) : Nat :=
  Db.bits { filler := fill, m := (Fl.of b).m, e := ((Fl.of b).e + 1023 - 127) % 2 ^ 11, s := (Fl.of b).s }

/-- `doublePacked2float`, `tools.cpp:53-64`: `e` has eight bits, `dbl.p.e + 127 - 1023` is taken modulo
256. -/
def unpack (b : Nat) : Nat :=
  Fl.bits { s := (Db.of b).s, m := (Db.of b).m, e := ((Db.of b).e + 2 ^ 8 * 4 + 127 - 1023) % 2 ^ 8 }

/-! ### The fields of what is packed -/

theorem pack_fields (fill b : Nat) (hf : fill < 2 ^ 29) :
    pack fill b / 2 ^ 63 % 2 = b / 2 ^ 31 % 2 ∧ pack fill b / 2 ^ 52 % 2 ^ 11 = b / 2 ^ 23 % 2 ^ 8 + 896 ∧
    pack fill b % 2 ^ 52 = b % 2 ^ 23 * 2 ^ 29 + fill ∧ pack fill b / 2 ^ 29 % 2 ^ 23 = b % 2 ^ 23 ∧
    pack fill b < 2 ^ 64 := by
  unfold pack Db.bits Fl.of
  dsimp only
  have h1 : b / 2 ^ 31 % 2 < 2 := Nat.mod_lt _ (by decide)
  have h2 : b / 2 ^ 23 % 2 ^ 8 < 2 ^ 8 := Nat.mod_lt _ (by decide)
  have h3 : b % 2 ^ 23 < 2 ^ 23 := Nat.mod_lt _ (by decide)
  generalize b / 2 ^ 31 % 2 = s at *
  generalize b / 2 ^ 23 % 2 ^ 8 = e at *
  generalize b % 2 ^ 23 = m at *
  simp only [Nat.reducePow] at *
  have he : (e + 1023 - 127) % 2048 = e + 896 := by omega
  rw [he]
  omega

/-- **C110 (there and back).** What is packed and read back is the same float, bit for bit, whatever is in
the bits not set. -/
theorem there_and_back (fill b : Nat) (hf : fill < 2 ^ 29) (hb : b < 2 ^ 32) : unpack (pack fill b) = b := by
  obtain ⟨h1, h2, _, h4, _⟩ := pack_fields fill b hf
  unfold unpack Fl.bits Db.of
  dsimp only
  rw [h1, h2, h4]
  simp only [Nat.reducePow] at *
  omega

example : unpack (pack 12345 0x41B80000) = 0x41B80000 := by decide +kernel

/-! ### What the server reads -/

/-- The wished-for meaning: the server reads the reading. -/
def SameNumber : Prop := ∀ fill b, fill < 2 ^ 29 → b < 2 ^ 32 → double (pack fill b) = single b

/-- **C110 is false of the code**: the float 0 is sent as `2^-127`, or nearby, whatever is on the stack;
never as 0. -/
theorem zero_violation : ¬ SameNumber := by
  intro h
  have := h 0 0 (by decide) (by decide)
  revert this
  decide +kernel

/-- **C110 (zero).** The reading 0 is never sent as 0. -/
theorem zero_never (fill : Nat) (hf : fill < 2 ^ 29) : double (pack fill 0) = .finite false ((2 ^ 52 + fill) * 2 ^ 895) := by
  obtain ⟨h1, h2, h3, _, _⟩ := pack_fields fill 0 hf
  unfold double
  dsimp only
  rw [h1, h2, h3]
  simp

/-- **C110 (not available).** A reading that is not a number (the sensor is not available) is sent as a
number above `2^128`: the server never learns that there is no reading. -/
theorem nan_never (fill b : Nat) (hf : fill < 2 ^ 29) (h : single b = .nan) :
    ∃ neg mag, double (pack fill b) = .finite neg mag ∧ 2 ^ (128 + 1074) ≤ mag := by
  obtain ⟨h1, h2, h3, _, _⟩ := pack_fields fill b hf
  have he : b / 2 ^ 23 % 2 ^ 8 = 255 := by
    unfold single at h
    dsimp only at h
    split at h
    · assumption
    · split at h <;> cases h
  unfold double
  dsimp only
  rw [h1, h2, h3, he]
  rw [if_neg (show ¬ (255 + 896 = 2047) by omega), if_neg (show ¬ (255 + 896 = 0) by omega)]
  refine ⟨_, _, rfl, ?_⟩
  rw [show (255 + 896 - 1 : Nat) = 1150 by omega, show (2 : Nat) ^ (128 + 1074) = 2 ^ 52 * 2 ^ 1150 by rw [← Nat.pow_add]]
  exact Nat.mul_le_mul_right _ (by omega)

example : single 0x7FC00000 = .nan := by decide +kernel

theorem regroup (a x y z : Nat) : a * x * (z * y) = a * z * (x * y) := by
  rw [Nat.mul_assoc, Nat.mul_assoc, Nat.mul_left_comm x]

theorem scale (a e : Nat) (h : e ≠ 0) : a * 2 ^ (e - 1) * 2 ^ 925 = a * 2 ^ 29 * 2 ^ (e + 896 - 1) :=
  have h1 : 2 ^ (e + 896 - 1) = 2 ^ (e - 1) * 2 ^ 896 :=
    (congrArg (fun n => 2 ^ n) (show e + 896 - 1 = (e - 1) + 896 by omega)).trans (Nat.pow_add 2 (e - 1) 896)
  have h2 : 2 ^ 925 = 2 ^ 29 * 2 ^ 896 := Nat.pow_add 2 29 896
  (congrArg (fun x => a * 2 ^ (e - 1) * x) h2).trans
    ((regroup a (2 ^ (e - 1)) (2 ^ 896) (2 ^ 29)).trans (congrArg (fun x => a * 2 ^ 29 * x) h1.symm))

/-- **C110 (readings, partial).** Every normal number (all but 0, the numbers below `2^-126`, the
infinities and "not a number") is sent with its sign and a magnitude from the right one up to one unit in
the last place of the 32-bit format above it; exactly if the unset bits are 0. Missing: 0, "not a number"
and exactness. -/
theorem normal_partial (fill b : Nat) (hf : fill < 2 ^ 29) (h0 : b / 2 ^ 23 % 2 ^ 8 ≠ 0)
    (h255 : b / 2 ^ 23 % 2 ^ 8 ≠ 255) :
    ∃ neg mag mag', single b = .finite neg mag ∧ double (pack fill b) = .finite neg mag' ∧
      mag ≤ mag' ∧ (mag' - mag) * 2 ^ 23 ≤ mag ∧ (fill = 0 ↔ mag' = mag) := by
  obtain ⟨h1, h2, h3, _, _⟩ := pack_fields fill b hf
  have h8 : b / 2 ^ 23 % 2 ^ 8 < 2 ^ 8 := Nat.mod_lt _ (by decide)
  unfold single double
  dsimp only
  rw [h1, h2, h3]
  generalize b / 2 ^ 23 % 2 ^ 8 = e at *
  generalize b % 2 ^ 23 = m at *
  generalize b / 2 ^ 31 % 2 = s at *
  rw [if_neg h255, if_neg h0, if_neg (show ¬ (e + 896 = 2047) by simp only [Nat.reducePow] at h8; omega), if_neg (show ¬ (e + 896 = 0) by omega)]
  refine ⟨_, _, _, rfl, rfl, ?_⟩
  have hm := scale (2 ^ 23 + m) e h0
  rw [hm]
  have hp : 0 < (2 : Nat) ^ (e + 896 - 1) := Nat.pow_pos (by decide)
  generalize (2 : Nat) ^ (e + 896 - 1) = u at *
  have hsum : (2 ^ 52 + (m * 2 ^ 29 + fill)) * u = (2 ^ 23 + m) * 2 ^ 29 * u + fill * u := by
    have h : 2 ^ 52 + (m * 2 ^ 29 + fill) = (2 ^ 23 + m) * 2 ^ 29 + fill := by
      simp only [Nat.reducePow]
      omega
    exact (congrArg (fun x => x * u) h).trans (Nat.add_mul _ _ _)
  rw [hsum]
  refine ⟨Nat.le_add_right _ _, ?_, ?_⟩
  · rw [Nat.add_sub_cancel_left, Nat.mul_right_comm]
    apply Nat.mul_le_mul_right
    simp only [Nat.reducePow] at *
    omega
  · constructor
    · intro h; rw [h]; simp
    · intro h
      have : fill * u = 0 := by omega
      rcases Nat.mul_eq_zero.mp this with h | h
      · exact h
      · omega

example : (0x41B80000 : Nat) / 2 ^ 23 % 2 ^ 8 ≠ 0 ∧ (0x41B80000 : Nat) / 2 ^ 23 % 2 ^ 8 ≠ 255 := by decide

/-- The wished-for quietness: the same reading twice is no change of the channel (`setNewValue` of the
eight bytes, `channel.cpp:155`, compares them). -/
def SameBytes : Prop := ∀ fill fill' b, fill < 2 ^ 29 → fill' < 2 ^ 29 → b < 2 ^ 32 → pack fill b = pack fill' b

/-- **C110 is false of the code**: with something else on the stack the same reading is a new value. -/
theorem same_violation : ¬ SameBytes := by
  intro h
  have := h 0 1 0x41B80000 (by decide) (by decide) (by decide)
  revert this
  decide +kernel

/-- **C110 (a change is seen).** Two different readings never give the same bytes. -/
theorem change_seen (fill fill' b b' : Nat) (hf : fill < 2 ^ 29) (hf' : fill' < 2 ^ 29) (hb : b < 2 ^ 32)
    (hb' : b' < 2 ^ 32) (h : pack fill b = pack fill' b') : b = b' := by
  rw [← there_and_back fill b hf hb, ← there_and_back fill' b' hf' hb', h]

/-! ### Numbers of other origin -/

/-- The wished-for reading back (`Channel::getValueDouble` on these boards): a 64-bit number that is a
32-bit one is read as that. -/
def ReadsSingles : Prop := ∀ b, b < 2 ^ 64 → ∀ neg mag, double b = .finite neg mag →
  (∃ c, c < 2 ^ 32 ∧ single c = .finite neg mag) → single (unpack b) = .finite neg mag

/-- **C110 is false of the code**: the eight zero bytes of a channel that has no value yet are read as
2. -/
theorem read_violation : ¬ ReadsSingles := by
  intro h
  have := h 0 (by decide) false 0 (by decide +kernel) ⟨0, by decide, by decide +kernel⟩
  revert this
  decide +kernel

end Verif.Ieee
