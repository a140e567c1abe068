import Verif.Tools.Model

/-!
# C31: bytes survive hexadecimal text

Every byte string written as hexadecimal text and read back is unchanged; the text has exactly the
documented size and nothing outside it is written.
-/

namespace Verif.Tools

/-! ## Specification -/

/-- The memory `m` with the bytes `xs` written from the index `d` on. -/
def splice (m : Mem) (d : Nat) (xs : List Nat) : Mem := m.take d ++ xs ++ m.drop (d + xs.length)

/-- The hexadecimal text of a byte string; the separator 0 stands for no separator. -/
def hexText (sep : Nat) : List Nat → List Nat
  | [] => []
  | [b] => [hexDigit (b / 16), hexDigit (b % 16)]
  | b :: c :: bs =>
    hexDigit (b / 16) :: hexDigit (b % 16) :: (if sep = 0 then [] else [sep]) ++ hexText sep (c :: bs)

/-- The digits are the usual ones. -/
theorem hexDigit_spec : ∀ n < 16, ("0123456789ABCDEF".toList.map Char.toNat)[n]? = some (hexDigit n) := by
  decide

/-- Both cases of letters have the usual values, and everything else counts as zero. -/
theorem hexVal_spec :
    ("0123456789ABCDEFabcdef".toList.map (fun c => hexVal c.toNat)
      = [0, 1, 2, 3, 4, 5, 6, 7, 8, 9, 10, 11, 12, 13, 14, 15, 10, 11, 12, 13, 14, 15]) ∧
    ∀ c, c ∉ "0123456789ABCDEFabcdef".toList.map Char.toNat → hexVal c = 0 := by
  refine ⟨by decide, ?_⟩
  intro c hc
  simp at hc
  unfold hexVal
  repeat' split
  all_goals omega

/-- Value of a text of hexadecimal digits: every digit counts 16 times the following one. -/
def hexNumber : List Nat → Nat
  | [] => 0
  | c :: s => hexVal c * 16 ^ s.length + hexNumber s

/-- The byte strings of the API: numbers below 256. -/
abbrev Bytes (xs : List Nat) : Prop := ∀ b ∈ xs, b < 256

/-! ## Memory -/

theorem splice_nil (m : Mem) (d : Nat) : splice m d [] = m := by
  simp [splice]

theorem length_splice (m : Mem) (d : Nat) (xs : List Nat) (h : d + xs.length ≤ m.length) :
    (splice m d xs).length = m.length := by
  simp [splice]; omega

theorem put_eq (m : Mem) (d v : Nat) (h : d < m.length) : put m d v = some (splice m d [v]) := by
  unfold put splice
  rw [if_pos h, List.set_eq_take_append_cons_drop, if_pos h]
  simp

theorem put_none (m : Mem) (d v : Nat) (h : m.length ≤ d) : put m d v = none := by
  unfold put; rw [if_neg (by omega)]

theorem splice_splice (m : Mem) (d : Nat) (xs ys : List Nat) {e : Nat} (he : e = d + xs.length)
    (h : d + xs.length ≤ m.length) : splice (splice m d xs) e ys = splice m d (xs ++ ys) := by
  subst he
  apply List.ext_getElem?
  intro i
  simp only [splice, List.getElem?_append, List.getElem?_drop, List.getElem?_take, List.length_append,
    List.length_take, List.length_drop]
  grind

/-- A later write at the same place hides an earlier one that is not longer. -/
theorem splice_over (m : Mem) (d : Nat) (xs ys : List Nat) (hl : xs.length ≤ ys.length)
    (h : d + xs.length ≤ m.length) : splice (splice m d xs) d ys = splice m d ys := by
  apply List.ext_getElem?
  intro i
  simp only [splice, List.getElem?_append, List.getElem?_drop, List.getElem?_take, List.length_append,
    List.length_take, List.length_drop]
  grind

/-! ## Writing hexadecimal text -/

/-- The text of the bytes after the first `i`, with the separator in front of each. -/
def hexTail (sep : Nat) (first : Bool) : List Nat → List Nat
  | [] => []
  | b :: bs =>
    (if !first && sep != 0 then [sep] else []) ++ [hexDigit (b / 16), hexDigit (b % 16)] ++ hexTail sep false bs

theorem hexTail_true (sep : Nat) (bs : List Nat) : hexTail sep true bs = hexText sep bs := by
  induction bs with
  | nil => rfl
  | cons b bs ih =>
    cases bs with
    | nil => simp [hexTail, hexText]
    | cons c cs =>
      rw [hexText, ← ih]
      by_cases h : sep = 0 <;> simp [hexTail, h]

/-- The separator in front of a byte. -/
def sepText (sep : Nat) (first : Bool) : List Nat := if !first && sep != 0 then [sep] else []

theorem putSep_eq (sep : Nat) (first : Bool) (m : Mem) (d : Nat) (h : d + (sepText sep first).length ≤ m.length) :
    putSep sep first m d = some (splice m d (sepText sep first), d + (sepText sep first).length) := by
  unfold putSep
  unfold sepText at h ⊢
  split <;> rename_i hs
  · rw [if_pos hs] at h
    simp at h
    rw [put_eq m d _ (by omega)]; simp
  · simp [splice_nil]

theorem hexTail_cons (sep : Nat) (first : Bool) (b : Nat) (bs : List Nat) :
    hexTail sep first (b :: bs)
      = sepText sep first ++ [hexDigit (b / 16)] ++ [hexDigit (b % 16)] ++ hexTail sep false bs := by
  simp [hexTail, sepText]

theorem hexLoop_eq (sep : Nat) (bs : List Nat) (hb : Bytes bs) (first : Bool) (m : Mem) (d : Nat)
    (h : d + (hexTail sep first bs).length ≤ m.length) :
    hexLoop sep first bs m d
      = some (splice m d (hexTail sep first bs), d + (hexTail sep first bs).length) := by
  induction bs generalizing first m d with
  | nil => simp [hexLoop, hexTail, splice_nil]
  | cons b bs ih =>
    have hb1 : b < 256 := hb b (by simp)
    have hb2 : Bytes bs := fun x hx => hb x (by simp [hx])
    have hc : (if b / 16 > 15 then 15 else b / 16) = b / 16 := by split <;> omega
    rw [hexTail_cons] at h ⊢
    simp only [List.length_append, List.length_cons, List.length_nil] at h
    simp only [hexLoop, hc]
    rw [putSep_eq sep first m d (by omega)]
    simp only [Option.bind_eq_bind, Option.bind_some]
    rw [put_eq _ _ _ (by rw [length_splice _ _ _ (by omega)]; omega)]
    simp only [Option.bind_some]
    rw [splice_splice m d _ _ (by rfl) (by omega)]
    rw [put_eq _ _ _ (by rw [length_splice _ _ _ (by simp; omega)]; omega)]
    simp only [Option.bind_some]
    rw [splice_splice m d _ _ (by simp; omega) (by simp; omega)]
    rw [ih hb2 false _ _ (by rw [length_splice _ _ _ (by simp; omega)]; omega)]
    rw [splice_splice m d _ _ (by simp; omega) (by simp; omega)]
    simp
    omega

theorem put_length {m m' : Mem} {d v : Nat} (h : put m d v = some m') : m'.length = m.length ∧ d < m.length := by
  unfold put at h
  split at h
  · injection h with h; subst h; simp; assumption
  · cases h

theorem hexLoop_fit {sep : Nat} {bs : List Nat} {first : Bool} {m m' : Mem} {d d' : Nat}
    (h : hexLoop sep first bs m d = some (m', d')) :
    m'.length = m.length ∧ d' = d + (hexTail sep first bs).length := by
  induction bs generalizing first m d with
  | nil => simp [hexLoop, hexTail] at h ⊢; obtain ⟨h, h'⟩ := h; subst h h'; simp
  | cons b bs ih =>
    simp only [hexLoop, Option.bind_eq_bind, Option.bind_eq_some_iff] at h
    obtain ⟨⟨m1, d1⟩, h1, m2, h2, m3, h3, h4⟩ := h
    have h2 := put_length h2
    have h3 := put_length h3
    have h4 := ih h4
    have h1 : m1.length = m.length ∧ d1 = d + (sepText sep first).length := by
      unfold putSep at h1
      unfold sepText
      split at h1 <;> rename_i hc
      · rw [Option.map_eq_some_iff] at h1
        obtain ⟨m0, h0, h1⟩ := h1
        injection h1 with ha hb
        subst ha hb
        rw [if_pos hc]
        exact ⟨(put_length h0).1, rfl⟩
      · injection h1 with h1; injection h1 with ha hb
        subst ha hb
        rw [if_neg hc]
        exact ⟨rfl, rfl⟩
    rw [hexTail_cons]
    simp only [List.length_append, List.length_cons, List.length_nil]
    dsimp only at h2 h3 h4
    omega

theorem length_hexText (sep : Nat) (bs : List Nat) :
    (hexText sep bs).length = if sep = 0 then 2 * bs.length else 3 * bs.length - 1 := by
  induction bs with
  | nil => simp [hexText]
  | cons b bs ih =>
    cases bs with
    | nil => simp [hexText]
    | cons c cs =>
      simp only [hexText, List.length_append, List.length_cons, ih]
      split <;> simp <;> omega

/-- **C31.** Writing a byte string as hexadecimal text (with or without a separator) writes exactly the
text and the terminating zero into the given memory, nothing else, and gives the length of the text. -/
theorem hex_written (sep : Nat) (bs : List Nat) (hb : Bytes bs) (m : Mem) (d : Nat)
    (h : d + (hexText sep bs).length < m.length) :
    generateHexString bs m d sep
      = some (splice m d (hexText sep bs ++ [0]), d + (hexText sep bs).length) := by
  unfold generateHexString
  rw [← hexTail_true] at h ⊢
  rw [hexLoop_eq sep bs hb true m d (by omega)]
  simp only [Option.bind_eq_bind, Option.bind_some]
  rw [put_eq _ _ _ (by rw [length_splice _ _ _ (by omega)]; omega)]
  simp only [Option.bind_some]
  rw [splice_splice m d _ _ (by simp) (by omega)]

/-- **C31.** The memory needed is exactly the documented one: twice the number of bytes and one more
without a separator, three times the number of bytes (at least one) with one. In a smaller block the
function would write out of bounds. -/
theorem hex_bounds (sep : Nat) (bs : List Nat) (hb : Bytes bs) (m : Mem) :
    (generateHexString bs m 0 sep).isSome
      ↔ (if sep = 0 then 2 * bs.length + 1 else if bs = [] then 1 else 3 * bs.length) ≤ m.length := by
  have hl := length_hexText sep bs
  constructor
  · intro h
    cases hg : generateHexString bs m 0 sep with
    | none => rw [hg] at h; cases h
    | some r =>
      obtain ⟨m', d'⟩ := r
      simp only [generateHexString, Option.bind_eq_bind, Option.bind_eq_some_iff] at hg
      obtain ⟨⟨m1, d1⟩, h1, m2, h2, h3⟩ := hg
      have h1 := hexLoop_fit h1
      rw [hexTail_true] at h1
      have h2 := put_length h2
      cases bs with
      | nil => simp at hl ⊢; dsimp at h1 h2; omega
      | cons b bs =>
        simp at hl ⊢
        dsimp at h1 h2
        split at hl <;> rename_i hs
        · rw [if_pos hs]; omega
        · rw [if_neg hs]; omega
  · intro h
    rw [hex_written sep bs hb m 0]
    · rfl
    · cases bs with
      | nil => simp at hl h ⊢; rw [hl]; exact h
      | cons b bs =>
        simp at hl h ⊢
        split at hl <;> rename_i hs
        · rw [if_pos hs] at h; omega
        · rw [if_neg hs] at h; omega

example : generateHexString [0, 171, 255] (List.replicate 9 7) 0 58
    = some ([48, 48, 58, 65, 66, 58, 70, 70, 0], 8) := by decide +kernel

/-! ## Reading it back -/

theorem hexVal_hexDigit (n : Nat) (h : n < 16) : hexVal (hexDigit n) = n := by
  unfold hexVal hexDigit
  repeat' split
  all_goals omega

theorem byte_back (b : Nat) (h : b < 256) : hexStringToInt [hexDigit (b / 16), hexDigit (b % 16)] % 256 = b := by
  simp only [hexStringToInt, List.foldl_cons, List.foldl_nil]
  rw [hexVal_hexDigit _ (by omega), hexVal_hexDigit _ (by omega)]
  omega

theorem hexVal_lt (c : Nat) : hexVal c < 16 := by
  unfold hexVal; repeat' split
  all_goals omega

theorem hexNumber_lt (s : List Nat) : hexNumber s < 16 ^ s.length := by
  induction s with
  | nil => simp [hexNumber]
  | cons c s ih =>
    simp only [hexNumber, List.length_cons]
    have := hexVal_lt c
    have h2 : hexVal c * 16 ^ s.length ≤ 15 * 16 ^ s.length := Nat.mul_le_mul_right _ (by omega)
    rw [Nat.pow_succ]
    omega

theorem foldl_hex (s : List Nat) (r : Nat) :
    s.foldl (fun r c => (r * 16 + hexVal c) % 2 ^ 32) r % 2 ^ 32 = (r * 16 ^ s.length + hexNumber s) % 2 ^ 32 := by
  induction s generalizing r with
  | nil => simp [hexNumber]
  | cons c s ih =>
    rw [List.foldl_cons, ih]
    simp only [hexNumber, List.length_cons]
    rw [Nat.add_mod, Nat.mul_mod, Nat.mod_mod, ← Nat.mul_mod, ← Nat.add_mod]
    congr 1
    rw [Nat.add_mul, Nat.pow_succ, Nat.mul_assoc, Nat.add_assoc, Nat.mul_comm 16 (16 ^ s.length)]

/-- **C31.** Reading a hexadecimal number gives the number of the digits, modulo 2^32; up to eight
digits it is exact. -/
theorem hex_number (s : List Nat) : hexStringToInt s % 2 ^ 32 = hexNumber s % 2 ^ 32 := by
  unfold hexStringToInt
  rw [foldl_hex]; simp

theorem hex_number_exact (s : List Nat) (h : s.length ≤ 8) : hexStringToInt s = hexNumber s := by
  have h1 := hex_number s
  have h2 := hexNumber_lt s
  have h3 : (16 : Nat) ^ s.length ≤ 16 ^ 8 := Nat.pow_le_pow_right (by omega) h
  have h4 : hexStringToInt s < 2 ^ 32 := by
    unfold hexStringToInt
    cases hs : s.reverse with
    | nil => simp at hs; subst hs; decide
    | cons c t =>
      have : s = t.reverse ++ [c] := by rw [← List.reverse_cons, ← hs, List.reverse_reverse]
      rw [this, List.foldl_append]
      exact Nat.mod_lt _ (by decide)
  rw [Nat.mod_eq_of_lt h4] at h1
  rw [h1, Nat.mod_eq_of_lt]
  omega

example : hexStringToInt [102, 70, 48, 49] = 0xff01 := by decide +kernel

theorem hexArray_read (bs : List Nat) (hb : Bytes bs) (pre rest : List Nat) (m : Mem) (i : Nat)
    (hp : pre.length = 2 * i) (hm : i + bs.length ≤ m.length) :
    hexArrayLoop (pre ++ hexText 0 bs ++ rest) bs.length i m = some (splice m i bs) := by
  induction bs generalizing pre m i with
  | nil => simp [hexArrayLoop, splice_nil]
  | cons b bs ih =>
    have hb1 : b < 256 := hb b (by simp)
    have hb2 : Bytes bs := fun x hx => hb x (by simp [hx])
    have ht : hexText 0 (b :: bs) = hexDigit (b / 16) :: hexDigit (b % 16) :: hexText 0 bs := by
      cases bs <;> simp [hexText]
    rw [ht]
    simp only [List.length_cons, hexArrayLoop]
    rw [show (pre ++ (hexDigit (b / 16) :: hexDigit (b % 16) :: hexText 0 bs) ++ rest)[2 * i]? = some (hexDigit (b / 16)) by
      rw [List.append_assoc, List.getElem?_append_right (by omega)]; simp [hp]]
    rw [show (pre ++ (hexDigit (b / 16) :: hexDigit (b % 16) :: hexText 0 bs) ++ rest)[2 * i + 1]? = some (hexDigit (b % 16)) by
      rw [List.append_assoc, List.getElem?_append_right (by omega), show 2 * i + 1 - pre.length = 1 by omega]; simp]
    simp only [Option.bind_eq_bind, Option.bind_some]
    simp only [List.length_cons] at hm
    rw [byte_back b hb1, put_eq m i b (by omega)]
    simp only [Option.bind_some]
    have := ih hb2 (pre ++ [hexDigit (b / 16), hexDigit (b % 16)]) (splice m i [b]) (i + 1) (by simp; omega)
      (by rw [length_splice _ _ _ (by simp; omega)]; omega)
    simp only [List.append_assoc, List.cons_append, List.nil_append] at this ⊢
    rw [this]
    rw [splice_splice m i [b] bs (by simp) (by simp; omega)]
    rfl

/-- **C31.** Reading the hexadecimal text of a byte string (whatever follows it in memory) gives back
that byte string, and writes nothing else. -/
theorem hex_round_trip (bs : List Nat) (hb : Bytes bs) (rest : List Nat) (out : Mem)
    (h : bs.length ≤ out.length) :
    hexStringToArray (hexText 0 bs ++ rest) out bs.length = some (bs ++ out.drop bs.length) := by
  have := hexArray_read bs hb [] rest out 0 rfl (by omega)
  simpa [splice, hexStringToArray] using this

example : hexStringToArray (hexText 0 [0, 171, 255] ++ [0]) [9, 9, 9, 9] 3 = some [0, 171, 255, 9] := by decide +kernel

/-- Lower-case digits are read as well. -/
example : hexStringToArray [97, 98] [0] 1 = some [0xab] := by decide +kernel

/-- **C31.** Two different byte strings of the same length have different hexadecimal texts. -/
theorem hex_injective (a b : List Nat) (ha : Bytes a) (hb : Bytes b) (hl : a.length = b.length)
    (h : hexText 0 a = hexText 0 b) : a = b := by
  have h1 := hex_round_trip a ha [] (List.replicate a.length 0) (by simp)
  have h2 := hex_round_trip b hb [] (List.replicate b.length 0) (by simp)
  rw [h, hl, h2] at h1
  simpa using h1.symm

end Verif.Tools
