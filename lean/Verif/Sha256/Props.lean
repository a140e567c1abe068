import Verif.Sha256.Compress

/-!
# C85: the digest is SHA-256, in whatever pieces the data arrive
-/

namespace Verif.Sha256

/-! ## Blocks -/

theorem blocks_append (H : Fips.Vars) : ∀ (n : Nat) (m x : List Byte), 64 * n ≤ m.length → Fips.blocks H n (m ++ x) = Fips.blocks H n m := by
  intro n
  induction n generalizing H with
  | zero => intros; rfl
  | succ n ih =>
    intro m x h
    rw [Fips.blocks, Fips.blocks, List.take_append_of_le_length (by omega), List.drop_append_of_le_length (by omega),
      ih _ _ _ (by rw [List.length_drop]; omega)]

theorem blocks_snoc (H : Fips.Vars) : ∀ (n : Nat) (m : List Byte),
    Fips.blocks H (n + 1) m = Fips.compress (Fips.blocks H n m) ((m.drop (64 * n)).take 64) := by
  intro n
  induction n generalizing H with
  | zero => intro m; rfl
  | succ n ih =>
    intro m
    rw [Fips.blocks, ih, Fips.blocks, List.drop_drop, show 64 + 64 * n = 64 * (n + 1) by omega]

/-- What the context holds after the message `m`: the hash of its whole blocks, their number, and the rest. -/
def Holds (c : Ctx) (m : List Byte) : Prop :=
  c.state = arr (Fips.blocks Fips.H0 (m.length / 64) m) ∧ c.count = BitVec.ofNat 64 (m.length / 64) ∧ c.index = m.length % 64 ∧
  c.block.length = 64 ∧ c.block.take c.index = m.drop (64 * (m.length / 64))

theorem holds_init (b : List Byte) (hb : b.length = 64) : Holds (init b) [] := ⟨rfl, rfl, rfl, hb, rfl⟩

theorem copyTo_length (b : List Byte) (i : Nat) (d : List Byte) (h : i + d.length ≤ b.length) : (copyTo b i d).length = b.length := by
  unfold copyTo
  simp only [List.length_append, List.length_take, List.length_drop]
  omega

theorem copyTo_take (b : List Byte) (i : Nat) (d : List Byte) (h : i + d.length ≤ b.length) : (copyTo b i d).take (i + d.length) = b.take i ++ d := by
  unfold copyTo
  rw [List.take_append_of_le_length (by simp only [List.length_append, List.length_take]; omega), List.take_of_length_le]
  simp only [List.length_append, List.length_take]; omega

/-- After a whole number of blocks. -/
theorem whole_holds : ∀ (fuel : Nat) (c : Ctx) (m d : List Byte), m.length % 64 = 0 → d.length / 64 < fuel →
    c.state = arr (Fips.blocks Fips.H0 (m.length / 64) m) → c.count = BitVec.ofNat 64 (m.length / 64) → c.block.length = 64 →
    Holds (whole c fuel d) (m ++ d) := by
  intro fuel
  induction fuel with
  | zero => intro c m d _ h; omega
  | succ fuel ih =>
    intro c m d hm hf hs hc hb
    rw [whole]
    by_cases hd : d.length ≥ 64
    · rw [if_pos hd]
      have e : m ++ d = (m ++ d.take 64) ++ d.drop 64 := by rw [List.append_assoc, List.take_append_drop]
      rw [e]
      have hq : (m ++ d.take 64).length / 64 = m.length / 64 + 1 := by
        rw [List.length_append, List.length_take]; omega
      refine ih _ _ _ (by rw [List.length_append, List.length_take]; omega) (by rw [List.length_drop]; omega) ?_ ?_ hb
      · rw [hq, blocks_snoc, blocks_append _ _ _ _ (by omega)]
        show compress c.state (d.take 64) = _
        rw [hs, compress_eq _ _ (by rw [List.length_take]; omega)]
        congr 2
        rw [List.drop_append_of_le_length (by omega), List.drop_of_length_le (by omega), List.nil_append, List.take_take, Nat.min_self]
      · rw [hq]
        show c.count + 1 = _
        rw [hc, BitVec.ofNat_add]; rfl
    · rw [if_neg hd]
      have hq : (m ++ d).length / 64 = m.length / 64 := by rw [List.length_append]; omega
      refine ⟨?_, ?_, ?_, ?_, ?_⟩
      · show c.state = _
        rw [hq, hs, blocks_append _ _ _ _ (by omega)]
      · show c.count = _
        rw [hq, hc]
      · show d.length = _
        rw [List.length_append]; omega
      · show (copyTo c.block 0 d).length = 64
        rw [copyTo_length _ _ _ (by omega), hb]
      · show (copyTo c.block 0 d).take d.length = _
        have := copyTo_take c.block 0 d (by omega)
        rw [Nat.zero_add] at this
        rw [this, hq, List.drop_append_of_le_length (by omega), List.drop_of_length_le (by omega)]
        rfl

theorem update_holds (c : Ctx) (m d : List Byte) (h : Holds c m) : Holds (update c d) (m ++ d) := by
  obtain ⟨hs, hc, hi, hb, hp⟩ := h
  unfold update
  by_cases h0 : c.index ≠ 0
  · rw [if_pos h0]
    by_cases hd : d.length < 64 - c.index
    · rw [if_pos hd]
      have hq : (m ++ d).length / 64 = m.length / 64 := by rw [List.length_append]; omega
      refine ⟨?_, ?_, ?_, ?_, ?_⟩
      · show c.state = _
        rw [hq, hs, blocks_append _ _ _ _ (by omega)]
      · show c.count = _
        rw [hq, hc]
      · show c.index + d.length = _
        rw [List.length_append]; omega
      · show (copyTo c.block c.index d).length = 64
        rw [copyTo_length _ _ _ (by omega), hb]
      · show (copyTo c.block c.index d).take (c.index + d.length) = _
        rw [copyTo_take _ _ _ (by omega), hp, hq, List.drop_append_of_le_length (by omega)]
    · rw [if_neg hd]
      have hl : (d.take (64 - c.index)).length = 64 - c.index := by rw [List.length_take]; omega
      have hblk : copyTo c.block c.index (d.take (64 - c.index)) = m.drop (64 * (m.length / 64)) ++ d.take (64 - c.index) := by
        have := copyTo_take c.block c.index (d.take (64 - c.index)) (by omega)
        rw [hl, show c.index + (64 - c.index) = 64 by omega, List.take_of_length_le (by rw [copyTo_length _ _ _ (by omega)]; omega), hp] at this
        exact this
      have hbl : (copyTo c.block c.index (d.take (64 - c.index))).length = 64 := by rw [copyTo_length _ _ _ (by omega), hb]
      have e : m ++ d = (m ++ d.take (64 - c.index)) ++ d.drop (64 - c.index) := by rw [List.append_assoc, List.take_append_drop]
      have hq : (m ++ d.take (64 - c.index)).length / 64 = m.length / 64 + 1 := by rw [List.length_append, hl]; omega
      rw [e]
      refine whole_holds _ _ _ _ (by rw [List.length_append, hl]; omega) (by rw [List.length_drop]; omega) ?_ ?_ hbl
      · rw [hq, blocks_snoc, blocks_append _ _ _ _ (by omega)]
        show compress c.state _ = _
        rw [hs, compress_eq _ _ hbl, hblk]
        congr 2
        rw [List.drop_append_of_le_length (by omega)]
        refine (List.take_of_length_le ?_).symm
        rw [List.length_append, hl, List.length_drop]; omega
      · rw [hq]
        show c.count + 1 = _
        rw [hc, BitVec.ofNat_add]; rfl
  · rw [if_neg h0]
    refine whole_holds _ _ _ _ (by omega) (by omega) hs hc hb

/-! ## The end -/

theorem byte_of {n : Nat} (x : BitVec n) (k : Nat) (ff : BitVec n) (hf : ∀ i, i < 8 → ff.getLsbD i = decide (i < n)) :
    ((x >>> k) &&& ff).setWidth 8 = x.extractLsb' k 8 := by
  apply BitVec.eq_of_getLsbD_eq
  intro i hi
  simp only [BitVec.getLsbD_setWidth, BitVec.getLsbD_and, BitVec.getLsbD_ushiftRight, BitVec.getLsbD_extractLsb', hi, decide_true, Bool.true_and]
  rw [hf i hi]
  by_cases h : i < n
  · simp [h]
  · rw [BitVec.getLsbD_of_ge x (k + i) (by omega)]; simp

theorem ff32 : ∀ i, i < 8 → (0xff : BitVec 32).getLsbD i = decide (i < 32) := by decide
theorem ff64 : ∀ i, i < 8 → (0xff : BitVec 64).getLsbD i = decide (i < 64) := by decide

theorem write32_eq (x : Word) : write32 x = Fips.bytes 4 x := by
  have h0 : (x &&& 0xff).setWidth 8 = x.extractLsb' 0 8 := by rw [← byte_of x 0 0xff ff32]; simp
  show _ = [x.extractLsb' 24 8, x.extractLsb' 16 8, x.extractLsb' 8 8, x.extractLsb' 0 8]
  unfold write32
  rw [byte_of x 24 0xff ff32, byte_of x 16 0xff ff32, byte_of x 8 0xff ff32, h0]

theorem write64_eq (x : BitVec 64) : write64 x = Fips.bytes 8 x := by
  have h0 : (x &&& 0xff).setWidth 8 = x.extractLsb' 0 8 := by rw [← byte_of x 0 0xff ff64]; simp
  show _ = [x.extractLsb' 56 8, x.extractLsb' 48 8, x.extractLsb' 40 8, x.extractLsb' 32 8, x.extractLsb' 24 8, x.extractLsb' 16 8,
    x.extractLsb' 8 8, x.extractLsb' 0 8]
  unfold write64
  rw [byte_of x 56 0xff ff64, byte_of x 48 0xff ff64, byte_of x 40 0xff ff64, byte_of x 32 0xff ff64, byte_of x 24 0xff ff64,
    byte_of x 16 0xff ff64, byte_of x 8 0xff ff64, h0]

theorem bits_eq (q r : Nat) (hr : r < 64) : ((BitVec.ofNat 64 q) <<< 9) ||| ((BitVec.ofNat 64 r) <<< 3) = BitVec.ofNat 64 (8 * (64 * q + r)) := by
  apply BitVec.eq_of_toNat_eq
  simp only [BitVec.toNat_or, BitVec.toNat_shiftLeft, BitVec.toNat_ofNat]
  rw [Nat.mod_eq_of_lt (show r < 2 ^ 64 by omega), Nat.mod_eq_of_lt (show r <<< 3 < 2 ^ 64 by rw [Nat.shiftLeft_eq]; omega)]
  have h1 : (q % 2 ^ 64) <<< 9 % 2 ^ 64 = (q % 2 ^ 55) <<< 9 := by
    rw [Nat.shiftLeft_eq, Nat.shiftLeft_eq]; omega
  rw [h1, ← Nat.shiftLeft_add_eq_or_of_lt (show r <<< 3 < 2 ^ 9 by rw [Nat.shiftLeft_eq]; omega), Nat.shiftLeft_eq, Nat.shiftLeft_eq]
  omega

theorem out_eq (v : Fips.Vars) : writeBe 32 (arr v) = Fips.out v := by
  show ((List.range 8).flatMap (fun i => write32 ((arr v).getD i 0))) ++ [] = _
  unfold Fips.out
  simp only [List.append_nil, write32_eq]
  rfl

/-- Only so many bytes of the digest. -/
theorem out_take (v : Fips.Vars) (n : Nat) (hn : n ≤ 32) : writeBe n (arr v) = (Fips.out v).take n := by
  have h : n = 32 ∨ n < 32 := by omega
  rcases h with rfl | h
  · rw [out_eq, List.take_of_length_le]
    exact Nat.le_of_eq rfl
  · have hall : ∀ k < 8, ∀ j < 4, writeBe (4 * k + j) (arr v) = (Fips.out v).take (4 * k + j) := by
      intro k hk j hj
      rw [← out_eq]
      have : k = 0 ∨ k = 1 ∨ k = 2 ∨ k = 3 ∨ k = 4 ∨ k = 5 ∨ k = 6 ∨ k = 7 := by omega
      have hj' : j = 0 ∨ j = 1 ∨ j = 2 ∨ j = 3 := by omega
      rcases this with rfl | rfl | rfl | rfl | rfl | rfl | rfl | rfl <;> rcases hj' with rfl | rfl | rfl | rfl <;> rfl
    have := hall (n / 4) (by omega) (n % 4) (by omega)
    rwa [show 4 * (n / 4) + n % 4 = n by omega] at this

theorem finish_state (c : Ctx) (m : List Byte) (h : Holds c m) :
    (finish c).state = arr (Fips.blocks Fips.H0 ((Fips.pad m).length / 64) (Fips.pad m)) ∧ (finish c).block.length = 64 := by
  obtain ⟨hs, hc, hi, hb, hp⟩ := h
  have hil : c.index < 64 := by omega
  have h80 : ([0x80] : List Byte).length = 1 := rfl
  have hbits : (c.count <<< 9) ||| ((BitVec.ofNat 64 c.index) <<< 3) = BitVec.ofNat 64 (8 * m.length) := by
    rw [hc, bits_eq _ _ hil]
    congr 2; omega
  have h8 : (Fips.bytes 8 (BitVec.ofNat 64 (8 * m.length))).length = 8 := rfl
  have hb1 : (copyTo c.block c.index [0x80]).length = 64 := by rw [copyTo_length _ _ _ (by rw [h80]; omega), hb]
  have ht1 : (copyTo c.block c.index [0x80]).take (c.index + 1) = m.drop (64 * (m.length / 64)) ++ [0x80] := by
    have := copyTo_take c.block c.index [0x80] (by rw [h80]; omega)
    rw [hp] at this
    exact this
  have hrest : (m.drop (64 * (m.length / 64))).length = c.index := by rw [List.length_drop]; omega
  unfold finish mdPad
  dsimp only
  by_cases hx : c.index + 1 > 64 - 8
  · rw [if_pos hx]
    dsimp only
    -- two blocks
    have hz : (List.replicate (64 - (c.index + 1)) (0 : Byte)).length = 64 - (c.index + 1) := List.length_replicate
    have hb2 : (copyTo (copyTo c.block c.index [0x80]) (c.index + 1) (List.replicate (64 - (c.index + 1)) 0)).length = 64 := by
      rw [copyTo_length _ _ _ (by rw [hz, hb1]; omega), hb1]
    have e2 : copyTo (copyTo c.block c.index [0x80]) (c.index + 1) (List.replicate (64 - (c.index + 1)) 0) =
        m.drop (64 * (m.length / 64)) ++ [0x80] ++ List.replicate (64 - (c.index + 1)) 0 := by
      have := copyTo_take (copyTo c.block c.index [0x80]) (c.index + 1) (List.replicate (64 - (c.index + 1)) 0) (by rw [hz, hb1]; omega)
      rw [hz, show c.index + 1 + (64 - (c.index + 1)) = 64 by omega, List.take_of_length_le (by omega), ht1] at this
      exact this
    have hz3 : (List.replicate (64 - 8) (0 : Byte)).length = 56 := List.length_replicate
    generalize hB2 : copyTo (copyTo c.block c.index [0x80]) (c.index + 1) (List.replicate (64 - (c.index + 1)) 0) = B2 at *
    have hb3 : (copyTo B2 0 (List.replicate (64 - 8) 0)).length = 64 := by rw [copyTo_length _ _ _ (by rw [hz3, hb2]; omega), hb2]
    have ht3 : (copyTo B2 0 (List.replicate (64 - 8) 0)).take 56 = List.replicate 56 0 := by
      have := copyTo_take B2 0 (List.replicate (64 - 8) 0) (by rw [hz3, hb2]; omega)
      rw [hz3] at this
      exact this
    have hb4 : (copyTo (copyTo B2 0 (List.replicate (64 - 8) 0)) 56 (write64 ((c.count <<< 9) ||| ((BitVec.ofNat 64 c.index) <<< 3)))).length = 64 := by
      rw [copyTo_length _ _ _ (by rw [hb3]; exact Nat.le_refl _), hb3]
    have e4 : copyTo (copyTo B2 0 (List.replicate (64 - 8) 0)) 56 (write64 ((c.count <<< 9) ||| ((BitVec.ofNat 64 c.index) <<< 3))) =
        List.replicate 56 0 ++ Fips.bytes 8 (BitVec.ofNat 64 (8 * m.length)) := by
      have := copyTo_take (copyTo B2 0 (List.replicate (64 - 8) 0)) 56 (write64 ((c.count <<< 9) ||| ((BitVec.ofNat 64 c.index) <<< 3)))
        (by rw [hb3]; exact Nat.le_refl _)
      rw [show 56 + (write64 ((c.count <<< 9) ||| ((BitVec.ofNat 64 c.index) <<< 3))).length = 64 from rfl, List.take_of_length_le (by omega), ht3,
        hbits, write64_eq] at this
      rw [hbits, write64_eq]
      exact this
    refine ⟨?_, hb4⟩
    rw [hs, compress_eq _ _ hb2, compress_eq _ _ hb4]
    have hpl : (Fips.pad m).length = 64 * (m.length / 64 + 2) := by
      simp only [Fips.pad, List.length_append, List.length_cons, List.length_nil, List.length_replicate, h8]; omega
    have hpad : Fips.pad m = m ++ (([0x80] ++ List.replicate (64 - (c.index + 1)) 0) ++
        (List.replicate 56 0 ++ Fips.bytes 8 (BitVec.ofNat 64 (8 * m.length)))) := by
      unfold Fips.pad
      rw [show (119 - m.length % 64) % 64 = (64 - (c.index + 1)) + 56 by omega, ← List.replicate_append_replicate]
      simp only [List.append_assoc]
    rw [hpl, Nat.mul_div_cancel_left _ (by decide), blocks_snoc, blocks_snoc]
    have d1 : ((Fips.pad m).drop (64 * (m.length / 64))).take 64 = B2 := by
      rw [hpad, List.drop_append_of_le_length (by omega), e2]
      rw [← List.append_assoc (m.drop _), ← List.append_assoc (m.drop _), List.take_append_of_le_length, List.take_of_length_le]
      · simp only [List.length_append, List.length_cons, List.length_nil, List.length_replicate, hrest]; omega
      · simp only [List.length_append, List.length_cons, List.length_nil, List.length_replicate, hrest]; omega
    have d2 : ((Fips.pad m).drop (64 * (m.length / 64 + 1))).take 64 = List.replicate 56 0 ++ Fips.bytes 8 (BitVec.ofNat 64 (8 * m.length)) := by
      rw [hpad, show 64 * (m.length / 64 + 1) = m.length + (64 - c.index) by omega, ← List.drop_drop, List.drop_left,
        show 64 - c.index = ([0x80] ++ List.replicate (64 - (c.index + 1)) (0 : Byte)).length by
          simp only [List.length_append, List.length_cons, List.length_nil, List.length_replicate]; omega,
        List.drop_left, List.take_of_length_le]
      rw [List.length_append, List.length_replicate, h8]
      exact Nat.le_refl _
    rw [d1, d2, e4]
    congr 3
    rw [hpad, blocks_append _ _ _ _ (by omega)]
  · rw [if_neg hx]
    dsimp only
    have hz : (List.replicate (64 - 8 - (c.index + 1)) (0 : Byte)).length = 55 - c.index := by rw [List.length_replicate]; omega
    have hb2 : (copyTo (copyTo c.block c.index [0x80]) (c.index + 1) (List.replicate (64 - 8 - (c.index + 1)) 0)).length = 64 := by
      rw [copyTo_length _ _ _ (by rw [hz, hb1]; omega), hb1]
    have ht2 : (copyTo (copyTo c.block c.index [0x80]) (c.index + 1) (List.replicate (64 - 8 - (c.index + 1)) 0)).take 56 =
        m.drop (64 * (m.length / 64)) ++ [0x80] ++ List.replicate (55 - c.index) 0 := by
      have := copyTo_take (copyTo c.block c.index [0x80]) (c.index + 1) (List.replicate (64 - 8 - (c.index + 1)) 0) (by rw [hz, hb1]; omega)
      rw [hz, show c.index + 1 + (55 - c.index) = 56 by omega, ht1] at this
      rw [this, show 64 - 8 - (c.index + 1) = 55 - c.index by omega]
    generalize copyTo (copyTo c.block c.index [0x80]) (c.index + 1) (List.replicate (64 - 8 - (c.index + 1)) 0) = B2 at *
    have hb4 : (copyTo B2 56 (write64 ((c.count <<< 9) ||| ((BitVec.ofNat 64 c.index) <<< 3)))).length = 64 := by
      rw [copyTo_length _ _ _ (by rw [hb2]; exact Nat.le_refl _), hb2]
    have e4 : copyTo B2 56 (write64 ((c.count <<< 9) ||| ((BitVec.ofNat 64 c.index) <<< 3))) =
        m.drop (64 * (m.length / 64)) ++ [0x80] ++ List.replicate (55 - c.index) 0 ++ Fips.bytes 8 (BitVec.ofNat 64 (8 * m.length)) := by
      have := copyTo_take B2 56 (write64 ((c.count <<< 9) ||| ((BitVec.ofNat 64 c.index) <<< 3))) (by rw [hb2]; exact Nat.le_refl _)
      rw [show 56 + (write64 ((c.count <<< 9) ||| ((BitVec.ofNat 64 c.index) <<< 3))).length = 64 from rfl, List.take_of_length_le (by omega), ht2,
        hbits, write64_eq] at this
      rw [hbits, write64_eq]
      exact this
    refine ⟨?_, hb4⟩
    rw [hs, compress_eq _ _ hb4]
    have hpl : (Fips.pad m).length = 64 * (m.length / 64 + 1) := by
      simp only [Fips.pad, List.length_append, List.length_cons, List.length_nil, List.length_replicate, h8]; omega
    have hpad : Fips.pad m = m ++ ([0x80] ++ List.replicate (55 - c.index) 0 ++ Fips.bytes 8 (BitVec.ofNat 64 (8 * m.length))) := by
      unfold Fips.pad
      rw [show (119 - m.length % 64) % 64 = 55 - c.index by omega]
      simp only [List.append_assoc]
    rw [hpl, Nat.mul_div_cancel_left _ (by decide), blocks_snoc]
    have d1 : ((Fips.pad m).drop (64 * (m.length / 64))).take 64 =
        m.drop (64 * (m.length / 64)) ++ [0x80] ++ List.replicate (55 - c.index) 0 ++ Fips.bytes 8 (BitVec.ofNat 64 (8 * m.length)) := by
      rw [hpad, List.drop_append_of_le_length (by omega), List.take_of_length_le]
      · simp only [List.append_assoc]
      · simp only [List.length_append, List.length_cons, List.length_nil, List.length_replicate, hrest, h8]; omega
    rw [d1, e4]
    congr 2
    rw [hpad, blocks_append _ _ _ _ (by omega)]

/-- All the pieces one after another. -/
def updates (c : Ctx) (ds : List (List Byte)) : Ctx := ds.foldl update c

theorem updates_holds (ds : List (List Byte)) : ∀ (c : Ctx) (m : List Byte), Holds c m → Holds (updates c ds) (m ++ ds.flatten) := by
  induction ds with
  | nil => intro c m h; simpa [updates] using h
  | cons d ds ih =>
    intro c m h
    have := ih (update c d) (m ++ d) (update_holds c m d h)
    rw [List.flatten_cons, ← List.append_assoc]
    exact this

/-- **C85.** In whatever pieces the data arrive, the digest is the SHA-256 of all of them together (its first
`n` bytes if only `n` are asked for), and afterwards the object is as new. -/
theorem digest_is_sha256 (b : List Byte) (hb : b.length = 64) (ds : List (List Byte)) (n : Nat) (hn : n ≤ 32) :
    (digest (updates (init b) ds) n).1 = (Fips.sha256 ds.flatten).take n ∧ ∃ b', b'.length = 64 ∧ (digest (updates (init b) ds) n).2 = init b' := by
  have h := updates_holds ds _ _ (holds_init b hb)
  rw [List.nil_append] at h
  obtain ⟨g1, g2⟩ := finish_state _ _ h
  refine ⟨?_, _, g2, rfl⟩
  show writeBe n (finish _).state = _
  rw [g1, out_take _ _ hn]
  rfl

/-- The model run on "abc" in two pieces gives the value of the standard. -/
example : (digest (updates (init (List.replicate 64 0)) [[0x61], [0x62, 0x63]]) 4).1 = [0xba, 0x78, 0x16, 0xbf] := by decide +kernel

end Verif.Sha256
