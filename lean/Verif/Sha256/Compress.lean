import Verif.Sha256.Model

/-!
# The compression function of the code is that of the standard
-/

namespace Verif.Sha256

theorem choice_eq (x y z : Word) : choice x y z = Fips.ch x y z := by
  unfold choice Fips.ch
  ext i hi
  simp only [BitVec.getElem_xor, BitVec.getElem_and, BitVec.getElem_not]
  cases x[i] <;> cases y[i] <;> cases z[i] <;> rfl

theorem majority_eq (x y z : Word) : majority x y z = Fips.maj x y z := by
  unfold majority Fips.maj
  ext i hi
  simp only [BitVec.getElem_xor, BitVec.getElem_and]
  cases x[i] <;> cases y[i] <;> cases z[i] <;> rfl

theorem rotl_eq (n : Nat) (x : Word) (h : 0 < n) (h' : n < 32) : rotl n x = Fips.rotr (32 - n) x := by
  unfold rotl Fips.rotr
  rw [Nat.mod_eq_of_lt (by omega), show 32 - (32 - n) = n by omega, BitVec.or_comm]

theorem S0_eq (x : Word) : S0 x = Fips.Sigma0 x := by
  unfold S0 Fips.Sigma0
  rw [rotl_eq 30 x (by decide) (by decide), rotl_eq 19 x (by decide) (by decide), rotl_eq 10 x (by decide) (by decide)]

theorem S1_eq (x : Word) : S1 x = Fips.Sigma1 x := by
  unfold S1 Fips.Sigma1
  rw [rotl_eq 26 x (by decide) (by decide), rotl_eq 21 x (by decide) (by decide), rotl_eq 7 x (by decide) (by decide)]

theorem s0_eq (x : Word) : s0 x = Fips.sigma0 x := by
  unfold s0 Fips.sigma0
  rw [rotl_eq 25 x (by decide) (by decide), rotl_eq 14 x (by decide) (by decide)]

theorem s1_eq (x : Word) : s1 x = Fips.sigma1 x := by
  unfold s1 Fips.sigma1
  rw [rotl_eq 15 x (by decide) (by decide), rotl_eq 13 x (by decide) (by decide)]

theorem K_eq : K = Fips.K := rfl

/-- Which variable of the standard each local variable is before line `i`. -/
def view (i : Nat) (v : Loc) : Fips.Vars :=
  match i with
  | 0 => ⟨v.A, v.B, v.C, v.D, v.E, v.F, v.G, v.H⟩
  | 1 => ⟨v.H, v.A, v.B, v.C, v.D, v.E, v.F, v.G⟩
  | 2 => ⟨v.G, v.H, v.A, v.B, v.C, v.D, v.E, v.F⟩
  | 3 => ⟨v.F, v.G, v.H, v.A, v.B, v.C, v.D, v.E⟩
  | 4 => ⟨v.E, v.F, v.G, v.H, v.A, v.B, v.C, v.D⟩
  | 5 => ⟨v.D, v.E, v.F, v.G, v.H, v.A, v.B, v.C⟩
  | 6 => ⟨v.C, v.D, v.E, v.F, v.G, v.H, v.A, v.B⟩
  | _ => ⟨v.B, v.C, v.D, v.E, v.F, v.G, v.H, v.A⟩

theorem ROUND_eq (a b c d e f g h k w : Word) :
    ROUND a b c d e f g h k w =
      (d + (h + Fips.Sigma1 e + Fips.ch e f g + k + w), (h + Fips.Sigma1 e + Fips.ch e f g + k + w) + (Fips.Sigma0 a + Fips.maj a b c)) := by
  unfold ROUND
  rw [S1_eq, S0_eq, choice_eq, majority_eq]
  simp only [BitVec.add_assoc]

theorem line_round (i : Nat) (hi : i < 8) (v : Loc) (k w : Word) : view ((i + 1) % 8) (line i v k w) = Fips.round (view i v) k w := by
  have : i = 0 ∨ i = 1 ∨ i = 2 ∨ i = 3 ∨ i = 4 ∨ i = 5 ∨ i = 6 ∨ i = 7 := by omega
  rcases this with rfl | rfl | rfl | rfl | rfl | rfl | rfl | rfl <;>
    simp only [line, view, ROUND_eq, Fips.round, Nat.reduceAdd, Nat.reduceMod]

theorem line_mod (n : Nat) (v : Loc) (k w : Word) : view ((n + 1) % 8) (line (n % 8) v k w) = Fips.round (view (n % 8) v) k w := by
  rw [← line_round (n % 8) (Nat.mod_lt _ (by decide))]
  congr 1
  omega

/-! ## The schedule -/

theorem W_length (M : List Word) (h : M.length = 16) (n : Nat) : (Fips.W M n).length = n + 16 := by
  induction n with
  | zero => simp [Fips.W, h]
  | succ n ih => rw [Fips.W, List.length_append, ih]; simp only [List.length_cons, List.length_nil]; try omega

theorem W_old (M : List Word) (h : M.length = 16) (n s : Nat) (hs : s < n + 16) : (Fips.W M (n + 1)).getD s 0 = (Fips.W M n).getD s 0 := by
  rw [Fips.W, List.getD_eq_getElem?_getD, List.getElem?_append_left (by rw [W_length M h]; omega),
    ← List.getD_eq_getElem?_getD]

theorem W_mono (M : List Word) (h : M.length = 16) (n k s : Nat) (hs : s < n + 16) : (Fips.W M (n + k)).getD s 0 = (Fips.W M n).getD s 0 := by
  induction k with
  | zero => rfl
  | succ k ih => rw [← Nat.add_assoc, W_old M h _ _ (by omega), ih]

theorem W_new (M : List Word) (h : M.length = 16) (n : Nat) :
    (Fips.W M (n + 1)).getD (n + 16) 0 =
      Fips.sigma1 ((Fips.W M n).getD (n + 16 - 2) 0) + (Fips.W M n).getD (n + 16 - 7) 0 + Fips.sigma0 ((Fips.W M n).getD (n + 16 - 15) 0) +
      (Fips.W M n).getD (n + 16 - 16) 0 := by
  rw [Fips.W, List.getD_eq_getElem?_getD, List.getElem?_append_right (by rw [W_length M h]; omega), W_length M h]
  simp

/-- The array of sixteen words holds the last sixteen of the schedule. -/
def Ring (M : List Word) (d : List Word) (n : Nat) : Prop :=
  d.length = 16 ∧ ∀ s, n ≤ s → s < n + 16 → d.getD (s % 16) 0 = (Fips.W M n).getD s 0

theorem ring_zero (M : List Word) (h : M.length = 16) : Ring M M 0 :=
  ⟨h, fun s _ hs => by rw [Nat.mod_eq_of_lt (by omega)]; rfl⟩

theorem ring_step (M d : List Word) (h : M.length = 16) (n : Nat) (hr : Ring M d n) :
    Ring M (expand d (n % 16)) (n + 1) ∧ (expand d (n % 16)).getD (n % 16) 0 = (Fips.W M (n + 1)).getD (n + 16) 0 := by
  obtain ⟨hl, hv⟩ := hr
  have e0 := hv n (by omega) (by omega)
  have e1 := hv (n + 14) (by omega) (by omega)
  have e2 := hv (n + 9) (by omega) (by omega)
  have e3 := hv (n + 1) (by omega) (by omega)
  have hnew : (expand d (n % 16)).getD (n % 16) 0 = (Fips.W M (n + 1)).getD (n + 16) 0 := by
    rw [W_new M h, show n + 16 - 2 = n + 14 by omega, show n + 16 - 7 = n + 9 by omega, show n + 16 - 15 = n + 1 by omega,
      show n + 16 - 16 = n by omega, ← e0, ← e1, ← e2, ← e3]
    unfold expand
    rw [List.getD_eq_getElem?_getD, Nat.mod_mod, List.getElem?_set_self (by omega), Option.getD_some]
    rw [show (n % 16 + 16 - 2) % 16 = (n + 14) % 16 by omega, show (n % 16 + 16 - 7) % 16 = (n + 9) % 16 by omega,
      show (n % 16 + 16 - 15) % 16 = (n + 1) % 16 by omega, s1_eq, s0_eq, BitVec.add_comm]
  refine ⟨⟨by simp [expand, hl], ?_⟩, hnew⟩
  intro s h1 h2
  by_cases hs : s = n + 16
  · subst hs
    rw [Nat.add_mod_right, hnew]
  · rw [W_old M h n s (by omega), ← hv s (by omega) (by omega)]
    unfold expand
    rw [List.getD_eq_getElem?_getD, List.getElem?_set_ne (by omega), ← List.getD_eq_getElem?_getD]

theorem first_rounds (M : List Word) (h : M.length = 16) (v : Loc) (n : Nat) (hn : n ≤ 16) :
    view (n % 8) (first M v n) = Fips.rounds (Fips.W M 48) (view 0 v) n := by
  induction n with
  | zero => rfl
  | succ n ih =>
    have e : (Fips.W M 48).getD n 0 = M.getD n 0 := by
      have := W_mono M h 0 48 n (by omega)
      rwa [Nat.zero_add] at this
    rw [first, Fips.rounds, line_mod, ih (by omega), K_eq, e]

theorem second_rounds (M : List Word) (h : M.length = 16) (v : Loc) (n : Nat) (hn : n ≤ 48) :
    view (n % 8) (second M (first M v 16) n).1 = Fips.rounds (Fips.W M 48) (view 0 v) (n + 16) ∧ Ring M (second M (first M v 16) n).2 n := by
  induction n with
  | zero => exact ⟨first_rounds M h v 16 (by omega), ring_zero M h⟩
  | succ n ih =>
    obtain ⟨h1, h2⟩ := ih (by omega)
    obtain ⟨g1, g2⟩ := ring_step M _ h n h2
    refine ⟨?_, g1⟩
    rw [second]
    dsimp only
    have e : (Fips.W M 48).getD (n + 16) 0 = (Fips.W M (n + 1)).getD (n + 16) 0 := by
      have := W_mono M h (n + 1) (48 - (n + 1)) (n + 16) (by omega)
      rwa [show n + 1 + (48 - (n + 1)) = 48 by omega] at this
    have hr : Fips.rounds (Fips.W M 48) (view 0 v) (n + 1 + 16) =
        Fips.round (Fips.rounds (Fips.W M 48) (view 0 v) (n + 16)) (Fips.K.getD (n + 16) 0) ((Fips.W M 48).getD (n + 16) 0) := by
      rw [show n + 1 + 16 = (n + 16) + 1 by omega, Fips.rounds]
    rw [line_mod, h1, g2, hr, K_eq, e]

/-! ## Words of bytes -/

theorem read32_eq (b0 b1 b2 b3 : Byte) (bs : List Byte) : read32 (b0 :: b1 :: b2 :: b3 :: bs) 0 = b0 ++ b1 ++ b2 ++ b3 := by
  show (b0.setWidth 32 <<< 24) ||| (b1.setWidth 32 <<< 16) ||| (b2.setWidth 32 <<< 8) ||| (b3.setWidth 32) = b0 ++ b1 ++ b2 ++ b3
  apply BitVec.eq_of_getLsbD_eq
  intro i hi
  simp only [BitVec.getLsbD_or, BitVec.getLsbD_shiftLeft, BitVec.getLsbD_setWidth, BitVec.getLsbD_append]
  by_cases h1 : i < 8
  · simp [h1, show i < 16 by omega, show i < 24 by omega, hi]
  · by_cases h2 : i < 16
    · have h3 : b3.getLsbD i = false := BitVec.getLsbD_of_ge _ _ (by omega)
      simp [h1, h2, h3, show i < 24 by omega, hi, show i - 8 < 8 by omega, show i - 8 < 32 by omega]
    · by_cases h3 : i < 24
      · have e3 : b3.getLsbD i = false := BitVec.getLsbD_of_ge _ _ (by omega)
        have e2 : b2.getLsbD (i - 8) = false := BitVec.getLsbD_of_ge _ _ (by omega)
        simp [h1, h2, h3, e3, e2, hi, show ¬ i - 8 < 8 by omega, show i - 16 < 8 by omega, show i - 16 < 32 by omega, show i - 8 - 8 = i - 16 by omega]
      · have e3 : b3.getLsbD i = false := BitVec.getLsbD_of_ge _ _ (by omega)
        have e2 : b2.getLsbD (i - 8) = false := BitVec.getLsbD_of_ge _ _ (by omega)
        have e1 : b1.getLsbD (i - 16) = false := BitVec.getLsbD_of_ge _ _ (by omega)
        simp [h1, h2, h3, e3, e2, e1, hi, show ¬ i - 8 < 8 by omega, show ¬ i - 8 - 8 < 8 by omega, show i - 24 < 32 by omega,
          show i - 8 - 8 - 8 = i - 24 by omega]

theorem words_eq : ∀ (n : Nat) (l : List Byte), l.length = 4 * n → (List.range n).map (read32 l) = Fips.words l := by
  intro n
  induction n with
  | zero => 
    intro l hl
    have : l = [] := List.length_eq_zero_iff.1 (by omega)
    subst this
    rfl
  | succ n ih =>
    intro l hl
    match l, hl with
    | b0 :: b1 :: b2 :: b3 :: bs, hl =>
      rw [List.range_succ_eq_map, List.map_cons, read32_eq, Fips.words, List.map_map, ← ih bs (by simp at hl; omega)]
      congr 1

theorem words_length : ∀ (n : Nat) (l : List Byte), l.length = 4 * n → (Fips.words l).length = n := by
  intro n l h
  rw [← words_eq n l h]; simp

/-- The eight words of the standard as an array. -/
def arr (v : Fips.Vars) : List Word := [v.a, v.b, v.c, v.d, v.e, v.f, v.g, v.h]

/-- The compression function of the code is that of the standard. -/
theorem compress_eq (H : Fips.Vars) (b : List Byte) (hb : b.length = 64) : compress (arr H) b = arr (Fips.compress H b) := by
  have hw := words_eq 16 b hb
  have hl := words_length 16 b hb
  obtain ⟨h1, _⟩ := second_rounds (Fips.words b) hl (toLoc (arr H)) 48 (Nat.le_refl _)
  have hv : view 0 (toLoc (arr H)) = H := rfl
  rw [hv] at h1
  unfold compress Fips.compress
  rw [hw]
  dsimp only
  have h64 : Fips.rounds (Fips.W (Fips.words b) 48) H 64 = view 0 (second (Fips.words b) (first (Fips.words b) (toLoc (arr H)) 16) 48).1 := h1.symm
  rw [h64]
  generalize (second (Fips.words b) (first (Fips.words b) (toLoc (arr H)) 16) 48).1 = v
  simp only [arr, Fips.add, view, List.getD_cons_zero, List.getD_cons_succ, BitVec.add_comm]

end Verif.Sha256
