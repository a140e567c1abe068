import Verif.WearSector.Model

/-! Lemmas on flash operations, the slot bitmap and the attempt loop. -/

namespace Verif.WearSector

theorem applyOps_append (ss : Nat) (f : Flash) (a b : List Op) :
    applyOps ss f (a ++ b) = applyOps ss (applyOps ss f a) b := by
  simp [applyOps, List.foldl_append]

theorem applyOps_nil (ss : Nat) (f : Flash) : applyOps ss f [] = f := rfl

theorem applyOps_cons (ss : Nat) (f : Flash) (o : Op) (l : List Op) :
    applyOps ss f (o :: l) = applyOps ss (apply1 ss f o) l := rfl

theorem progs_succ (a n : Nat) (v : Nat → Nat) :
    progs a (n + 1) v = progs a n v ++ [.prog (a + n) (v n)] := by
  simp [progs, List.range_succ]

theorem progs_take (a n k : Nat) (v : Nat → Nat) :
    (progs a n v).take k = progs a (min k n) v := by
  simp [progs, ← List.map_take, List.take_range]

theorem progs_length (a n : Nat) (v : Nat → Nat) : (progs a n v).length = n := by
  simp [progs]

/-- Programming a range changes exactly that range, byte by byte. -/
theorem applyOps_progs (ss : Nat) (f : Flash) (a n : Nat) (v : Nat → Nat) (x : Nat) :
    applyOps ss f (progs a n v) x = if a ≤ x ∧ x < a + n then f x &&& v (x - a) else f x := by
  induction n with
  | zero =>
    have : progs a 0 v = [] := rfl
    rw [this, applyOps_nil, if_neg (by omega)]
  | succ n ih =>
    rw [progs_succ, applyOps_append]
    show (if x = a + n then applyOps ss f (progs a n v) x &&& v n else applyOps ss f (progs a n v) x) = _
    rw [ih]
    by_cases h : x = a + n
    · subst h
      rw [if_pos rfl, if_neg (by omega), if_pos (by omega)]
      rw [show a + n - a = n by omega]
    · rw [if_neg h]
      by_cases h2 : a ≤ x ∧ x < a + n
      · rw [if_pos h2, if_pos (by omega)]
      · rw [if_neg h2, if_neg (by omega)]

theorem applyOps_erase (ss : Nat) (f : Flash) (s x : Nat) :
    applyOps ss f [.erase s] x = if x / ss = s then 255 else f x := rfl

theorem and_255 {v : Nat} (h : v < 256) : 255 &&& v = v := by
  have := Nat.and_two_pow_sub_one_eq_mod v 8
  rw [Nat.and_comm]
  simp only [Nat.reducePow, Nat.add_one_sub_one] at this
  rw [this]; omega

/-- Programming what is already there changes nothing. -/
theorem applyOps_progs_same (ss : Nat) (f : Flash) (a n : Nat) (v : Nat → Nat)
    (h : ∀ i, i < n → f (a + i) = v i) : applyOps ss f (progs a n v) = f := by
  funext x
  rw [applyOps_progs]
  by_cases h2 : a ≤ x ∧ x < a + n
  · rw [if_pos h2]
    have := h (x - a) (by omega)
    rw [show a + (x - a) = x by omega] at this
    rw [← this, Nat.and_self]
  · rw [if_neg h2]

theorem isDiff_false_iff (g : Geo) (f : Flash) (a n : Nat) (v : Nat → Nat) (h : n ≤ g.sz) :
    isDiff g f a n v = false ↔ ∀ i, i < n → f (a + i) = v i := by
  unfold isDiff
  by_cases h0 : n = 0 ∨ g.sz < n
  · rw [if_pos h0]
    constructor
    · intro _ i hi; omega
    · intro _; rfl
  · rw [if_neg h0]
    simp

theorem isDiff_eq_false_of (g : Geo) (f : Flash) (a n : Nat) (v : Nat → Nat)
    (h : ∀ i, i < n → f (a + i) = v i) : isDiff g f a n v = false := by
  unfold isDiff
  split
  · rfl
  · simpa using h

/-! ## Bitmap bytes -/

theorem pat_lt (k : Nat) : pat k < 256 := Nat.mod_lt _ (by decide)

theorem pat_and_lt : ∀ (i j : Fin 8), i.val ≤ j.val → pat i.val &&& pat j.val = pat j.val := by
  decide

theorem pat_and {i j : Nat} (hj : j < 8) (h : i ≤ j) : pat i &&& pat j = pat j :=
  pat_and_lt ⟨i, by omega⟩ ⟨j, hj⟩ h

theorem pat_ne_zero' : ∀ (i : Fin 8), pat i.val ≠ 0 := by decide

theorem pat_ne_zero {i : Nat} (h : i < 8) : pat i ≠ 0 := pat_ne_zero' ⟨i, h⟩

theorem shifts_pat' : ∀ (i : Fin 8), shifts 8 (pat i.val) = i.val := by decide

theorem shifts_pat {i : Nat} (h : i < 8) : shifts 8 (pat i) = i := shifts_pat' ⟨i, h⟩

/-- The bitmap at `a` reads as slot number `c`: full bytes are zero, then the partial byte. -/
def Reads (f : Flash) (a c : Nat) : Prop :=
  (∀ k, k < c / 8 → f (a + k) = 0) ∧ f (a + c / 8) = pat (c % 8)

/-- The rest of the bitmap is still erased. -/
def Clean (g : Geo) (f : Flash) (a c : Nat) : Prop :=
  ∀ k, c / 8 < k → k < g.ss - 19 → f (a + k) = 255

theorem scan_reads (f : Flash) : ∀ (m a n : Nat), (∀ k, k < m → f (a + k) = 0) → f (a + m) ≠ 0 →
    m < n → scan f a n = (m + 1, f (a + m)) := by
  intro m
  induction m with
  | zero =>
    intro a n _ h hn
    obtain ⟨n', rfl⟩ : ∃ n', n = n' + 1 := ⟨n - 1, by omega⟩
    unfold scan
    rw [if_pos (by simpa using h)]
    rfl
  | succ m ih =>
    intro a n h0 h hn
    obtain ⟨n', rfl⟩ : ∃ n', n = n' + 1 := ⟨n - 1, by omega⟩
    unfold scan
    rw [if_neg (by simpa using h0 0 (by omega))]
    have := ih (a + 1) n' (fun k hk => by
      have := h0 (k + 1) (by omega)
      rwa [show a + 1 + k = a + (k + 1) by omega]) (by
      rwa [show a + 1 + m = a + (m + 1) by omega]) (by omega)
    rw [this]
    simp only
    rw [show a + 1 + m = a + (m + 1) by omega]

theorem scan_count {f : Flash} {a c n : Nat} (h : Reads f a c) (hn : c / 8 < n) :
    ((scan f a n).1 - 1) * 8 + shifts 8 (scan f a n).2 = c := by
  have h8 : c % 8 < 8 := Nat.mod_lt _ (by decide)
  rw [scan_reads f (c / 8) a n h.1 (by rw [h.2]; exact pat_ne_zero h8) hn]
  simp only
  rw [h.2, shifts_pat h8]
  omega

theorem applyOps_zeros (ss : Nat) (f : Flash) (a m t x : Nat) (ht : t ≤ m) :
    applyOps ss f ((zeros a m).take t) x = if a + (m - t) ≤ x ∧ x < a + m then 0 else f x := by
  induction t with
  | zero => rw [List.take_zero, applyOps_nil, if_neg (by omega)]
  | succ t ih =>
    have : (zeros a m).take (t + 1) = (zeros a m).take t ++ [.prog (a + (m - 1 - t)) 0] := by
      rw [List.take_add_one]
      congr 1
      simp [zeros, List.getElem?_range (show t < m by omega)]
    rw [this, applyOps_append]
    show (if x = a + (m - 1 - t) then applyOps ss f ((zeros a m).take t) x &&& 0
      else applyOps ss f ((zeros a m).take t) x) = _
    rw [ih (by omega)]
    by_cases h : x = a + (m - 1 - t)
    · rw [if_pos h, Nat.and_zero, if_pos (by omega)]
    · rw [if_neg h]
      by_cases h2 : a + (m - t) ≤ x ∧ x < a + m
      · rw [if_pos h2, if_pos (by omega)]
      · rw [if_neg h2, if_neg (by omega)]

theorem zeros_length (a m : Nat) : (zeros a m).length = m := by simp [zeros]

/-- `take` of an appended list is a prefix of the first part, or the first part and a prefix of
the second. -/
theorem take_append_cases {α : Type} (k : Nat) (l₁ l₂ : List α) :
    ((l₁ ++ l₂).take k = l₁.take k ∧ k ≤ l₁.length) ∨
    ((l₁ ++ l₂).take k = l₁ ++ l₂.take (k - l₁.length) ∧ l₁.length ≤ k) := by
  rcases Nat.le_total k l₁.length with h | h
  · left; exact ⟨List.take_append_of_le_length h, h⟩
  · right
    refine ⟨?_, h⟩
    rw [List.take_append, List.take_of_length_le h]

end Verif.WearSector
