import Verif.SimpleState.Model

/-!
# Lemmas about saving and starting
-/

namespace Verif.SimpleState

open Verif.Storage (Byte Mem Write readRange bytesAt apply le16 apply_append apply_bytesAt bytesAt_length bytesAt_take
  bytesAt_addr readRange_length readRange_congr readRange_eq_iff readRange_written readRange_disjoint readRange_partial)
open Verif.Crc16 (crc16)

/-! ## Writing -/

theorem bytesAt_append (a b : List Byte) : ∀ off, bytesAt off (a ++ b) = bytesAt off a ++ bytesAt (off + a.length) b := by
  induction a with
  | nil => intro off; simp [bytesAt]
  | cons x a ih =>
    intro off
    simp only [List.cons_append, bytesAt, List.length_cons, ih, List.cons.injEq, true_and]
    rw [show off + 1 + a.length = off + (a.length + 1) by omega]

/-- Writing what is there changes nothing. -/
theorem apply_same (m : Mem) (off : Nat) (d : List Byte) (h : readRange m off d.length = d) : apply m (bytesAt off d) = m := by
  funext a
  rw [apply_bytesAt]
  split
  · rename_i ha
    rw [readRange_eq_iff] at h
    have := h (a - off) (by omega)
    rw [show off + (a - off) = a by omega] at this
    rw [this, List.getD_eq_getElem?_getD, List.getElem?_eq_getElem (by omega)]
    rfl
  · rfl

theorem update_apply (m : Mem) (off : Nat) (d : List Byte) : apply m (update m off d) = apply m (bytesAt off d) := by
  unfold update
  split
  · rename_i h; rw [apply_same m off d h]; rfl
  · rfl

theorem update_prefix (m : Mem) (off : Nat) (d : List Byte) (n : Nat) :
    ∃ j ≤ d.length, apply m ((update m off d).take n) = apply m (bytesAt off (d.take j)) := by
  unfold update
  split
  · exact ⟨0, by omega, by simp [bytesAt]⟩
  · refine ⟨min n d.length, Nat.min_le_right _ _, ?_⟩
    rw [bytesAt_take]
    congr 2
    by_cases h : n ≤ d.length
    · rw [Nat.min_eq_left h]
    · rw [Nat.min_eq_right (by omega), List.take_of_length_le (by omega), List.take_of_length_le (by omega)]

/-- The condition under which pieces are written in place: the position is known, or nothing is. -/
def Placed (base k : Nat) (s : S) : Prop :=
  s.eoff = base + 7 ∧ s.cur = base + 7 + k ∨ s.eoff = 0 ∧ s.cur = 0 ∧ k = 0

/-- Writing a piece that fits. -/
theorem writeState_spec {base k : Nat} {m : Mem} {s : S} {c : List Byte} (hd : s.dry = false) (hp : Placed base k s)
    (hs : s.esize = 0 ∨ k + c.length ≤ s.esize) :
    (writeState base m s c).1.dry = false ∧ Placed base (k + c.length) (writeState base m s c).1 ∧
    (writeState base m s c).1.esize = s.esize ∧ (writeState base m s c).1.newSize = s.newSize + c.length ∧
    (writeState base m s c).1.crc = c.foldl Crc16.update s.crc ∧
    apply m (writeState base m s c).2 = apply m (bytesAt (base + 7 + k) c) ∧
    ∀ n, ∃ j ≤ c.length, apply m ((writeState base m s c).2.take n) = apply m (bytesAt (base + 7 + k) (c.take j)) := by
  unfold writeState
  by_cases hc : c = []
  · rw [if_pos hc, hc]
    exact ⟨hd, hp, rfl, rfl, rfl, rfl, fun n => ⟨0, Nat.le_refl _, by simp [bytesAt]⟩⟩
  · have hl : 0 < c.length := by cases c with | nil => exact absurd rfl hc | cons a b => simp
    have hno : ¬ (s.esize > 0 ∧ s.eoff + s.esize < s.cur + c.length) := by
      rcases hp with ⟨h1, h2⟩ | ⟨h1, h2, h3⟩ <;> omega
    rw [if_neg hc, if_neg hno, if_neg (by rw [hd]; exact fun a => Bool.noConfusion a)]
    have hloc : (locate base s).cur = base + 7 + k ∧ (locate base s).eoff = base + 7 ∧ (locate base s).dry = false ∧
        (locate base s).esize = s.esize := by
      unfold locate
      rcases hp with ⟨h1, h2⟩ | ⟨h1, h2, h3⟩
      · rw [if_neg (by omega)]; exact ⟨h2, h1, hd, rfl⟩
      · rw [if_pos h1, h3]; exact ⟨rfl, rfl, hd, rfl⟩
    obtain ⟨l1, l2, l3, l4⟩ := hloc
    refine ⟨l3, .inl ⟨l2, ?_⟩, l4, rfl, rfl, ?_, fun n => ?_⟩
    · show (locate base s).cur + c.length = _
      omega
    · show apply m (update m (locate base s).cur c) = _
      rw [l1]
      exact update_apply _ _ _
    · show ∃ j ≤ c.length, apply m ((update m (locate base s).cur c).take n) = _
      rw [l1]
      exact update_prefix _ _ _ _

/-- Writing all pieces, when they fit. -/
theorem writeAll_spec (base : Nat) (cs : List (List Byte)) : ∀ (m : Mem) (s : S) (k : Nat), s.dry = false → Placed base k s →
    (s.esize = 0 ∨ k + cs.flatten.length ≤ s.esize) →
    (writeAll base m s cs).1.dry = false ∧ Placed base (k + cs.flatten.length) (writeAll base m s cs).1 ∧
    (writeAll base m s cs).1.esize = s.esize ∧ (writeAll base m s cs).1.newSize = s.newSize + cs.flatten.length ∧
    (writeAll base m s cs).1.crc = cs.flatten.foldl Crc16.update s.crc ∧
    apply m (writeAll base m s cs).2 = apply m (bytesAt (base + 7 + k) cs.flatten) ∧
    ∀ n, ∃ j ≤ cs.flatten.length, apply m ((writeAll base m s cs).2.take n) = apply m (bytesAt (base + 7 + k) (cs.flatten.take j)) := by
  induction cs with
  | nil =>
    intro m s k hd hp _
    exact ⟨hd, hp, rfl, rfl, rfl, rfl, fun n => ⟨0, Nat.le_refl _, by simp [writeAll, bytesAt]⟩⟩
  | cons c cs ih =>
    intro m s k hd hp hs
    have hfl : (c :: cs).flatten = c ++ cs.flatten := rfl
    rw [hfl, List.length_append] at hs ⊢
    obtain ⟨a1, a2, a3, a4, a5, a6, a7⟩ := writeState_spec (m := m) (c := c) hd hp (by omega)
    obtain ⟨b1, b2, b3, b4, b5, b6, b7⟩ := ih (apply m (writeState base m s c).2) (writeState base m s c).1 (k + c.length) a1 a2 (by omega)
    show (writeAll base (apply m (writeState base m s c).2) (writeState base m s c).1 cs).1.dry = false ∧ _
    refine ⟨b1, ?_, ?_, ?_, ?_, ?_, fun n => ?_⟩
    · rw [← Nat.add_assoc]; exact b2
    · exact b3.trans a3
    · rw [← Nat.add_assoc, ← a4]; exact b4
    · rw [List.foldl_append, ← a5]; exact b5
    · show apply m ((writeState base m s c).2 ++ (writeAll base (apply m (writeState base m s c).2) (writeState base m s c).1 cs).2) = _
      rw [apply_append, b6, a6, bytesAt_append, apply_append, ← Nat.add_assoc]
    · show ∃ j ≤ c.length + cs.flatten.length, apply m (((writeState base m s c).2 ++ (writeAll base (apply m (writeState base m s c).2) (writeState base m s c).1 cs).2).take n) = _
      rw [List.take_append]
      by_cases hn : n ≤ (writeState base m s c).2.length
      · obtain ⟨j, j1, j2⟩ := a7 n
        refine ⟨j, by omega, ?_⟩
        rw [show n - (writeState base m s c).2.length = 0 by omega, List.take_zero, List.append_nil, j2,
          List.take_append_of_le_length j1]
      · obtain ⟨j, j1, j2⟩ := b7 (n - (writeState base m s c).2.length)
        refine ⟨c.length + j, by omega, ?_⟩
        rw [List.take_of_length_le (l := (writeState base m s c).2) (by omega), apply_append, j2, a6,
          List.take_append, List.take_of_length_le (l := c) (i := c.length + j) (by omega), bytesAt_append, apply_append,
          show c.length + j - c.length = j by omega, ← Nat.add_assoc]

/-- The position is known, or nothing is. -/
def Ready (base : Nat) (s : S) : Prop := s.eoff = base + 7 ∨ s.eoff = 0

/-- A save of pieces that fit: data, then preamble. -/
theorem save_spec {base : Nat} {m : Mem} {s : S} {cs : List (List Byte)} (hr : Ready base s)
    (hs : s.esize = 0 ∨ cs.flatten.length ≤ s.esize) :
    Ready base (save base m s cs).1 ∧ (save base m s cs).1.esize = cs.flatten.length ∧ (save base m s cs).1.valid = true ∧
    apply m (save base m s cs).2 =
      apply (apply m (bytesAt (base + 7) cs.flatten)) (bytesAt base (preamble cs.flatten.length (crc16 cs.flatten))) ∧
    ∀ n, (∃ j ≤ cs.flatten.length, apply m ((save base m s cs).2.take n) = apply m (bytesAt (base + 7) (cs.flatten.take j))) ∨
      ∃ j, apply m ((save base m s cs).2.take n) =
        apply (apply m (bytesAt (base + 7) cs.flatten)) (bytesAt base ((preamble cs.flatten.length (crc16 cs.flatten)).take j)) := by
  have hp : Placed base 0 (prepare s) := by
    rcases hr with h | h
    · exact .inl ⟨h, h⟩
    · exact .inr ⟨h, h, rfl⟩
  obtain ⟨b1, b2, b3, b4, b5, b6, b7⟩ := writeAll_spec base cs m (prepare s) 0 rfl hp (by rw [Nat.zero_add]; exact hs)
  have e4 : (writeAll base m (prepare s) cs).1.newSize = cs.flatten.length := by
    rw [b4]; exact Nat.zero_add _
  have e5 : (writeAll base m (prepare s) cs).1.crc = crc16 cs.flatten := b5
  have e6 : apply m (writeAll base m (prepare s) cs).2 = apply m (bytesAt (base + 7) cs.flatten) := b6
  have hw : (save base m s cs).2 = (writeAll base m (prepare s) cs).2 ++
      update (apply m (writeAll base m (prepare s) cs).2) base (preamble cs.flatten.length (crc16 cs.flatten)) := by
    show _ ++ update _ base (preamble (writeAll base m (prepare s) cs).1.newSize (writeAll base m (prepare s) cs).1.crc) = _
    rw [e4, e5]
  refine ⟨?_, e4, rfl, ?_, fun n => ?_⟩
  · rcases b2 with h | h
    · exact .inl h.1
    · exact .inr h.1
  · rw [hw, apply_append, update_apply, e6]
  · rw [hw, List.take_append]
    by_cases hn : n ≤ (writeAll base m (prepare s) cs).2.length
    · left
      obtain ⟨j, j1, j2⟩ := b7 n
      refine ⟨j, j1, ?_⟩
      rw [show n - (writeAll base m (prepare s) cs).2.length = 0 by omega, List.take_zero, List.append_nil]
      exact j2
    · right
      obtain ⟨j, j1, j2⟩ := update_prefix (apply m (writeAll base m (prepare s) cs).2) base
        (preamble cs.flatten.length (crc16 cs.flatten)) (n - (writeAll base m (prepare s) cs).2.length)
      refine ⟨j, ?_⟩
      rw [List.take_of_length_le (by omega), apply_append, j2, e6]

/-! ## Size check -/

theorem writeAll_dry (base : Nat) (cs : List (List Byte)) : ∀ (m : Mem) (s : S), s.dry = true →
    (writeAll base m s cs).2 = [] ∧ (writeAll base m s cs).1.newSize = s.newSize + cs.flatten.length ∧
    (writeAll base m s cs).1.valid = s.valid ∧ (writeAll base m s cs).1.dry = true ∧
    ((writeAll base m s cs).1.esize = s.esize ∧ (writeAll base m s cs).1.eoff = s.eoff ∨
      (writeAll base m s cs).1.esize = 0 ∧ (writeAll base m s cs).1.eoff = 0 ∧ 0 < cs.flatten.length) ∧
    (∀ k, s.cur = s.eoff + k → s.esize = 0 ∨ k + cs.flatten.length ≤ s.esize →
      (writeAll base m s cs).1.esize = s.esize ∧ (writeAll base m s cs).1.eoff = s.eoff) := by
  induction cs with
  | nil => intro m s h; exact ⟨rfl, rfl, rfl, h, .inl ⟨rfl, rfl⟩, fun _ _ _ => ⟨rfl, rfl⟩⟩
  | cons c cs ih =>
    intro m s h
    have key : (writeState base m s c).2 = [] ∧ (writeState base m s c).1.newSize = s.newSize + c.length ∧
        (writeState base m s c).1.valid = s.valid ∧ (writeState base m s c).1.dry = true ∧
        ((writeState base m s c).1.esize = s.esize ∧ (writeState base m s c).1.eoff = s.eoff ∧ (writeState base m s c).1.cur = s.cur + c.length ∨
          (writeState base m s c).1.esize = 0 ∧ (writeState base m s c).1.eoff = 0 ∧ 0 < c.length ∧ 0 < s.esize ∧
          s.eoff + s.esize < s.cur + c.length) := by
      unfold writeState
      by_cases hc : c = []
      · rw [if_pos hc, hc]
        exact ⟨rfl, rfl, rfl, h, .inl ⟨rfl, rfl, rfl⟩⟩
      · have hl : 0 < c.length := by cases c with | nil => exact absurd rfl hc | cons a b => simp
        rw [if_neg hc]
        split
        · rename_i ho
          exact ⟨rfl, rfl, rfl, h, .inr ⟨rfl, rfl, hl, ho.1, ho.2⟩⟩
        · exact ⟨rfl, rfl, rfl, h, .inl ⟨rfl, rfl, rfl⟩⟩
    obtain ⟨a1, a2, a3, a4, a5⟩ := key
    obtain ⟨b1, b2, b3, b4, b5, b6⟩ := ih (apply m (writeState base m s c).2) (writeState base m s c).1 a4
    have hfl : (c :: cs).flatten.length = c.length + cs.flatten.length := by simp
    show (writeState base m s c).2 ++ (writeAll base (apply m (writeState base m s c).2) (writeState base m s c).1 cs).2 = [] ∧
      (writeAll base (apply m (writeState base m s c).2) (writeState base m s c).1 cs).1.newSize = _ ∧
      (writeAll base (apply m (writeState base m s c).2) (writeState base m s c).1 cs).1.valid = _ ∧
      (writeAll base (apply m (writeState base m s c).2) (writeState base m s c).1 cs).1.dry = _ ∧
      ((writeAll base (apply m (writeState base m s c).2) (writeState base m s c).1 cs).1.esize = _ ∧ (writeAll base (apply m (writeState base m s c).2) (writeState base m s c).1 cs).1.eoff = _ ∨
      (writeAll base (apply m (writeState base m s c).2) (writeState base m s c).1 cs).1.esize = _ ∧ (writeAll base (apply m (writeState base m s c).2) (writeState base m s c).1 cs).1.eoff = _ ∧ _) ∧
      (∀ k, s.cur = s.eoff + k → _ → (writeAll base (apply m (writeState base m s c).2) (writeState base m s c).1 cs).1.esize = _ ∧ (writeAll base (apply m (writeState base m s c).2) (writeState base m s c).1 cs).1.eoff = _)
    generalize (writeAll base (apply m (writeState base m s c).2) (writeState base m s c).1 cs) = r at b1 b2 b3 b4 b5 b6
    generalize (writeState base m s c) = q at a1 a2 a3 a4 a5 b2 b3 b5 b6
    refine ⟨by rw [a1, b1]; rfl, by omega, b3.trans a3, b4, ?_, fun k hk hs => ?_⟩
    · omega
    · rcases a5 with ⟨c1, c2, c3⟩ | ⟨c1, c2, c3, c4, c5⟩
      · have := b6 (k + c.length) (by omega) (by omega)
        omega
      · omega

theorem sizeCheck_spec (base : Nat) (m : Mem) (s : S) (cs : List (List Byte)) :
    (s.esize = cs.flatten.length → (sizeCheck base m s cs).2 = true ∧ (sizeCheck base m s cs).1.eoff = s.eoff ∧
      (sizeCheck base m s cs).1.esize = s.esize ∧ (sizeCheck base m s cs).1.valid = s.valid) ∧
    (s.esize ≠ cs.flatten.length → (sizeCheck base m s cs).2 = false ∧ (sizeCheck base m s cs).1.eoff = 0 ∧
      (sizeCheck base m s cs).1.esize = 0) := by
  obtain ⟨_, b2, b3, b4, b5, b6⟩ := writeAll_dry base cs m { s with dry := true, newSize := 0, cur := s.eoff, crc := 0xFFFF } rfl
  unfold sizeCheck
  dsimp only at b2 b3 b5 b6 ⊢
  generalize writeAll base m { s with dry := true, newSize := 0, cur := s.eoff, crc := 0xFFFF } cs = p at b2 b3 b4 b5 b6
  have b6 := b6 0 rfl
  constructor
  · intro h
    have b6 := b6 (by omega)
    rw [if_neg (by omega)]
    exact ⟨rfl, b6.2, b6.1, b3⟩
  · intro h
    rw [if_pos (by omega)]
    exact ⟨rfl, rfl, rfl⟩

/-! ## Reading -/

/-- The pieces of the given sizes of a list of bytes. -/
def pieces : List Nat → List Byte → List (List Byte)
  | [], _ => []
  | n :: ns, d => d.take n :: pieces ns (d.drop n)

theorem pieces_flatten (cs : List (List Byte)) : pieces (cs.map List.length) cs.flatten = cs := by
  induction cs with
  | nil => rfl
  | cons c cs ih =>
    show (c ++ cs.flatten).take c.length :: pieces (cs.map List.length) ((c ++ cs.flatten).drop c.length) = _
    rw [List.take_left', List.drop_left', ih] <;> rfl

theorem readRange_split (m : Mem) (off a b : Nat) : readRange m off (a + b) = readRange m off a ++ readRange m (off + a) b := by
  apply List.ext_getElem
  · simp
  · intro i h1 h2
    by_cases hi : i < a
    · rw [List.getElem_append_left (by simpa using hi)]
      simp [readRange]
    · rw [List.getElem_append_right (by simpa using hi)]
      simp only [readRange, List.getElem_map, List.getElem_range, List.length_map, List.length_range]
      congr 1
      omega

/-- What lies before the reader. -/
def Stream (m : Mem) (s : S) (d : List Byte) : Prop :=
  s.valid = true ∧ s.cur + d.length ≤ s.eoff + s.esize ∧ readRange m s.cur d.length = d

theorem read_stream {m : Mem} {s : S} {a b : List Byte} (h : Stream m s (a ++ b)) :
    (readState m s a.length).2 = some a ∧ Stream m (readState m s a.length).1 b := by
  obtain ⟨h1, h2, h3⟩ := h
  rw [List.length_append] at h2 h3
  rw [readRange_split] at h3
  obtain ⟨e1, e2⟩ := List.append_inj h3 (by simp)
  unfold readState
  rw [if_neg (by rw [h1]; exact fun a => Bool.noConfusion a), if_neg (by omega)]
  exact ⟨congrArg some e1, h1, by show s.cur + a.length + b.length ≤ s.eoff + s.esize; omega, e2⟩

theorem readAll_stream {m : Mem} (cs : List (List Byte)) : ∀ {s : S} {d : List Byte}, Stream m s (cs.flatten ++ d) →
    (readAll m s (cs.map List.length)).2 = cs.map some ∧ Stream m (readAll m s (cs.map List.length)).1 d := by
  induction cs with
  | nil => intro s d h; exact ⟨rfl, h⟩
  | cons c cs ih =>
    intro s d h
    have h : Stream m s (c ++ (cs.flatten ++ d)) := by
      rw [← List.append_assoc]; exact h
    obtain ⟨r1, r2⟩ := read_stream h
    obtain ⟨q1, q2⟩ := ih r2
    refine ⟨?_, q2⟩
    show (readState m s c.length).2 :: (readAll m (readState m s c.length).1 (cs.map List.length)).2 = _
    rw [r1, q1]
    rfl

theorem readAll_invalid {m : Mem} (ns : List Nat) : ∀ (s : S), s.valid = false →
    (readAll m s ns).2 = ns.map fun _ => none := by
  induction ns with
  | nil => intro s _; rfl
  | cons n ns ih =>
    intro s h
    have : readState m s n = (s, none) := by
      unfold readState
      rw [if_pos h]
    show (readState m s n).2 :: (readAll m (readState m s n).1 ns).2 = _
    rw [this, ih s h]
    rfl

theorem pieces_lengths (ns : List Nat) : ∀ d : List Byte, ns.sum = d.length →
    (pieces ns d).map List.length = ns ∧ (pieces ns d).flatten = d := by
  induction ns with
  | nil => intro d h; exact ⟨rfl, (List.eq_nil_of_length_eq_zero h.symm).symm⟩
  | cons n ns ih =>
    intro d h
    rw [List.sum_cons] at h
    obtain ⟨a, b⟩ := ih (d.drop n) (by rw [List.length_drop]; omega)
    refine ⟨?_, ?_⟩
    · show (d.take n).length :: _ = _
      rw [a, List.length_take, Nat.min_eq_left (by omega)]
    · show d.take n ++ _ = _
      rw [b, List.take_append_drop]

/-- Reading the whole section in pieces. -/
theorem readAll_section {m : Mem} {s : S} {ns : List Nat} (hv : s.valid = true) (hc : s.cur = s.eoff) (hn : ns.sum = s.esize) :
    (readAll m s ns).2 = (pieces ns (readRange m s.eoff s.esize)).map some := by
  obtain ⟨a, b⟩ := pieces_lengths ns (readRange m s.eoff s.esize) (by simpa using hn)
  have := (readAll_stream (m := m) (pieces ns (readRange m s.eoff s.esize)) (s := s) (d := [])
    ⟨hv, by rw [List.append_nil, b, readRange_length, hc]; exact Nat.le_refl _,
      by rw [List.append_nil, b, readRange_length, hc]⟩).1
  rw [a] at this
  exact this

theorem readAll_keeps {m : Mem} (ns : List Nat) : ∀ (s : S), (readAll m s ns).1.eoff = s.eoff ∧ (readAll m s ns).1.esize = s.esize := by
  induction ns with
  | nil => intro s; exact ⟨rfl, rfl⟩
  | cons n ns ih =>
    intro s
    have h : (readState m s n).1.eoff = s.eoff ∧ (readState m s n).1.esize = s.esize := by
      unfold readState
      repeat' split
      all_goals exact ⟨rfl, rfl⟩
    obtain ⟨a, b⟩ := ih (readState m s n).1
    exact ⟨a.trans h.1, b.trans h.2⟩

/-! ## Starting -/

theorem de16_le16 (c : BitVec 16) : de16 ((le16 c).getD 0 0) ((le16 c).getD 1 0) = c := by
  show (((c >>> 8).setWidth 8) ++ (c.setWidth 8) : BitVec 16) = c
  apply BitVec.eq_of_getLsbD_eq
  intro i hi
  rw [BitVec.getLsbD_append]
  split
  · rename_i h
    simp [h]
  · rename_i h
    simp
    rw [show 8 + (i - 8) = i by omega]
    have : decide (i - 8 < 8) = true := by simp; omega
    rw [this, Bool.true_and]

/-- A medium with a header for one section. -/
def HasHeader (start : Nat) (m : Mem) : Prop := readRange m start 8 = header

theorem boot_header {start : Nat} {m : Mem} (h : HasHeader start m) :
    boot start m = (initSection (start + 8) m (start + 8) {}, []) := by
  unfold HasHeader at h
  have hb : ∀ i, i < 8 → m (start + i) = header.getD i 0 := by
    intro i hi
    have := congrArg (fun l => l.getD i 0) h
    rw [← this]
    simp [readRange, List.getD_eq_getElem?_getD, hi]
  have h1 : readRange m start 5 = tag := by
    have := readRange_split m start 5 3
    rw [h] at this
    exact ((List.append_inj (this.symm.trans (show header = tag ++ (le16 1 ++ [1]) from rfl)) (by simp [tag])).1)
  have h2 : readRange m (start + 5) 2 = le16 1 := by
    have e5 := hb 5 (by decide)
    have e6 := hb 6 (by decide)
    show [m (start + 5 + 0), m (start + 5 + 1)] = _
    rw [show start + 5 + 0 = start + 5 from rfl, show start + 5 + 1 = start + 6 from rfl, e5, e6]
    rfl
  have h7 : m (start + 7) = 1 := hb 7 (by decide)
  unfold boot
  rw [if_neg (by rw [h7]; simp [h1]), if_neg (by simp [h2]), h7]
  rfl

/-- The preamble at `base` tells a size and a checksum. -/
def HasPreamble (base : Nat) (m : Mem) (size : Nat) (crc : BitVec 16) : Prop := readRange m base 7 = preamble size crc

theorem init_preamble {base : Nat} {m : Mem} {size : Nat} {crc : BitVec 16} (h : HasPreamble base m size crc) (hs : size < 65536) :
    initSection base m base {} = { eoff := base + 7, esize := size, valid := crc16 (readRange m (base + 7) size) = crc || crc = 0 } := by
  unfold HasPreamble at h
  have hb : ∀ i, i < 7 → m (base + i) = (preamble size crc).getD i 0 := by
    intro i hi
    have := congrArg (fun l => l.getD i 0) h
    rw [← this]
    simp [readRange, List.getD_eq_getElem?_getD, hi]
  have e0 : m base = 3 := hb 0 (by decide)
  have e1 : de16 (m (base + 1)) (m (base + 2)) = BitVec.ofNat 16 size := by
    rw [hb 1 (by decide), hb 2 (by decide)]; exact de16_le16 _
  have e2 : de16 (m (base + 3)) (m (base + 4)) = crc := by
    rw [hb 3 (by decide), hb 4 (by decide)]; exact de16_le16 _
  have e3 : de16 (m (base + 5)) (m (base + 6)) = crc := by
    rw [hb 5 (by decide), hb 6 (by decide)]; exact de16_le16 _
  have es : (BitVec.ofNat 16 size).toNat = size := by
    rw [BitVec.toNat_ofNat]; exact Nat.mod_eq_of_lt hs
  unfold initSection
  rw [if_pos e0, e1, e2, e3, es]
  simp

/-- A start does not leave a section of another size. -/
theorem init_ready (base : Nat) (m : Mem) (off : Nat) (s : S) (h : Ready base s) : Ready base (initSection base m off s) := by
  unfold initSection
  split
  · exact .inl rfl
  · exact h

theorem init_valid {base : Nat} {m : Mem} {off : Nat} (h : (initSection base m off {}).valid = true) :
    (initSection base m off {}).eoff = base + 7 := by
  unfold initSection at h ⊢
  split
  · rfl
  · rename_i hn
    rw [if_neg hn] at h
    cases h

/-- The start of a device on a medium with a header. -/
theorem begin_header {start : Nat} {m : Mem} (cs : List (List Byte)) (h : HasHeader start m) :
    (begin' start m cs).ws = [] ∧ Ready (start + 8) (begin' start m cs).s ∧
    ((begin' start m cs).s.esize = 0 ∨ (begin' start m cs).s.esize = cs.flatten.length) ∧
    ((begin' start m cs).loaded = (cs.map fun _ => none) ∨
      (initSection (start + 8) m (start + 8) {}).valid = true ∧
      (initSection (start + 8) m (start + 8) {}).esize = cs.flatten.length ∧
      (begin' start m cs).loaded = (pieces (cs.map List.length) (readRange m (start + 15) cs.flatten.length)).map some) ∧
    ((initSection (start + 8) m (start + 8) {}).valid = true →
      (initSection (start + 8) m (start + 8) {}).esize = cs.flatten.length →
      (begin' start m cs).loaded = (pieces (cs.map List.length) (readRange m (start + 15) cs.flatten.length)).map some) := by
  have hb := boot_header h
  have hr := init_ready (start + 8) m (start + 8) {} (.inr rfl)
  have hev := init_valid (base := start + 8) (m := m) (off := start + 8)
  have hx : begin' start m cs = loadState m (sizeCheck (start + 8) m (initSection (start + 8) m (start + 8) {}) cs) cs [] := by
    unfold begin'
    rw [hb]
    rfl
  rw [hx]
  obtain ⟨s1, s2⟩ := sizeCheck_spec (start + 8) m (initSection (start + 8) m (start + 8) {}) cs
  generalize initSection (start + 8) m (start + 8) {} = i at hr s1 s2 hev
  generalize sizeCheck (start + 8) m i cs = c at s1 s2
  have hlen : (cs.map List.length).sum = cs.flatten.length := by simp [List.length_flatten]
  unfold loadState
  by_cases he : i.esize = cs.flatten.length
  · obtain ⟨t1, t2, t3, t4⟩ := s1 he
    rw [if_pos t1]
    have hk := readAll_keeps (m := m) (cs.map List.length) { c.1 with dry := false, cur := c.1.eoff }
    refine ⟨rfl, ?_, .inr ?_, ?_, fun hv _ => ?_⟩
    · show Ready _ (readAll m _ _).1
      unfold Ready at hr ⊢
      rw [hk.1]
      show c.1.eoff = _ ∨ c.1.eoff = _
      rw [t2]; exact hr
    · show (readAll m _ _).1.esize = _
      rw [hk.2]
      exact t3.trans he
    · cases hv : c.1.valid with
      | false =>
        left
        rw [readAll_invalid _ _ (by exact hv), List.map_map]
        rfl
      | true =>
        right
        refine ⟨by rw [← t4]; exact hv, he, ?_⟩
        rw [readAll_section (by exact hv) rfl (by rw [hlen]; exact (t3.trans he).symm)]
        show (pieces _ (readRange m c.1.eoff c.1.esize)).map some = _
        rw [t2, t3, hev (t4.symm.trans hv), he]
    · rw [readAll_section (by exact t4.trans hv) rfl (by rw [hlen]; exact (t3.trans he).symm)]
      show (pieces _ (readRange m c.1.eoff c.1.esize)).map some = _
      rw [t2, t3, hev hv, he]
  · obtain ⟨t1, t2, t3⟩ := s2 he
    rw [if_neg (by rw [t1]; exact fun a => Bool.noConfusion a)]
    exact ⟨rfl, .inr t2, .inl t3, .inl rfl, fun _ a => absurd a he⟩

end Verif.SimpleState
