import Verif.Storage.Spec

/-!
# Lemmas about byte ranges of the medium
-/

namespace Verif.Storage

open Verif.Crc16 (crc16)

theorem apply_append (m : Mem) (a b : List Write) : apply m (a ++ b) = apply (apply m a) b := by
  simp [apply]

@[simp] theorem apply_nil (m : Mem) : apply m [] = m := rfl

theorem apply_bytesAt (data : List Byte) : ∀ (m : Mem) (off a : Nat),
    apply m (bytesAt off data) a
      = if off ≤ a ∧ a < off + data.length then data.getD (a - off) 0 else m a := by
  induction data with
  | nil =>
    intro m off a
    simp only [bytesAt, apply_nil, List.length_nil]
    rw [if_neg (by omega)]
  | cons b bs ih =>
    intro m off a
    show apply (put m (off, b)) (bytesAt (off + 1) bs) a = _
    rw [ih]
    simp only [put, List.length_cons]
    by_cases h1 : a = off
    · subst h1
      have : ¬ (a + 1 ≤ a ∧ a < a + 1 + bs.length) := by omega
      rw [if_neg this, if_pos rfl, if_pos (by omega)]
      simp
    · rw [if_neg h1]
      by_cases h2 : off + 1 ≤ a ∧ a < off + 1 + bs.length
      · rw [if_pos h2, if_pos (by omega)]
        obtain ⟨k, hk⟩ : ∃ k, a = off + 1 + k := ⟨a - (off + 1), by omega⟩
        subst hk
        have e1 : off + 1 + k - (off + 1) = k := by omega
        have e2 : off + 1 + k - off = k + 1 := by omega
        rw [e1, e2]; simp
      · rw [if_neg h2, if_neg (by omega)]

theorem bytesAt_length (data : List Byte) : ∀ off, (bytesAt off data).length = data.length := by
  induction data with
  | nil => intro; rfl
  | cons b bs ih => intro off; simp [bytesAt, ih]

theorem bytesAt_take (data : List Byte) : ∀ off n, (bytesAt off data).take n = bytesAt off (data.take n) := by
  induction data with
  | nil => intro off n; simp [bytesAt]
  | cons b bs ih =>
    intro off n
    cases n with
    | zero => simp [bytesAt]
    | succ n => simp [bytesAt, ih]

theorem bytesAt_addr (data : List Byte) : ∀ off (w : Write), w ∈ bytesAt off data →
    off ≤ w.1 ∧ w.1 < off + data.length := by
  induction data with
  | nil => intro off w h; simp [bytesAt] at h
  | cons b bs ih =>
    intro off w h
    simp only [bytesAt, List.mem_cons] at h
    rcases h with h | h
    · subst h; simp
    · have := ih _ _ h
      simp only [List.length_cons]; omega

/-- Addresses not written keep their contents. -/
theorem apply_other (ws : List Write) : ∀ (m : Mem) (a : Nat), (∀ w ∈ ws, w.1 ≠ a) → apply m ws a = m a := by
  induction ws with
  | nil => intro m a _; rfl
  | cons w ws ih =>
    intro m a h
    show apply (put m w) ws a = m a
    rw [ih _ _ (fun v hv => h v (List.mem_cons_of_mem _ hv))]
    have := h w List.mem_cons_self
    simp only [put]
    rw [if_neg (fun e => this e.symm)]

@[simp] theorem readRange_length (m : Mem) (off n : Nat) : (readRange m off n).length = n := by
  simp [readRange]

theorem readRange_congr (m m' : Mem) (off n : Nat) (h : ∀ a, off ≤ a → a < off + n → m a = m' a) :
    readRange m off n = readRange m' off n := by
  unfold readRange
  apply List.map_congr_left
  intro i hi
  have := List.mem_range.mp hi
  exact h _ (by omega) (by omega)

theorem readRange_eq_iff (m : Mem) (off : Nat) (data : List Byte) :
    readRange m off data.length = data ↔ ∀ i (h : i < data.length), m (off + i) = data[i] := by
  constructor
  · intro h i hi
    have : (readRange m off data.length)[i]? = data[i]? := by rw [h]
    rw [List.getElem?_eq_getElem hi] at this
    simpa [readRange, hi] using this
  · intro h
    apply List.ext_getElem (by simp)
    intro i h1 h2
    simp [readRange, h i h2]

theorem readRange_written (m : Mem) (off : Nat) (data : List Byte) :
    readRange (apply m (bytesAt off data)) off data.length = data := by
  rw [readRange_eq_iff]
  intro i hi
  rw [apply_bytesAt, if_pos (by omega)]
  rw [show off + i - off = i by omega]
  simp [List.getD_eq_getElem?_getD, hi]

/-- A partially written range reads as the new prefix followed by the old rest. -/
theorem readRange_partial (m : Mem) (off k : Nat) (data : List Byte) (old : List Byte)
    (hlen : old.length = data.length) (hold : readRange m off data.length = old) :
    readRange (apply m (bytesAt off (data.take k))) off data.length = data.take k ++ old.drop k := by
  apply List.ext_getElem
  · simp only [readRange_length, List.length_append, List.length_take, List.length_drop]; omega
  · intro i h1 h2
    simp only [readRange_length] at h1
    have hm : m (off + i) = old[i]'(by omega) := by
      subst hold; simp [readRange]
    have e : (readRange (apply m (bytesAt off (data.take k))) off data.length)[i]'(by simpa using h1)
        = apply m (bytesAt off (data.take k)) (off + i) := by simp [readRange]
    rw [e, apply_bytesAt, show off + i - off = i by omega]
    simp only [List.length_take]
    by_cases hk : i < k
    · rw [if_pos (by omega), List.getElem_append_left (by simp; omega)]
      simp [List.getD_eq_getElem?_getD, hk, h1]
    · rw [if_neg (by omega), List.getElem_append_right (by simp; omega), hm]
      simp only [List.length_take, List.getElem_drop]
      congr 1; omega

theorem readRange_disjoint (m : Mem) (off n : Nat) (ws : List Write)
    (h : ∀ w ∈ ws, w.1 < off ∨ off + n ≤ w.1) : readRange (apply m ws) off n = readRange m off n := by
  apply readRange_congr
  intro a h1 h2
  apply apply_other
  intro w hw e
  rcases h w hw with h | h <;> omega

/-! ### Copies -/

@[simp] theorem le16_length (c : BitVec 16) : (le16 c).length = 2 := rfl

theorem writeCopy_addr (m : Mem) (s : Section) (data : List Byte) (e : Nat) (hl : data.length = s.size) :
    ∀ w ∈ writeCopy m s data e, s.entryOffset e ≤ w.1 ∧ w.1 < s.entryOffset e + s.entrySize := by
  intro w hw
  unfold writeCopy at hw
  split at hw
  · rcases List.mem_append.mp hw with h | h
    · have := bytesAt_addr _ _ _ h
      unfold Section.entrySize; omega
    · split at h
      · rename_i hc
        have := bytesAt_addr _ _ _ h
        simp only [le16_length] at this
        simp only [Section.entrySize, hc, if_true]; omega
      · cases h
  · cases hw

theorem deleteCopy_addr (s : Section) (e : Nat) :
    ∀ w ∈ deleteCopy s e, s.entryOffset e ≤ w.1 ∧ w.1 < s.entryOffset e + s.entrySize := by
  intro w hw
  unfold deleteCopy at hw
  rcases List.mem_append.mp hw with h | h
  · have := bytesAt_addr _ _ _ h
    simp only [List.length_replicate] at this
    unfold Section.entrySize; omega
  · split at h
    · rename_i hc
      have := bytesAt_addr _ _ _ h
      simp only [List.length_cons, List.length_nil] at this
      simp only [Section.entrySize, hc, if_true]; omega
    · cases h

theorem entry_owned (s : Section) (e : Nat) (he : e ∈ s.entries) (a : Nat)
    (h1 : s.entryOffset e ≤ a) (h2 : a < s.entryOffset e + s.entrySize) : s.owns a := by
  unfold Section.entryOffset at h1 h2
  unfold Section.owns
  unfold Section.entries at he
  change s.offset ≤ a ∧ a < s.offset + (if s.backup then 2 else 1) * s.entrySize
  split at he
  · rename_i hb
    simp only [List.mem_cons, List.not_mem_nil, or_false] at he
    rw [if_pos hb]
    rcases he with he | he <;> subst he <;> omega
  · rename_i hb
    simp only [List.mem_cons, List.not_mem_nil, or_false] at he
    rw [if_neg hb]
    subst he; omega

theorem writeCopies_addr (s : Section) (data : List Byte) (hl : data.length = s.size) :
    ∀ (es : List Nat) (m : Mem), (∀ e ∈ es, e ∈ s.entries) →
      ∀ w ∈ writeCopies m s data es, s.owns w.1 := by
  intro es
  induction es with
  | nil => intro m _ w hw; cases hw
  | cons e es ih =>
    intro m hes w hw
    simp only [writeCopies, List.mem_append] at hw
    rcases hw with h | h
    · have := writeCopy_addr m s data e hl w h
      exact entry_owned s e (hes e List.mem_cons_self) _ this.1 this.2
    · exact ih _ (fun x hx => hes x (List.mem_cons_of_mem _ hx)) w h

theorem lookup_mem {secs : List Section} {id : Int} {s : Section} (h : lookup secs id = some s) :
    s ∈ secs ∧ s.id = id := by
  unfold lookup at h
  exact ⟨List.mem_of_find?_eq_some h, by simpa using List.find?_some h⟩

theorem writeSection_addr {m : Mem} {secs : List Section} {id : Int} {data : List Byte} {ws : List Write}
    (h : writeSection m secs id data = some ws) :
    ∃ s ∈ secs, s.id = id ∧ ∀ w ∈ ws, s.owns w.1 := by
  unfold writeSection at h
  split at h
  · cases h
  · rename_i s hs
    have hm := lookup_mem hs
    split at h
    · cases h
    · rename_i hl
      injection h with h
      subst h
      exact ⟨s, hm.1, hm.2, writeCopies_addr s data (by omega) _ m (fun _ h => h)⟩

theorem deleteSection_addr {secs : List Section} {id : Int} {ws : List Write}
    (h : deleteSection secs id = some ws) :
    ∃ s ∈ secs, s.id = id ∧ ∀ w ∈ ws, s.owns w.1 := by
  unfold deleteSection at h
  split at h
  · cases h
  · rename_i s hs
    have hm := lookup_mem hs
    injection h with h
    subst h
    refine ⟨s, hm.1, hm.2, ?_⟩
    intro w hw
    obtain ⟨e, he, hw⟩ := List.mem_flatMap.mp hw
    have := deleteCopy_addr s e w hw
    exact entry_owned s e he _ this.1 this.2

/-- Reading a section only looks at the addresses it owns. -/
theorem readCopies_congr (s : Section) (m m' : Mem) (h : ∀ a, s.owns a → m a = m' a) :
    ∀ es, (∀ e ∈ es, e ∈ s.entries) → readCopies m s es = readCopies m' s es := by
  intro es
  induction es with
  | nil => intro _; rfl
  | cons e es ih =>
    intro hes
    have he := hes e List.mem_cons_self
    have hd : readRange m (s.entryOffset e) s.size = readRange m' (s.entryOffset e) s.size := by
      apply readRange_congr
      intro a h1 h2
      exact h a (entry_owned s e he a h1 (by unfold Section.entrySize; omega))
    have hc : copyOk m s e = copyOk m' s e := by
      unfold copyOk
      cases hcr : s.crc with
      | false => rfl
      | true =>
        have : readRange m (s.entryOffset e + s.size) 2 = readRange m' (s.entryOffset e + s.size) 2 := by
          apply readRange_congr
          intro a h1 h2
          exact h a (entry_owned s e he a (by omega) (by simp only [Section.entrySize, hcr, if_true]; omega))
        rw [this, hd]
    simp only [readCopies, hc, hd]
    rw [ih (fun x hx => hes x (List.mem_cons_of_mem _ hx))]

theorem readSection_congr (secs : List Section) (id : Int) (size : Nat) (m m' : Mem)
    (h : ∀ s, lookup secs id = some s → ∀ a, s.owns a → m a = m' a) :
    readSection m secs id size = readSection m' secs id size := by
  unfold readSection
  split
  · rfl
  · rename_i s hs
    split
    · rfl
    · exact readCopies_congr s m m' (h s hs) _ (fun _ h => h)

/-- State of a copy just after it was (or was not) rewritten. -/
theorem writeCopy_result (m : Mem) (s : Section) (data : List Byte) (e : Nat) (hl : data.length = s.size) :
    readRange (apply m (writeCopy m s data e)) (s.entryOffset e) s.size = data
      ∧ (copyOk m s e = true ∨ readRange m (s.entryOffset e) s.size ≠ data →
          copyOk (apply m (writeCopy m s data e)) s e = true) := by
  unfold writeCopy
  split
  · rename_i hne
    rw [apply_append]
    have hd : readRange (apply (apply m (bytesAt (s.entryOffset e) data))
        (if s.crc then bytesAt (s.entryOffset e + s.size) (le16 (crc16 data)) else []))
        (s.entryOffset e) s.size = data := by
      rw [readRange_disjoint]
      · rw [← hl]; exact readRange_written m _ data
      · intro w hw
        split at hw
        · have := bytesAt_addr _ _ _ hw; omega
        · cases hw
    refine ⟨hd, fun _ => ?_⟩
    unfold copyOk
    rw [hd]
    cases hcr : s.crc with
    | false => rfl
    | true =>
      simp only [Bool.not_true, Bool.false_or, if_true, beq_iff_eq]
      exact readRange_written _ _ (le16 (crc16 data))
  · rename_i heq
    have heq : readRange m (s.entryOffset e) s.size = data := by
      apply Classical.byContradiction; intro h; exact heq h
    exact ⟨heq, fun h => by
      rcases h with h | h
      · exact h
      · exact absurd heq h⟩

/-- Rewriting one copy does not touch the other. -/
theorem copy_other (m : Mem) (s : Section) (e e' : Nat) (ws : List Write) (hne : e ≠ e')
    (h : ∀ w ∈ ws, s.entryOffset e ≤ w.1 ∧ w.1 < s.entryOffset e + s.entrySize) :
    readRange (apply m ws) (s.entryOffset e') s.size = readRange m (s.entryOffset e') s.size
      ∧ copyOk (apply m ws) s e' = copyOk m s e' := by
  have key : ∀ w ∈ ws, w.1 < s.entryOffset e' ∨ s.entryOffset e' + s.entrySize ≤ w.1 := by
    intro w hw
    have := h w hw
    unfold Section.entryOffset at *
    rcases Nat.lt_or_gt_of_ne hne with hlt | hgt
    · left
      have : (e + 1) * s.entrySize ≤ e' * s.entrySize := Nat.mul_le_mul_right _ hlt
      rw [Nat.succ_mul] at this; omega
    · right
      have : (e' + 1) * s.entrySize ≤ e * s.entrySize := Nat.mul_le_mul_right _ hgt
      rw [Nat.succ_mul] at this; omega
  have hd : readRange (apply m ws) (s.entryOffset e') s.size = readRange m (s.entryOffset e') s.size := by
    apply readRange_disjoint
    intro w hw
    have := key w hw
    unfold Section.entrySize at this; omega
  refine ⟨hd, ?_⟩
  unfold copyOk
  rw [hd]
  cases hcr : s.crc with
  | false => rfl
  | true =>
    rw [readRange_disjoint]
    intro w hw
    have := key w hw
    simp only [Section.entrySize, hcr, if_true] at this; omega

/-- What every copy looks like after a complete write. -/
theorem writeCopies_result (m : Mem) (s : Section) (data : List Byte) (hl : data.length = s.size) :
    ∀ e ∈ s.entries,
      readRange (apply m (writeCopies m s data s.entries)) (s.entryOffset e) s.size = data
      ∧ (copyOk m s e = true ∨ readRange m (s.entryOffset e) s.size ≠ data →
          copyOk (apply m (writeCopies m s data s.entries)) s e = true) := by
  unfold Section.entries
  split
  · intro e he
    simp only [writeCopies, List.append_nil, apply_append]
    have w0 := writeCopy_result m s data 0 hl
    have a0 := writeCopy_addr m s data 0 hl
    generalize hm1 : apply m (writeCopy m s data 0) = m1 at *
    have w1 := writeCopy_result m1 s data 1 hl
    have a1 := writeCopy_addr m1 s data 1 hl
    simp only [List.mem_cons, List.not_mem_nil, or_false] at he
    rcases he with he | he
    · subst he
      have o := copy_other m1 s 1 0 _ (by decide) a1
      rw [o.1, o.2]; exact w0
    · subst he
      have o := copy_other m s 0 1 _ (by decide) a0
      rw [hm1] at o
      rw [o.1, o.2] at w1; exact w1
  · intro e he
    simp only [List.mem_cons, List.not_mem_nil, or_false] at he
    subst he
    simp only [writeCopies, List.append_nil]
    exact writeCopy_result m s data 0 hl

/-- If every copy holds `data` and at least one passes its check, reading yields `data`. -/
theorem readCopies_eq (m : Mem) (s : Section) (data : List Byte) :
    ∀ es, (∀ e ∈ es, readRange m (s.entryOffset e) s.size = data) →
      (∃ e ∈ es, copyOk m s e = true) → readCopies m s es = some data := by
  intro es
  induction es with
  | nil => intro _ ⟨e, he, _⟩; cases he
  | cons e es ih =>
    intro hd hex
    simp only [readCopies]
    split
    · rw [hd e List.mem_cons_self]
    · rename_i hno
      apply ih (fun x hx => hd x (List.mem_cons_of_mem _ hx))
      obtain ⟨x, hx, hok⟩ := hex
      rcases List.mem_cons.mp hx with h | h
      · subst h; exact absurd hok hno
      · exact ⟨x, h, hok⟩

theorem readCopies_none (m : Mem) (s : Section) :
    ∀ es, (∀ e ∈ es, copyOk m s e = false) → readCopies m s es = none := by
  intro es
  induction es with
  | nil => intro _; rfl
  | cons e es ih =>
    intro h
    simp only [readCopies, h e List.mem_cons_self, Bool.false_eq_true, if_false]
    exact ih (fun x hx => h x (List.mem_cons_of_mem _ hx))

end Verif.Storage
