import Verif.WearByte.Spec
import Verif.Storage.Lemmas

/-!
# Lemmas for byte wear levelling
-/

namespace Verif.WearByte

open Verif.Storage
open Verif.Crc16 (crc16)

/-! ### Encodings -/

theorem leVal_le16 (v : BitVec 16) : leVal (le16 v) = v.toNat := by
  simp only [le16, leVal, BitVec.toNat_setWidth, BitVec.toNat_ushiftRight, Nat.shiftRight_eq_div_pow]
  have := v.isLt
  omega

theorem leVal_le32 (a : Nat) : leVal (le32 a) = a % 2 ^ 32 := by
  simp only [le32, leVal, BitVec.toNat_ofNat]
  omega

@[simp] theorem le32_length (a : Nat) : (le32 a).length = 4 := rfl
@[simp] theorem entryBytes_length (a n : Nat) : (entryBytes a n).length = 8 := rfl
@[simp] theorem headerBytes_length (w : Nat) (d : List Byte) : (headerBytes w d).length = 4 := rfl

theorem entryOk_entryBytes (a n : Nat) : entryOk (entryBytes a n) = true := by
  simp [entryOk, entryBytes, le32, le16]

theorem entryAddr_entryBytes (a n : Nat) (h : a < 2 ^ 32) : entryAddr (entryBytes a n) = a := by
  have : (entryBytes a n).take 4 = le32 a := rfl
  unfold entryAddr
  rw [this, leVal_le32]; omega

theorem entrySize_entryBytes (a n : Nat) (h : n < 65536) : entrySize (entryBytes a n) = n := by
  have : ((entryBytes a n).drop 4).take 2 = le16 (BitVec.ofNat 16 n) := rfl
  unfold entrySize
  rw [this, leVal_le16, BitVec.toNat_ofNat]; omega

/-! ### Conditional writes -/

theorem upd_addr (m : Mem) (a : Nat) (bs : List Byte) : ∀ w ∈ upd m a bs, a ≤ w.1 ∧ w.1 < a + bs.length := by
  intro w hw
  unfold upd at hw
  split at hw
  · cases hw
  · exact bytesAt_addr _ _ _ hw

theorem upd_result (m : Mem) (a : Nat) (bs : List Byte) :
    readRange (apply m (upd m a bs)) a bs.length = bs := by
  unfold upd
  split
  · assumption
  · exact readRange_written m a bs

theorem upd_eq_nil (m : Mem) (a : Nat) (bs : List Byte) (h : upd m a bs = []) :
    readRange m a bs.length = bs := by
  have := upd_result m a bs
  rw [h] at this; exact this

/-- A prefix of a conditional write leaves new bytes followed by old ones. -/
theorem upd_take (m : Mem) (a : Nat) (bs : List Byte) (k : Nat) :
    ∃ j, readRange (apply m ((upd m a bs).take k)) a bs.length
      = bs.take j ++ (readRange m a bs.length).drop j := by
  unfold upd
  split
  · exact ⟨0, by simp⟩
  · refine ⟨k, ?_⟩
    rw [bytesAt_take]
    exact readRange_partial m a k bs _ (by simp) rfl

theorem apply_outside (m : Mem) (ws : List Write) (lo hi : Nat)
    (h : ∀ w ∈ ws, lo ≤ w.1 ∧ w.1 < hi) (a : Nat) (ha : a < lo ∨ hi ≤ a) : apply m ws a = m a := by
  apply apply_other
  intro w hw e
  have := h w hw
  omega

/-! ### Slots -/

/-- Address of a slot lying completely inside the section. -/
def IsSlot (c : Cfg) (n a : Nat) : Prop :=
  ∃ k, a = c.first + k * slotSize n ∧ a + slotSize n ≤ c.off + c.reserved

theorem first_isSlot {c : Cfg} {n : Nat} (hf : Fits c n) : IsSlot c n c.first :=
  ⟨0, by simp, by have := hf.two; simp only [Cfg.first, slotSize]; omega⟩

theorem next_isSlot {c : Cfg} {n a : Nat} (hf : Fits c n) (h : IsSlot c n a) : IsSlot c n (c.next n a) := by
  unfold Cfg.next
  split
  · exact first_isSlot hf
  · obtain ⟨k, hk, hb⟩ := h
    exact ⟨k + 1, by rw [hk, Nat.succ_mul]; omega, by omega⟩

theorem next_ne {c : Cfg} {n a : Nat} (hf : Fits c n) (_h : IsSlot c n a) : c.next n a ≠ a := by
  intro he
  unfold Cfg.next at he
  have := hf.two
  split at he <;> rename_i hc <;> simp only [Cfg.first, slotSize] at he hc <;> omega

theorem slot_disjoint {c : Cfg} {n a b : Nat} (ha : IsSlot c n a) (hb : IsSlot c n b) (hne : a ≠ b) :
    a + slotSize n ≤ b ∨ b + slotSize n ≤ a := by
  obtain ⟨i, hi, _⟩ := ha
  obtain ⟨j, hj, _⟩ := hb
  rcases Nat.lt_trichotomy i j with h | h | h
  · left
    have : (i + 1) * slotSize n ≤ j * slotSize n := Nat.mul_le_mul_right _ h
    rw [Nat.succ_mul] at this; omega
  · subst h; omega
  · right
    have : (j + 1) * slotSize n ≤ i * slotSize n := Nat.mul_le_mul_right _ h
    rw [Nat.succ_mul] at this; omega

theorem slot_ge {c : Cfg} {n a : Nat} (ha : IsSlot c n a) : c.off + 7 + 16 ≤ a := by
  obtain ⟨k, hk, _⟩ := ha
  simp only [Cfg.first] at hk; omega

theorem slot_lt {c : Cfg} {n a : Nat} (hf : Fits c n) (ha : IsSlot c n a) : a < 2 ^ 32 := by
  obtain ⟨k, hk, h⟩ := ha
  have := hf.small; omega

theorem fits_size {c : Cfg} {n : Nat} (hf : Fits c n) : n < 65536 := by
  have := hf.small; have := hf.two; omega

theorem slots_ge {c : Cfg} {n : Nat} (hf : Fits c n) : 2 ≤ c.slots n ∧ c.slots n < 2 ^ 16 - 1 := by
  have := hf.two
  have := hf.small
  unfold Cfg.slots slotSize
  rw [if_pos (by omega)]
  constructor
  · rw [Nat.le_div_iff_mul_le (by omega)]; omega
  · have : (c.reserved - 2 * 8) / (n + 4) ≤ c.reserved - 2 * 8 := Nat.div_le_self _ _
    omega

theorem repeats_spec {c : Cfg} {n : Nat} (hf : Fits c n) :
    c.ok n = true ∧ 3 ≤ c.repeats n ∧ c.repeats n % 2 = 1 ∧ c.repeats n < 2 ^ 16 := by
  have := slots_ge hf
  unfold Cfg.ok Cfg.repeats
  refine ⟨by simp; omega, ?_⟩
  split <;> omega

/-- The slot at `a` carries `data` under write count `wc` with a correct CRC. -/
def SlotHolds (m : Mem) (a wc : Nat) (data : List Byte) : Prop :=
  readRange m a 4 = headerBytes wc data ∧ readRange m (a + 4) data.length = data

theorem readRange_split (m : Mem) (a i j : Nat) :
    readRange m a (i + j) = readRange m a i ++ readRange m (a + i) j := by
  apply List.ext_getElem
  · simp
  · intro k h1 h2
    simp only [readRange_length] at h1
    by_cases hk : k < i
    · rw [List.getElem_append_left (by simpa using hk)]; simp [readRange]
    · rw [List.getElem_append_right (by simpa using hk)]
      simp only [readRange, List.getElem_map, List.getElem_range, List.length_map, List.length_range]
      congr 1; omega

theorem header_parts {m : Mem} {a wc : Nat} {data : List Byte} (h : readRange m a 4 = headerBytes wc data) :
    readRange m a 2 = le16 (BitVec.ofNat 16 wc) ∧ readRange m (a + 2) 2 = le16 (crc16 data) := by
  rw [show (4 : Nat) = 2 + 2 from rfl, readRange_split] at h
  unfold headerBytes at h
  exact List.append_inj h (by simp [le16])

theorem SlotHolds.count {m : Mem} {a wc : Nat} {data : List Byte} (h : SlotHolds m a wc data)
    (hw : wc < 65536) : slotCount m a = wc := by
  unfold slotCount
  rw [(header_parts h.1).1, leVal_le16, BitVec.toNat_ofNat]; omega

theorem SlotHolds.ok {m : Mem} {a wc : Nat} {data : List Byte} (h : SlotHolds m a wc data) :
    slotOk m a data.length = true := by
  unfold slotOk
  rw [(header_parts h.1).2, h.2]; simp

theorem SlotHolds.congr {m m' : Mem} {a wc : Nat} {data : List Byte} (h : SlotHolds m a wc data)
    (he : ∀ x, a ≤ x → x < a + slotSize data.length → m' x = m x) : SlotHolds m' a wc data := by
  unfold slotSize at he
  refine ⟨?_, ?_⟩
  · rw [← h.1]; exact readRange_congr _ _ _ _ fun x h1 h2 => he x (by omega) (by omega)
  · rw [← h.2]
    rw [h.2]
    rw [readRange_congr m' m (a + 4) data.length fun x h1 h2 => he x (by omega) (by omega)]
    exact h.2

theorem slotCount_congr {m m' : Mem} {a : Nat} (he : ∀ x, a ≤ x → x < a + 2 → m' x = m x) :
    slotCount m' a = slotCount m a := by
  unfold slotCount
  rw [readRange_congr m' m a 2 he]

theorem target_isSlot {c : Cfg} {n : Nat} {r : Ram} (hf : Fits c n) (h : IsSlot c n r.cur) :
    IsSlot c n (c.target n r) ∧ IsSlot c n (c.other n r) ∧ c.target n r ≠ c.other n r := by
  unfold Cfg.target Cfg.other
  split
  · exact ⟨next_isSlot hf h, h, next_ne hf h⟩
  · exact ⟨h, next_isSlot hf h, (next_ne hf h).symm⟩

/-! ### A complete save -/

/-- Both address records hold `(a, n)`. -/
def Records (c : Cfg) (m : Mem) (a n : Nat) : Prop :=
  readRange m (c.off + 7) 8 = entryBytes a n ∧ readRange m (c.off + 7 + 8) 8 = entryBytes a n

theorem updEntries_addr (c : Cfg) (m : Mem) (a n : Nat) :
    ∀ w ∈ updEntries c m a n, c.off + 7 ≤ w.1 ∧ w.1 < c.off + 7 + 16 := by
  intro w hw
  unfold updEntries at hw
  rcases List.mem_append.mp hw with h | h
  · have := upd_addr _ _ _ w h
    simp only [entryBytes_length] at this; omega
  · have := upd_addr _ _ _ w h
    simp only [entryBytes_length] at this; omega

theorem updEntries_result (c : Cfg) (m : Mem) (a n : Nat) : Records c (apply m (updEntries c m a n)) a n := by
  unfold updEntries
  simp only [apply_append]
  refine ⟨?_, ?_⟩
  · have := upd_result (apply m (upd m (c.off + 7 + 8) (entryBytes a n))) (c.off + 7) (entryBytes a n)
    simpa using this
  · rw [readRange_disjoint]
    · have := upd_result m (c.off + 7 + 8) (entryBytes a n)
      simpa using this
    · intro w hw
      have := upd_addr _ _ _ w hw
      simp only [entryBytes_length] at this; omega

theorem updEntries_nil {c : Cfg} {m : Mem} {a n : Nat} (h : Records c m a n) : updEntries c m a n = [] := by
  unfold updEntries upd
  simp only [entryBytes_length, h.2, if_true, apply_nil, h.1, List.append_nil]

theorem Records.congr {c : Cfg} {m m' : Mem} {a n : Nat} (h : Records c m a n)
    (he : ∀ x, c.off + 7 ≤ x → x < c.off + 7 + 16 → m' x = m x) : Records c m' a n := by
  refine ⟨?_, ?_⟩
  · rw [← h.1]; exact readRange_congr _ _ _ _ fun x h1 h2 => he x (by omega) (by omega)
  · rw [← h.2]; exact readRange_congr _ _ _ _ fun x h1 h2 => he x (by omega) (by omega)

/-- What a save does: either nothing needs to be written, or the target slot, and both records, hold
the new state and everything else is untouched. -/
theorem save_result {c : Cfg} {n : Nat} (hf : Fits c n) (m : Mem) (r : Ram) (d : List Byte)
    (hd : d.length = n) (hs : IsSlot c n r.cur) :
    ((save c m r d).1 = [] ∧ (save c m r d).2 = r ∧ Records c m r.cur n
        ∧ readRange m (c.target n r + 4) n = d ∧ readRange m (c.other n r + 4) n = d)
    ∨ ((save c m r d).2 = c.bump n r
        ∧ SlotHolds (apply m (save c m r d).1) (c.target n r) r.wc d
        ∧ Records c (apply m (save c m r d).1) r.cur n
        ∧ ∀ x, (x < c.target n r ∨ c.target n r + slotSize n ≤ x) → (x < c.off + 7 ∨ c.off + 7 + 16 ≤ x) →
            apply m (save c m r d).1 x = m x) := by
  obtain ⟨ht, ho, hne⟩ := target_isSlot hf hs
  have tge := slot_ge ht
  subst hd
  unfold save
  simp only
  generalize hw1 : upd m (c.target d.length r + 4) d = w1
  have a1 := upd_addr m (c.target d.length r + 4) d
  have r1 := upd_result m (c.target d.length r + 4) d
  rw [hw1] at a1 r1
  generalize hm1 : apply m w1 = m1 at *
  generalize hw2 : updEntries c m1 r.cur d.length = w2
  have a2 := updEntries_addr c m1 r.cur d.length
  have r2 := updEntries_result c m1 r.cur d.length
  rw [hw2] at a2 r2
  generalize hm2 : apply m1 w2 = m2 at *
  have d2 : readRange m2 (c.target d.length r + 4) d.length = d := by
    rw [← hm2, readRange_disjoint _ _ _ _ (fun w hw => by have := a2 w hw; omega), r1]
  split
  · rename_i hskip
    left
    obtain ⟨hnil, heq⟩ := hskip
    obtain ⟨h1, h2⟩ := List.append_eq_nil_iff.mp hnil
    subst h1; subst h2
    simp only [apply_nil] at hm1 hm2
    subst hm1; subst hm2
    exact ⟨rfl, rfl, r2, r1, by rw [← heq]; exact d2⟩
  · right
    have a3 := upd_addr m2 (c.target d.length r) (headerBytes r.wc d)
    have r3 := upd_result m2 (c.target d.length r) (headerBytes r.wc d)
    generalize hw3 : upd m2 (c.target d.length r) (headerBytes r.wc d) = w3 at *
    simp only [headerBytes_length] at a3 r3
    generalize hm3 : apply m2 w3 = m3 at *
    have rec3 : Records c m3 r.cur d.length := r2.congr fun x h1 h2 => by
      rw [← hm3]; exact apply_outside _ _ _ _ a3 x (by omega)
    have hw4 : (if r.wc = 1 then updEntries c m3 r.cur d.length else []) = [] := by
      rw [updEntries_nil rec3]; split <;> rfl
    rw [hw4, List.append_nil, apply_append, apply_append, hm1, hm2, hm3]
    refine ⟨by trivial, ⟨r3, ?_⟩, rec3, ?_⟩
    · rw [← hm3, readRange_disjoint _ _ _ _ (fun w hw => by have := a3 w hw; omega), d2]
    · intro x hx1 hx2
      unfold slotSize at hx1
      rw [← hm3, apply_outside _ _ _ _ a3 x (by omega), ← hm2, apply_outside _ _ _ _ a2 x (by omega),
        ← hm1, apply_outside _ _ _ _ a1 x (by omega)]

end Verif.WearByte
