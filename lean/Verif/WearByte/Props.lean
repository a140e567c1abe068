import Verif.WearByte.Lemmas

/-!
# Byte wear-levelling theorems (C15)
-/

namespace Verif.WearByte

open Verif.Storage
open Verif.Crc16 (crc16)

/-! ## The claim and its violations -/

/-- C15 in full: after any history of complete saves (at least one) to a fresh storage, followed by a
save interrupted after any number of byte writes, the state found at the next boot is the last
complete one or the one being saved. `k = 0` is a reboot between saves. -/
def CrashSafe : Prop :=
  ∀ (c : Cfg) (n : Nat) (d : Dev) (xs : List (List Byte)) (last x : List Byte) (k : Nat),
    c.ok n = true → Fresh c d → (∀ y ∈ xs, y.length = n) → last.length = n → x.length = n →
    (boot c ((d.saves c xs).save c last |>.crash c x k) n).bind (·.state) ∈ [some last, some x]

/-- A section of 60 bytes behind the storage preamble: four slots for a four-byte state. -/
def cfg60 : Cfg := { off := 8, reserved := 60 }

/-- A fresh storage over an erased medium. -/
def freshDev (c : Cfg) : Dev :=
  { mem := apply (fun _ => 0xFF)
      (bytesAt (c.off + 7) (entryBytes c.first 0) ++ bytesAt (c.off + 7 + 8) (entryBytes c.first 0)),
    ram := { cur := c.first, wc := 0 } }

/-- C15 fails without any power loss during a write: after the third save (write count 2) a clean
reboot restores the *second* state, because a write count of 1 in the next slot is always taken to be
the newest. -/
theorem reboot_loses_save_violation :
    ((freshDev cfg60).saves cfg60 [[1, 1, 1, 1], [2, 2, 2, 2], [3, 3, 3, 3]]).restored cfg60 4
      = some [2, 2, 2, 2] := by decide +kernel

/-- The same happens once in every round of the write counter: here after the eighth save. -/
theorem reboot_loses_later_save_violation :
    ((freshDev cfg60).saves cfg60 ((List.range 8).map fun i => [BitVec.ofNat 8 i, 2, 3, 4])).restored cfg60 4
      = some [6, 2, 3, 4] := by decide +kernel

/-- C15 fails when power is lost inside the main address record while moving to the next slot pair:
the backup record is intact but is not used, and no state is restored at all. -/
theorem torn_record_violation :
    ∃ k, (boot cfg60 (((freshDev cfg60).saves cfg60
      ((List.range 6).map fun i => [BitVec.ofNat 8 i, 2, 3, 4])).crash cfg60 [9, 9, 9, 9] k) 4).bind (·.state)
      = none ∧
      entryOk (readRange (((freshDev cfg60).saves cfg60
        ((List.range 6).map fun i => [BitVec.ofNat 8 i, 2, 3, 4])).crash cfg60 [9, 9, 9, 9] k) 23 8) = true :=
  ⟨13, by decide +kernel⟩

/-- C15 fails when the section has room for one slot and a half: the preamble is not subtracted when
slots are counted, both "slots" are the same bytes, and power loss while saving loses everything. -/
theorem one_slot_violation :
    let c : Cfg := { off := 8, reserved := 34 }
    c.ok 4 = true ∧ c.next 4 c.first = c.first ∧
    ∃ k, (boot c (((freshDev c).saves c [[1, 1, 1, 1], [2, 2, 2, 2]]).crash c [3, 3, 3, 3] k) 4).bind (·.state)
      = none := ⟨by decide, by decide, 1, by decide +kernel⟩

theorem fresh_freshDev : Fresh cfg60 (freshDev cfg60) := ⟨rfl, by decide +kernel, by decide +kernel⟩

theorem crash_safe_violation : ¬ CrashSafe := by
  intro h
  have := h cfg60 4 (freshDev cfg60) [[1, 1, 1, 1], [2, 2, 2, 2]] [3, 3, 3, 3] [4, 4, 4, 4] 0
    (by decide) fresh_freshDev (by decide) rfl rfl
  revert this
  decide +kernel

/-! ## What holds -/

/-- Regular state: the slot written last (`other`) holds `last`, the slot to be written next has the
count before that. -/
structure GoodA (c : Cfg) (n : Nat) (d : Dev) (last : List Byte) : Prop where
  slot : IsSlot c n d.ram.cur
  lo : 2 ≤ d.ram.wc
  hi : d.ram.wc ≤ c.repeats n
  recs : Records c d.mem d.ram.cur n
  held : SlotHolds d.mem (c.other n d.ram) (d.ram.wc - 1) last
  cnt : 3 ≤ d.ram.wc → slotCount d.mem (c.target n d.ram) = d.ram.wc - 2

/-- State just after the counter wrapped: the records still point to the previous pair. -/
structure GoodB (c : Cfg) (n : Nat) (d : Dev) (last : List Byte) : Prop where
  wc : d.ram.wc = 1
  prev : ∃ e, IsSlot c n e ∧ d.ram.cur = c.next n e ∧ Records c d.mem e n
    ∧ slotCount d.mem e = c.repeats n - 1
  held : SlotHolds d.mem d.ram.cur (c.repeats n) last

/-- State after the very first save. -/
structure Good0 (c : Cfg) (n : Nat) (d : Dev) (last : List Byte) : Prop where
  wc : d.ram.wc = 1
  slot : IsSlot c n d.ram.cur
  recs : Records c d.mem d.ram.cur n
  held : SlotHolds d.mem d.ram.cur 0 last

/-- Invariant of histories of saves; `last` is the last saved state. -/
def Good (c : Cfg) (n : Nat) (d : Dev) (last : List Byte) : Prop :=
  last.length = n ∧ (GoodA c n d last ∨ GoodB c n d last ∨ Good0 c n d last)

theorem slot_pair_disjoint {c : Cfg} {n : Nat} {r : Ram} (hf : Fits c n) (h : IsSlot c n r.cur) (x : Nat)
    (h1 : c.other n r ≤ x) (h2 : x < c.other n r + slotSize n) :
    (x < c.target n r ∨ c.target n r + slotSize n ≤ x) ∧ (x < c.off + 7 ∨ c.off + 7 + 16 ≤ x) := by
  obtain ⟨ht, ho, hne⟩ := target_isSlot hf h
  have := slot_disjoint ht ho hne
  have := slot_ge ho
  omega

theorem save_good0 {c : Cfg} {n : Nat} (hf : Fits c n) {d : Dev} (h : Fresh c d) {x : List Byte}
    (hx : x.length = n) : Good c n (d.save c x) x := by
  obtain ⟨hr, h1, h2⟩ := h
  have hs : IsSlot c n d.ram.cur := by rw [hr]; exact first_isSlot hf
  have hR := repeats_spec hf
  refine ⟨hx, Or.inr (Or.inr ?_)⟩
  rcases save_result hf d.mem d.ram x hx hs with ⟨_, _, hrec, _⟩ | ⟨hram, hh, hrec, _⟩
  · exfalso
    have e : entryBytes c.first 0 = entryBytes d.ram.cur n := by rw [← h1]; exact hrec.1
    have : entrySize (entryBytes c.first 0) = entrySize (entryBytes d.ram.cur n) := by rw [e]
    rw [entrySize_entryBytes _ _ (by omega), entrySize_entryBytes _ _ (fits_size hf)] at this
    have := hf.pos
    omega
  · have hb : c.bump n d.ram = { cur := d.ram.cur, wc := 1 } := by
      unfold Cfg.bump
      rw [if_neg (by rw [hr]; simp only; omega), hr]
    have ht : c.target n d.ram = d.ram.cur := by unfold Cfg.target; rw [hr]; simp
    rw [ht] at hh
    refine ⟨?_, ?_, ?_, ?_⟩
    · simp only [Dev.save, hram, hb]
    · simp only [Dev.save, hram, hb]; exact hs
    · simp only [Dev.save, hram, hb]; exact hrec
    · simp only [Dev.save, hram, hb]
      rw [hr] at hh; rw [hr]; exact hh

theorem save_good {c : Cfg} {n : Nat} (hf : Fits c n) {d : Dev} {last x : List Byte}
    (h : Good c n d last) (hx : x.length = n) : Good c n (d.save c x) x := by
  obtain ⟨hlen, h⟩ := h
  have hR := repeats_spec hf
  refine ⟨hx, ?_⟩
  have hdev : ∀ d' : Dev, d'.mem = apply d.mem (save c d.mem d.ram x).1 → d'.ram = (save c d.mem d.ram x).2 →
      d.save c x = d' := by
    intro d' h1 h2
    unfold Dev.save
    rw [← h1, ← h2]
  rcases h with h | h | h
  · -- regular
    have hsp := fun y => slot_pair_disjoint hf h.slot y
    rcases save_result hf d.mem d.ram x hx h.slot with ⟨hnil, hram, hrec, _, ho⟩ | ⟨hram, hh, hrec, hfr⟩
    · have e : d.save c x = d := hdev d (by rw [hnil]; rfl) hram.symm
      have el : last = x := by
        have := h.held.2
        rw [hlen, ho] at this
        exact this.symm
      rw [e, ← el]
      exact Or.inl h
    · generalize hm : apply d.mem (save c d.mem d.ram x).1 = m' at *
      have hO : SlotHolds m' (c.other n d.ram) (d.ram.wc - 1) last :=
        h.held.congr fun y h1 h2 => by
          rw [hlen] at h2
          obtain ⟨p, q⟩ := hsp y h1 h2
          exact hfr y p q
      have hOc := hO.count (by have := h.hi; omega)
      by_cases hw : d.ram.wc + 1 > c.repeats n
      · have hb : c.bump n d.ram = { cur := c.next n d.ram.cur, wc := 1 } := by
          unfold Cfg.bump; rw [if_pos hw]
        have hweq : d.ram.wc = c.repeats n := by have := h.hi; omega
        have hodd : d.ram.wc % 2 = 1 := by omega
        have ht : c.target n d.ram = c.next n d.ram.cur := by unfold Cfg.target; rw [if_pos hodd]
        have hot : c.other n d.ram = d.ram.cur := by unfold Cfg.other; rw [if_pos hodd]
        rw [hdev ⟨m', { cur := c.next n d.ram.cur, wc := 1 }⟩ rfl (by rw [hram, hb])]
        right; left
        refine ⟨rfl, ⟨d.ram.cur, h.slot, rfl, hrec, ?_⟩, ?_⟩
        · rw [← hot, hOc]; omega
        · rw [← ht, ← hweq]; exact hh
      · have hb : c.bump n d.ram = { cur := d.ram.cur, wc := d.ram.wc + 1 } := by
          unfold Cfg.bump; rw [if_neg hw]
        rw [hdev ⟨m', { cur := d.ram.cur, wc := d.ram.wc + 1 }⟩ rfl (by rw [hram, hb])]
        have e1 : c.other n { cur := d.ram.cur, wc := d.ram.wc + 1 } = c.target n d.ram := by
          unfold Cfg.other Cfg.target
          simp only
          split <;> split <;> first | rfl | omega
        have e2 : c.target n { cur := d.ram.cur, wc := d.ram.wc + 1 } = c.other n d.ram := by
          unfold Cfg.other Cfg.target
          simp only
          split <;> split <;> first | rfl | omega
        left
        refine ⟨h.slot, by have := h.lo; simp only; omega, by simp only; omega, hrec, ?_, ?_⟩
        · simp only; rw [e1]; exact hh
        · intro _; simp only; rw [e2, hOc]; omega
  · -- after the counter wrapped
    obtain ⟨e, he, hcur, hrecs, hcnt⟩ := h.prev
    have hs : IsSlot c n d.ram.cur := by rw [hcur]; exact next_isSlot hf he
    have hot : c.other n d.ram = d.ram.cur := by unfold Cfg.other; rw [h.wc]; rfl
    have ht : c.target n d.ram = c.next n d.ram.cur := by unfold Cfg.target; rw [h.wc]; rfl
    rcases save_result hf d.mem d.ram x hx hs with ⟨hnil, hram, hrec, _, ho⟩ | ⟨hram, hh, hrec, hfr⟩
    · exfalso
      have : entryBytes e n = entryBytes d.ram.cur n := by rw [← hrecs.1]; exact hrec.1
      have := congrArg entryAddr this
      rw [entryAddr_entryBytes _ _ (slot_lt hf he), entryAddr_entryBytes _ _ (slot_lt hf hs)] at this
      exact next_ne hf he (by rw [← hcur]; exact this.symm)
    · have hb : c.bump n d.ram = { cur := d.ram.cur, wc := 2 } := by
        unfold Cfg.bump; rw [h.wc, if_neg (by omega)]
      rw [hdev ⟨_, { cur := d.ram.cur, wc := 2 }⟩ rfl (by rw [hram, hb])]
      left
      refine ⟨hs, by simp, by simp only; omega, hrec, ?_, by simp⟩
      have e1 : c.other n { cur := d.ram.cur, wc := 2 } = c.target n d.ram := by rw [ht]; simp [Cfg.other]
      simp only [e1, Nat.add_one_sub_one]
      rw [h.wc] at hh; exact hh
  · -- second save ever
    have ht : c.target n d.ram = c.next n d.ram.cur := by unfold Cfg.target; rw [h.wc]; rfl
    have hot : c.other n d.ram = d.ram.cur := by unfold Cfg.other; rw [h.wc]; rfl
    rcases save_result hf d.mem d.ram x hx h.slot with ⟨hnil, hram, hrec, _, ho⟩ | ⟨hram, hh, hrec, hfr⟩
    · have e : d.save c x = d := hdev d (by rw [hnil]; rfl) hram.symm
      have el : last = x := by
        have := h.held.2
        rw [hot] at ho
        rw [hlen, ho] at this
        exact this.symm
      rw [e, ← el]
      exact Or.inr (Or.inr h)
    · have hb : c.bump n d.ram = { cur := d.ram.cur, wc := 2 } := by
        unfold Cfg.bump; rw [h.wc, if_neg (by omega)]
      rw [hdev ⟨_, { cur := d.ram.cur, wc := 2 }⟩ rfl (by rw [hram, hb])]
      left
      refine ⟨h.slot, by simp, by simp only; omega, hrec, ?_, by simp⟩
      have e1 : c.other n { cur := d.ram.cur, wc := 2 } = c.target n d.ram := by rw [ht]; simp [Cfg.other]
      simp only [e1, Nat.add_one_sub_one]
      rw [h.wc] at hh; exact hh

theorem saves_good {c : Cfg} {n : Nat} (hf : Fits c n) : ∀ (xs : List (List Byte)) (d : Dev) (last : List Byte),
    Good c n d last → (∀ y ∈ xs, y.length = n) → Good c n (d.saves c xs) (xs.getLastD last) := by
  intro xs
  induction xs with
  | nil => intro d last h _; exact h
  | cons x xs ih =>
    intro d last h hl
    have := ih _ _ (save_good hf h (hl x List.mem_cons_self)) (fun y hy => hl y (List.mem_cons_of_mem _ hy))
    rw [List.getLastD_cons]
    exact this

/-- Every history of complete saves to a fresh storage keeps the invariant. -/
theorem fresh_saves_good {c : Cfg} {n : Nat} (hf : Fits c n) {d : Dev} (h : Fresh c d)
    (xs : List (List Byte)) (last : List Byte) (hl : ∀ y ∈ xs, y.length = n) (hll : last.length = n) :
    Good c n ((d.saves c xs).save c last) last := by
  cases xs with
  | nil => exact save_good0 hf h hll
  | cons x xs =>
    have h0 := save_good0 hf h (hl x List.mem_cons_self)
    have := saves_good hf xs _ _ h0 (fun y hy => hl y (List.mem_cons_of_mem _ hy))
    exact save_good hf this hll

/-! ### Booting -/

/-- Which pair of slots the boot looks at, when both records agree. -/
theorem boot_records {c : Cfg} {n : Nat} (hf : Fits c n) {m : Mem} {a : Nat} (ha : IsSlot c n a)
    (h : Records c m a n) :
    chooseEntry c (readRange m (c.off + 7) 8) (readRange m (c.off + 7 + 8) 8) = some (a, n) := by
  unfold chooseEntry
  rw [h.1, h.2]
  simp only [entryOk_entryBytes, entryAddr_entryBytes a n (slot_lt hf ha),
    entrySize_entryBytes a n (fits_size hf)]
  simp

/-- `boot` once the records and the write count are chosen. -/
theorem boot_eq {c : Cfg} {n : Nat} (hf : Fits c n) {m : Mem} {a w : Nat}
    (he : chooseEntry c (readRange m (c.off + 7) 8) (readRange m (c.off + 7 + 8) 8) = some (a, n))
    (hc : chooseCount c m a n = some w) :
    boot c m n = some
      { ram := c.bump n { cur := a, wc := w },
        state := some (readRange m
          (if w + 1 > c.repeats n then c.next n a + 4
           else if w % 2 = 1 then c.next n a + 4 else a + 4) n) } := by
  have hR := repeats_spec hf
  unfold boot
  rw [he]
  simp only [hc, Option.getD_some, Option.isSome_some, hR.1, Bool.and_self, beq_self_eq_true, if_true]
  unfold Cfg.bump
  by_cases h : w + 1 > c.repeats n
  · simp only [h, if_true]; simp
  · simp only [h, if_false, Nat.add_sub_cancel]
    by_cases h2 : w % 2 = 1
    · simp [h2]
    · simp [h2]

/-- Some slot of the pair being valid, the restored state is the data of one of the two slots. -/
theorem boot_reads_pair {c : Cfg} {n : Nat} (hf : Fits c n) {m : Mem} {a : Nat}
    (he : chooseEntry c (readRange m (c.off + 7) 8) (readRange m (c.off + 7 + 8) 8) = some (a, n))
    (hok : slotOk m a n = true ∨ slotOk m (c.next n a) n = true) :
    (boot c m n).bind (·.state) ∈
      [some (readRange m (a + 4) n), some (readRange m (c.next n a + 4) n)] := by
  have : ∃ w, chooseCount c m a n = some w := by
    unfold chooseCount
    simp only
    rcases hok with h | h <;> simp only [h, Bool.true_and, Bool.and_true] <;>
      (repeat' split) <;> first | exact ⟨_, rfl⟩ | (simp_all)
  obtain ⟨w, hw⟩ := this
  rw [boot_eq hf he hw]
  simp only [Option.bind_some, List.mem_cons, List.not_mem_nil, or_false]
  repeat' split
  all_goals simp

/-- Write count chosen from a regular state, whatever the slot being written holds. -/
theorem count_regular {c : Cfg} {n : Nat} (hf : Fits c n) {m : Mem} {r : Ram} {last : List Byte}
    (hlen : last.length = n) (hlo : 2 ≤ r.wc) (hhi : r.wc ≤ c.repeats n) (h3 : r.wc ≠ 3)
    (held : SlotHolds m (c.other n r) (r.wc - 1) last)
    (cnt : 3 ≤ r.wc → slotCount m (c.target n r) = r.wc - 2) :
    chooseCount c m r.cur n = some (r.wc - 1) := by
  have hR := repeats_spec hf
  have hO := held.count (by omega)
  have hOok := held.ok
  rw [hlen] at hOok
  unfold Cfg.other at hO hOok
  unfold Cfg.target at cnt
  unfold chooseCount
  simp only
  by_cases hodd : r.wc % 2 = 1
  · rw [if_pos hodd] at hO hOok cnt
    rw [hOok, hO]
    have := cnt (by omega)
    simp only [Bool.true_and, if_true, this]
    split
    · rw [if_neg (by omega), if_pos (by omega)]
    · rfl
  · rw [if_neg hodd] at hO hOok cnt
    rw [hOok, hO]
    simp only [Bool.and_true, if_true]
    split
    · by_cases h2 : r.wc = 2
      · rw [h2]; simp
      · have := cnt (by omega)
        rw [if_neg (by omega), this, if_neg (by omega)]
    · rfl

/-- Write count chosen just after the counter wrapped, from the previous pair. -/
theorem count_wrapped {c : Cfg} {n : Nat} (hf : Fits c n) {m : Mem} {e : Nat} {last : List Byte}
    (hlen : last.length = n) (held : SlotHolds m (c.next n e) (c.repeats n) last)
    (cnt : slotCount m e = c.repeats n - 1) :
    chooseCount c m e n = some (c.repeats n) := by
  have hR := repeats_spec hf
  have hO := held.count (by omega)
  have hOok := held.ok
  rw [hlen] at hOok
  unfold chooseCount
  simp only
  rw [hOok, hO, cnt]
  simp only [Bool.and_true, if_true]
  split
  · rw [if_neg (by omega), if_neg (by omega)]
  · rfl

/-- A regular state boots to the last saved state and the same RAM state. -/
theorem boot_regular {c : Cfg} {n : Nat} (hf : Fits c n) {m : Mem} {r : Ram} {last : List Byte}
    (hlen : last.length = n) (hlo : 2 ≤ r.wc) (hhi : r.wc ≤ c.repeats n) (h3 : r.wc ≠ 3)
    (hent : chooseEntry c (readRange m (c.off + 7) 8) (readRange m (c.off + 7 + 8) 8) = some (r.cur, n))
    (held : SlotHolds m (c.other n r) (r.wc - 1) last)
    (cnt : 3 ≤ r.wc → slotCount m (c.target n r) = r.wc - 2) :
    boot c m n = some { ram := r, state := some last } := by
  rw [boot_eq hf hent (count_regular hf hlen hlo hhi h3 held cnt)]
  have hb : c.bump n { cur := r.cur, wc := r.wc - 1 } = r := by
    unfold Cfg.bump
    simp only
    rw [if_neg (by omega), Nat.sub_add_cancel (by omega)]
  rw [hb]
  rw [if_neg (by omega)]
  have hd := held.2
  rw [hlen] at hd
  unfold Cfg.other at hd
  congr 2
  by_cases hodd : r.wc % 2 = 1
  · rw [if_pos hodd] at hd
    rw [if_neg (by omega), hd]
  · rw [if_neg hodd] at hd
    rw [if_pos (by omega), hd]

/-- A state just after the wrap boots to the last saved state and the same RAM state. -/
theorem boot_wrapped {c : Cfg} {n : Nat} (hf : Fits c n) {m : Mem} {e : Nat} {last : List Byte}
    (hlen : last.length = n)
    (hent : chooseEntry c (readRange m (c.off + 7) 8) (readRange m (c.off + 7 + 8) 8) = some (e, n))
    (held : SlotHolds m (c.next n e) (c.repeats n) last)
    (cnt : slotCount m e = c.repeats n - 1) :
    boot c m n = some { ram := { cur := c.next n e, wc := 1 }, state := some last } := by
  rw [boot_eq hf hent (count_wrapped hf hlen held cnt)]
  unfold Cfg.bump
  have := held.2
  rw [hlen] at this
  rw [if_pos (Nat.lt_succ_self _), if_pos (Nat.lt_succ_self _), this]

/-- One operation of a history with reboots. -/
def Dev.step (c : Cfg) (n : Nat) (d : Dev) : Op → Dev
  | .save x => d.save c x
  | .reboot => d.reboot c n

/-- States in which a reboot is harmless: not right after the save with write count 2, and not after
the very first save with a valid CRC in the unused slot. -/
def Safe (c : Cfg) (n : Nat) (d : Dev) : Prop :=
  d.ram.wc ≠ 3 ∧ (d.ram.wc = 1 → slotOk d.mem (c.next n d.ram.cur) n = false
      ∨ mainRecord c d.mem ≠ entryBytes d.ram.cur n)

/-- Every reboot of a history happens in a safe state. -/
def SafeReboots (c : Cfg) (n : Nat) : Dev → List Op → Prop
  | _, [] => True
  | d, .save x :: ops => x.length = n ∧ SafeReboots c n (d.step c n (.save x)) ops
  | d, .reboot :: ops => Safe c n d ∧ SafeReboots c n (d.step c n .reboot) ops

/-- The last state saved in a history. -/
def lastSaved : List Byte → List Op → List Byte
  | v, [] => v
  | _, .save x :: ops => lastSaved x ops
  | v, .reboot :: ops => lastSaved v ops

theorem reboot_good {c : Cfg} {n : Nat} (hf : Fits c n) {d' : Dev} {last : List Byte}
    (hg : Good c n d' last) (hs : Safe c n d') :
    d'.restored c n = some last ∧ d'.reboot c n = d' := by
  have h3 := hs.1
  have h1 := hs.2
  have key : boot c d'.mem n = some { ram := d'.ram, state := some last } := by
    obtain ⟨hlen, hA | hB | h0⟩ := hg
    · exact boot_regular hf hlen hA.lo hA.hi h3 (boot_records hf hA.slot hA.recs) hA.held hA.cnt
    · obtain ⟨e, he, hcur, hrecs, hcnt⟩ := hB.prev
      have := boot_wrapped hf hlen (boot_records hf he hrecs) (by rw [← hcur]; exact hB.held) hcnt
      rw [this]
      congr 2
      rw [← hcur, ← hB.wc]
    · rcases h1 h0.wc with hinv | hne
      · have hok := h0.held.ok
        rw [hlen] at hok
        have hcnt : chooseCount c d'.mem d'.ram.cur n = some 0 := by
          unfold chooseCount
          simp only [hok, hinv, Bool.and_false, if_true]
          rw [h0.held.count (by omega)]
          simp
        rw [boot_eq hf (boot_records hf h0.slot h0.recs) hcnt]
        have hR := repeats_spec hf
        have hb : c.bump n { cur := d'.ram.cur, wc := 0 } = d'.ram := by
          unfold Cfg.bump
          simp only
          rw [if_neg (by omega), Nat.zero_add, ← h0.wc]
        rw [hb, if_neg (by omega), if_neg (by omega)]
        have := h0.held.2
        rw [hlen] at this
        rw [this]
      · exact absurd h0.recs.1 hne
  unfold Dev.restored Dev.reboot
  rw [key]
  exact ⟨rfl, rfl⟩

/-- C15 without power loss, proved part: after any history of complete saves to a fresh storage, a
reboot restores the last saved state and the exact RAM state, unless the last write had count 2 (the
next one has count 3), or it was the very first one and the following slot happens to carry a valid
CRC. The first exception is `reboot_loses_save_violation`. -/
theorem reboot_partial {c : Cfg} {n : Nat} (hf : Fits c n) {d : Dev} (h : Fresh c d)
    (xs : List (List Byte)) (last : List Byte) (hl : ∀ y ∈ xs, y.length = n) (hll : last.length = n)
    (d' : Dev) (hd' : d' = (d.saves c xs).save c last)
    (h3 : d'.ram.wc ≠ 3) (h1 : d'.ram.wc = 1 → slotOk d'.mem (c.next n d'.ram.cur) n = false
      ∨ mainRecord c d'.mem ≠ entryBytes d'.ram.cur n) :
    d'.restored c n = some last ∧ d'.reboot c n = d' := by
  have hg := fresh_saves_good hf h xs last hl hll
  rw [← hd'] at hg
  exact reboot_good hf hg ⟨h3, h1⟩

/-- C15 over histories with reboots, proved part: as long as every reboot happens in a safe state,
any mixture of saves and reboots after the first save restores the last saved state. -/
theorem history_partial {c : Cfg} {n : Nat} (hf : Fits c n) {d : Dev} (h : Fresh c d)
    (x : List Byte) (hx : x.length = n) (ops : List Op)
    (hops : SafeReboots c n (d.save c x) ops)
    (hsafe : Safe c n (ops.foldl (Dev.step c n) (d.save c x))) :
    (ops.foldl (Dev.step c n) (d.save c x)).restored c n = some (lastSaved x ops) := by
  have key : ∀ (ops : List Op) (d : Dev) (v : List Byte), Good c n d v → SafeReboots c n d ops →
      Good c n (ops.foldl (Dev.step c n) d) (lastSaved v ops) := by
    intro ops
    induction ops with
    | nil => intro d v hg _; exact hg
    | cons o ops ih =>
      intro d v hg hsr
      cases o with
      | save y => exact ih _ y (save_good hf hg hsr.1) hsr.2
      | reboot =>
        have hr := reboot_good hf hg hsr.1
        have hsr2 := hsr.2
        simp only [Dev.step, List.foldl_cons, lastSaved] at hsr2 ⊢
        rw [hr.2] at hsr2 ⊢
        exact ih _ v hg hsr2
  exact (reboot_good hf (key ops _ x (save_good0 hf h hx) hops) hsafe).1

/-! ### Power loss during a save -/

/-- The medium during a save, up to what matters for the boot. `old` stands for the medium before. -/
inductive Phase (c : Cfg) (n : Nat) (m : Mem) (r : Ram) (x : List Byte) (m' : Mem) : Prop where
  | data (hrec : ∀ y, c.off + 7 ≤ y → y < c.off + 7 + 16 → m' y = m y)
      (hhdr : ∀ y, c.target n r ≤ y → y < c.target n r + 4 → m' y = m y) : Phase c n m r x m'
  | backup (hdat : readRange m' (c.target n r + 4) n = x)
      (hhdr : ∀ y, c.target n r ≤ y → y < c.target n r + 4 → m' y = m y)
      (hmain : readRange m' (c.off + 7) 8 = readRange m (c.off + 7) 8)
      (hbk : ∃ j, readRange m' (c.off + 7 + 8) 8
        = (entryBytes r.cur n).take j ++ (readRange m (c.off + 7 + 8) 8).drop j) : Phase c n m r x m'
  | main (hdat : readRange m' (c.target n r + 4) n = x)
      (hbk : readRange m' (c.off + 7 + 8) 8 = entryBytes r.cur n) : Phase c n m r x m'
  | header (hdat : readRange m' (c.target n r + 4) n = x)
      (hrecs : Records c m' r.cur n) : Phase c n m r x m'

theorem take_append_cases (a b : List Write) (k : Nat) :
    (∃ j, (a ++ b).take k = a.take j) ∨ (∃ j, (a ++ b).take k = a ++ b.take j) := by
  by_cases h : k ≤ a.length
  · left; exact ⟨k, by rw [List.take_append_of_le_length h]⟩
  · right
    exact ⟨k - a.length, by rw [List.take_append, List.take_of_length_le (by omega)]⟩

/-- Every crash point of a save is in one of the phases, and the other slot is untouched. -/
theorem crash_phase {c : Cfg} {n : Nat} (hf : Fits c n) (m : Mem) (r : Ram) (x : List Byte)
    (hx : x.length = n) (hs : IsSlot c n r.cur) (k : Nat) :
    Phase c n m r x (apply m ((save c m r x).1.take k))
    ∧ ∀ y, (y < c.target n r ∨ c.target n r + slotSize n ≤ y) → (y < c.off + 7 ∨ c.off + 7 + 16 ≤ y) →
        apply m ((save c m r x).1.take k) y = m y := by
  obtain ⟨ht, ho, hne⟩ := target_isSlot hf hs
  have tge := slot_ge ht
  subst hx
  -- nothing written yet
  have none_ : Phase c x.length m r x m ∧ ∀ y, (y < c.target x.length r ∨ c.target x.length r + slotSize x.length ≤ y) →
      (y < c.off + 7 ∨ c.off + 7 + 16 ≤ y) → m y = m y :=
    ⟨.data (fun _ _ _ => rfl) (fun _ _ _ => rfl), fun _ _ _ => rfl⟩
  unfold save
  simp only
  generalize hw1 : upd m (c.target x.length r + 4) x = w1
  have a1 := upd_addr m (c.target x.length r + 4) x
  have r1 := upd_result m (c.target x.length r + 4) x
  rw [hw1] at a1 r1
  have a1' : ∀ j, ∀ w ∈ w1.take j, c.target x.length r + 4 ≤ w.1 ∧ w.1 < c.target x.length r + 4 + x.length :=
    fun j w hw => a1 w (List.mem_of_mem_take hw)
  generalize hm1 : apply m w1 = m1 at *
  have fr1 : ∀ y, (y < c.target x.length r + 4 ∨ c.target x.length r + 4 + x.length ≤ y) → m1 y = m y := by
    intro y hy; rw [← hm1]; exact apply_outside _ _ _ _ a1 y hy
  generalize hw2 : updEntries c m1 r.cur x.length = w2
  have a2 := updEntries_addr c m1 r.cur x.length
  have r2 := updEntries_result c m1 r.cur x.length
  rw [hw2] at a2 r2
  generalize hm2 : apply m1 w2 = m2 at *
  have fr2 : ∀ y, (y < c.off + 7 ∨ c.off + 7 + 16 ≤ y) → m2 y = m1 y := by
    intro y hy; rw [← hm2]; exact apply_outside _ _ _ _ a2 y hy
  split
  · rw [List.take_nil, apply_nil]; exact none_
  · have a3 := upd_addr m2 (c.target x.length r) (headerBytes r.wc x)
    generalize hw3 : upd m2 (c.target x.length r) (headerBytes r.wc x) = w3 at *
    simp only [headerBytes_length] at a3
    have rec3 : Records c (apply m2 w3) r.cur x.length := r2.congr fun y h1 h2 =>
      apply_outside _ _ _ _ a3 y (by omega)
    have hw4 : (if r.wc = 1 then updEntries c (apply m2 w3) r.cur x.length else []) = [] := by
      rw [updEntries_nil rec3]; split <;> rfl
    rw [hw4, List.append_nil]
    have dat : ∀ m', (∀ y, c.target x.length r + 4 ≤ y → y < c.target x.length r + 4 + x.length → m' y = m1 y) →
        readRange m' (c.target x.length r + 4) x.length = x := by
      intro m' h
      rw [readRange_congr m' m1 _ _ fun y h1 h2 => h y h1 h2]; exact r1
    rcases take_append_cases (w1 ++ w2) w3 k with ⟨j, hj⟩ | ⟨j, hj⟩
    · rw [hj]
      rcases take_append_cases w1 w2 j with ⟨i, hi⟩ | ⟨i, hi⟩
      · -- in the data
        rw [hi]
        refine ⟨.data ?_ ?_, ?_⟩
        · intro y h1 h2; exact apply_outside _ _ _ _ (a1' i) y (by omega)
        · intro y h1 h2; exact apply_outside _ _ _ _ (a1' i) y (by omega)
        · intro y h1 h2
          unfold slotSize at h1
          exact apply_outside _ _ _ _ (a1' i) y (by omega)
      · -- in the records
        rw [hi, apply_append, hm1]
        have a2' : ∀ w ∈ w2.take i, c.off + 7 ≤ w.1 ∧ w.1 < c.off + 7 + 16 :=
          fun w hw => a2 w (List.mem_of_mem_take hw)
        refine ⟨?_, ?_⟩
        · have hdat := dat (apply m1 (w2.take i)) (fun y h1 h2 => apply_outside _ _ _ _ a2' y (by omega))
          have hhdr : ∀ y, c.target x.length r ≤ y → y < c.target x.length r + 4 →
              apply m1 (w2.take i) y = m y := by
            intro y h1 h2
            rw [apply_outside _ _ _ _ a2' y (by omega), fr1 y (by omega)]
          rw [← hw2] at hdat hhdr ⊢
          unfold updEntries at hdat hhdr ⊢
          simp only at hdat hhdr ⊢
          have ab := upd_addr m1 (c.off + 7 + 8) (entryBytes r.cur x.length)
          have am := upd_addr (apply m1 (upd m1 (c.off + 7 + 8) (entryBytes r.cur x.length))) (c.off + 7)
            (entryBytes r.cur x.length)
          have rb := upd_result m1 (c.off + 7 + 8) (entryBytes r.cur x.length)
          have tb := fun q => upd_take m1 (c.off + 7 + 8) (entryBytes r.cur x.length) q
          simp only [entryBytes_length] at ab am rb tb
          generalize upd m1 (c.off + 7 + 8) (entryBytes r.cur x.length) = wb at *
          generalize upd (apply m1 wb) (c.off + 7) (entryBytes r.cur x.length) = wm at *
          rcases take_append_cases wb wm i with ⟨q, hq⟩ | ⟨q, hq⟩
          · rw [hq] at hdat hhdr ⊢
            refine .backup hdat hhdr ?_ ?_
            · rw [readRange_disjoint _ _ _ _ (fun w hw => by
                have := ab w (List.mem_of_mem_take hw); omega)]
              exact readRange_congr _ _ _ _ fun y h1 h2 => fr1 y (by omega)
            · obtain ⟨z, hz⟩ := tb q
              refine ⟨z, ?_⟩
              rw [hz, readRange_congr m1 m _ _ fun y h1 h2 => fr1 y (by omega)]
          · rw [hq] at hdat hhdr ⊢
            refine .main hdat ?_
            rw [apply_append, readRange_disjoint _ _ _ _ (fun w hw => by
              have := am w (List.mem_of_mem_take hw); omega)]
            exact rb
        · intro y h1 h2
          unfold slotSize at h1
          rw [apply_outside _ _ _ _ a2' y (by omega), fr1 y (by omega)]
    · -- in the header
      rw [hj, apply_append, apply_append, hm1, hm2]
      have a3' : ∀ w ∈ w3.take j, c.target x.length r ≤ w.1 ∧ w.1 < c.target x.length r + 4 :=
        fun w hw => a3 w (List.mem_of_mem_take hw)
      refine ⟨.header ?_ ?_, ?_⟩
      · refine dat _ fun y h1 h2 => ?_
        rw [apply_outside _ _ _ _ a3' y (by omega), fr2 y (by omega)]
      · exact r2.congr fun y h1 h2 => apply_outside _ _ _ _ a3' y (by omega)
      · intro y h1 h2
        unfold slotSize at h1
        rw [apply_outside _ _ _ _ a3' y (by omega), fr2 y (by omega), fr1 y (by omega)]

/-- The size field is not affected by a half-written record of the same size. -/
theorem mixed_size (a e n j : Nat) (hn : n < 65536) :
    entrySize ((entryBytes a n).take j ++ (entryBytes e n).drop j) = n := by
  have h : ((((entryBytes a n).take j ++ (entryBytes e n).drop j)).drop 4).take 2
      = le16 (BitVec.ofNat 16 n) := by
    have hb : ∀ q, entryBytes q n = [BitVec.ofNat 8 q, BitVec.ofNat 8 (q / 256), BitVec.ofNat 8 (q / 65536),
        BitVec.ofNat 8 (q / 16777216), (BitVec.ofNat 16 n).setWidth 8, (BitVec.ofNat 16 n >>> 8).setWidth 8]
        ++ le16 (crc16 (le32 q ++ le16 (BitVec.ofNat 16 n))) := fun _ => rfl
    rw [hb a, hb e]
    simp only [le16, List.cons_append, List.nil_append]
    match j with
    | 0 | 1 | 2 | 3 | 4 | 5 | 6 | 7 => rfl
    | j + 8 => simp
  unfold entrySize
  rw [h, leVal_le16, BitVec.toNat_ofNat]
  omega

/-- The pair `(other, target)` is the pair `(cur, next cur)`. -/
theorem pair_cases (c : Cfg) (n : Nat) (r : Ram) :
    (c.target n r = c.next n r.cur ∧ c.other n r = r.cur) ∨ (c.target n r = r.cur ∧ c.other n r = c.next n r.cur) := by
  unfold Cfg.target Cfg.other
  split
  · exact Or.inl ⟨rfl, rfl⟩
  · exact Or.inr ⟨rfl, rfl⟩

/-- When the records select the pair being written, the data is complete and the other slot is
intact, the old or the new state is restored. -/
theorem boot_pair_safe {c : Cfg} {n : Nat} (hf : Fits c n) {m : Mem} {r : Ram} {w : Nat} {last x : List Byte}
    (hlen : last.length = n)
    (he : chooseEntry c (readRange m (c.off + 7) 8) (readRange m (c.off + 7 + 8) 8) = some (r.cur, n))
    (hdat : readRange m (c.target n r + 4) n = x) (held : SlotHolds m (c.other n r) w last) :
    (boot c m n).bind (·.state) ∈ [some last, some x] := by
  have hok := held.ok
  have hd := held.2
  rw [hlen] at hok hd
  rcases pair_cases c n r with ⟨h1, h2⟩ | ⟨h1, h2⟩
  · rw [h2] at hok hd
    rw [h1] at hdat
    have := boot_reads_pair hf he (Or.inl hok)
    rw [hd, hdat] at this
    exact this
  · rw [h2] at hok hd
    rw [h1] at hdat
    have := boot_reads_pair hf he (Or.inr hok)
    rw [hd, hdat] at this
    simp only [List.mem_cons, List.not_mem_nil, or_false] at this ⊢
    exact this.symm

/-- Power loss during a save, from any state with an intact last slot. -/
theorem crash_good {c : Cfg} {n : Nat} (hf : Fits c n) {d : Dev} {last x : List Byte}
    (hg : last.length = n ∧ (GoodA c n d last ∨ GoodB c n d last)) (hx : x.length = n) (k : Nat)
    (h3 : d.ram.wc ≠ 3)
    (hmain : mainRecord c (d.crash c x k) = mainRecord c d.mem
      ∨ mainRecord c (d.crash c x k) = mainRecord c (d.save c x).mem) :
    (boot c (d.crash c x k) n).bind (·.state) ∈ [some last, some x] := by
  obtain ⟨hlen, hg⟩ := hg
  have hsmall := fits_size hf
  have hR := repeats_spec hf
  rcases hg with h | h
  · -- regular: the records never change
    obtain ⟨hph, hfr⟩ := crash_phase hf d.mem d.ram x hx h.slot k
    have hmain' : mainRecord c (d.crash c x k) = entryBytes d.ram.cur n := by
      rcases hmain with e | e
      · rw [e]; exact h.recs.1
      · rw [e]
        rcases save_result hf d.mem d.ram x hx h.slot with ⟨hnil, _, hrec, _⟩ | ⟨_, _, hrec, _⟩
        · unfold Dev.save mainRecord; rw [hnil]; exact hrec.1
        · exact hrec.1
    unfold Dev.crash mainRecord at *
    generalize hm' : apply d.mem ((save c d.mem d.ram x).1.take k) = m' at *
    have held' : SlotHolds m' (c.other n d.ram) (d.ram.wc - 1) last := h.held.congr fun y h1 h2 => by
      rw [hlen] at h2
      obtain ⟨p, q⟩ := slot_pair_disjoint hf h.slot y h1 h2
      exact hfr y p q
    cases hph with
    | data hrec hhdr =>
      have hrecs : Records c m' d.ram.cur n := h.recs.congr hrec
      rw [boot_regular hf hlen h.lo h.hi h3 (boot_records hf h.slot hrecs) held'
        (fun hw => by rw [slotCount_congr fun y h1 h2 => hhdr y h1 (by omega)]; exact h.cnt hw)]
      simp
    | backup hdat hhdr hm hbk =>
      obtain ⟨j, hj⟩ := hbk
      rw [h.recs.2, List.take_append_drop] at hj
      exact boot_pair_safe hf hlen (boot_records hf h.slot ⟨by rw [hm]; exact h.recs.1, hj⟩) hdat held'
    | main hdat hbk =>
      exact boot_pair_safe hf hlen (boot_records hf h.slot ⟨hmain', hbk⟩) hdat held'
    | header hdat hrecs =>
      exact boot_pair_safe hf hlen (boot_records hf h.slot hrecs) hdat held'
  · -- after the wrap: the records move from `e` to `next e`
    obtain ⟨e, he, hcur, hrecs0, hcnt⟩ := h.prev
    have hs : IsSlot c n d.ram.cur := by rw [hcur]; exact next_isSlot hf he
    obtain ⟨hph, hfr⟩ := crash_phase hf d.mem d.ram x hx hs k
    have hot : c.other n d.ram = d.ram.cur := by unfold Cfg.other; rw [h.wc]; rfl
    have ht : c.target n d.ram = c.next n d.ram.cur := by unfold Cfg.target; rw [h.wc]; rfl
    have hmain' : mainRecord c (d.crash c x k) = entryBytes e n
        ∨ mainRecord c (d.crash c x k) = entryBytes d.ram.cur n := by
      rcases hmain with q | q
      · left; rw [q]; exact hrecs0.1
      · rw [q]
        rcases save_result hf d.mem d.ram x hx hs with ⟨hnil, _, hrec, _⟩ | ⟨_, _, hrec, _⟩
        · right; unfold Dev.save mainRecord; rw [hnil]; exact hrec.1
        · right; exact hrec.1
    unfold Dev.crash mainRecord at *
    generalize hm' : apply d.mem ((save c d.mem d.ram x).1.take k) = m' at *
    have held' : SlotHolds m' d.ram.cur (c.repeats n) last := h.held.congr fun y h1 h2 => by
      rw [hlen] at h2
      obtain ⟨p, q⟩ := slot_pair_disjoint hf hs y (by rw [hot]; exact h1) (by rw [hot]; exact h2)
      exact hfr y p q
    have held'' : SlotHolds m' (c.other n d.ram) (c.repeats n) last := by rw [hot]; exact held'
    -- the header of the previous slot is unchanged while the target's header is
    have hcnt' : (∀ y, c.target n d.ram ≤ y → y < c.target n d.ram + 4 → m' y = d.mem y) →
        slotCount m' e = c.repeats n - 1 := by
      intro hhdr
      rw [← hcnt]
      apply slotCount_congr
      intro y h1 h2
      by_cases hte : c.target n d.ram = e
      · exact hhdr y (by omega) (by omega)
      · have := slot_disjoint (target_isSlot hf hs).1 he hte
        have := slot_ge he
        have hsz : slotSize n = n + 4 := rfl
        exact hfr y (by omega) (by omega)
    cases hph with
    | data hrec hhdr =>
      have hrecs : Records c m' e n := hrecs0.congr hrec
      rw [boot_wrapped hf hlen (boot_records hf he hrecs) (by rw [← hcur]; exact held') (hcnt' hhdr)]
      simp
    | backup hdat hhdr hm hbk =>
      obtain ⟨j, hj⟩ := hbk
      rw [hrecs0.2] at hj
      rw [hrecs0.1] at hm
      have hsz := mixed_size d.ram.cur e n j hsmall
      rw [← hj] at hsz
      -- the records select either the old pair or the new one
      have hch : chooseEntry c (readRange m' (c.off + 7) 8) (readRange m' (c.off + 7 + 8) 8) = some (e, n)
          ∨ chooseEntry c (readRange m' (c.off + 7) 8) (readRange m' (c.off + 7 + 8) 8) = some (d.ram.cur, n) := by
        unfold chooseEntry
        rw [hm]
        simp only [entryOk_entryBytes, entryAddr_entryBytes e n (slot_lt hf he), entrySize_entryBytes e n hsmall,
          Bool.not_true, Bool.false_and, Bool.true_and, if_true, Bool.false_eq_true, if_false, hsz]
        have hne0 : (e == 0) = false := by
          have := slot_ge he
          simp only [beq_eq_false_iff_ne]; omega
        simp only [hne0, Bool.false_or]
        split
        · left; rfl
        · split
          · rename_i hb
            simp only [Bool.and_eq_true, beq_iff_eq] at hb
            right
            rw [← hb.2, hcur]
          · left; rfl
      rcases hch with hch | hch
      · rw [boot_wrapped hf hlen hch (by rw [← hcur]; exact held') (hcnt' hhdr)]
        simp
      · exact boot_pair_safe hf hlen hch hdat held''
    | main hdat hbk =>
      rcases hmain' with hm | hm
      · have hch : chooseEntry c (readRange m' (c.off + 7) 8) (readRange m' (c.off + 7 + 8) 8)
            = some (d.ram.cur, n) := by
          unfold chooseEntry
          rw [hm, hbk]
          simp only [entryOk_entryBytes, entryAddr_entryBytes e n (slot_lt hf he), entrySize_entryBytes _ n hsmall,
            entryAddr_entryBytes _ n (slot_lt hf hs),
            Bool.not_true, Bool.false_and, Bool.true_and, if_true, Bool.false_eq_true, if_false]
          have hne : (e == d.ram.cur) = false := by
            simp only [beq_eq_false_iff_ne]
            intro q
            exact next_ne hf he (by rw [← hcur]; exact q.symm)
          rw [hne, ← hcur]
          simp
        exact boot_pair_safe hf hlen hch hdat held''
      · exact boot_pair_safe hf hlen (boot_records hf hs ⟨hm, hbk⟩) hdat held''
    | header hdat hrecs =>
      exact boot_pair_safe hf hlen (boot_records hf hs hrecs) hdat held''

/-- C15, proved part: over every layout with two real slots, every history of complete saves to a
fresh storage (past the first one), and every crash point of the next save, the state found at the
next boot is the last complete one or the one being saved, with no assumption on CRC coincidences.
Missing, each with a witness above: the save after one with write count 2
(`reboot_loses_save_violation`), power loss inside the main address record
(`torn_record_violation`), sections with room for less than two slots (`one_slot_violation`). -/
theorem crash_safe_partial {c : Cfg} {n : Nat} (hf : Fits c n) {d : Dev} (h : Fresh c d)
    (xs : List (List Byte)) (last x : List Byte) (hl : ∀ y ∈ xs, y.length = n) (hll : last.length = n)
    (hx : x.length = n) (k : Nat) (d' : Dev) (hd' : d' = (d.saves c xs).save c last)
    (h3 : d'.ram.wc ≠ 3) (h1 : ¬ (d'.ram.wc = 1 ∧ mainRecord c d'.mem = entryBytes d'.ram.cur n))
    (hmain : mainRecord c (d'.crash c x k) = mainRecord c d'.mem
      ∨ mainRecord c (d'.crash c x k) = mainRecord c (d'.save c x).mem) :
    (boot c (d'.crash c x k) n).bind (·.state) ∈ [some last, some x] := by
  have hg := fresh_saves_good hf h xs last hl hll
  rw [← hd'] at hg
  obtain ⟨hlen, hA | hB | h0⟩ := hg
  · exact crash_good hf ⟨hlen, Or.inl hA⟩ hx k h3 hmain
  · exact crash_good hf ⟨hlen, Or.inr hB⟩ hx k h3 hmain
  · exact absurd ⟨h0.wc, h0.recs.1⟩ h1

/-- The hypotheses are met, at the slot switch. -/
example : Fits cfg60 4 ∧ Fresh cfg60 (freshDev cfg60) ∧
    ((freshDev cfg60).saves cfg60 ((List.range 6).map fun i => [BitVec.ofNat 8 i, 2, 3, 4])).ram
      = { cur := 39, wc := 1 } :=
  ⟨⟨by decide, by decide, by decide⟩, fresh_freshDev, by decide +kernel⟩

end Verif.WearByte
