import Verif.Storage.Lemmas
import Verif.Crc16.Props

/-!
# Special-section theorems (C12, C13, C14)
-/

namespace Verif.Storage

open Verif.Crc16 (crc16)

/-! ## C12: a successful write is what a later read returns -/

/-- C12 in full: whatever the medium held, a write that reports success is read back. -/
def WriteRead : Prop :=
  ∀ (m : Mem) (secs : List Section) (id : Int) (data : List Byte) (ws : List Write),
    writeSection m secs id data = some ws →
    readSection (apply m ws) secs id data.length = some data

/-- A four-byte section with checksum. -/
def secA : Section := { id := 1, offset := 16, size := 4, crc := true, backup := false }

/-- A four-byte section with checksum and backup copy. -/
def secB : Section := { id := 2, offset := 100, size := 4, crc := true, backup := true }

/-- C12 is false of the code: after the section was deleted (all zero, checksum zero) writing four
zero bytes reports success without writing anything, and the section does not read. It stays so
however often the write is repeated. -/
theorem write_read_violation : ¬ WriteRead := by
  intro h
  let m0 : Mem := fun _ => 0
  have := h (step [secA] m0 (.delete 1)) [secA] 1 [0, 0, 0, 0] [] (by decide +kernel)
  exact absurd this (by decide +kernel)

/-- The history behind `write_read_violation` uses only complete API operations, with a backup copy
as well. -/
theorem write_read_history_violation :
    ∃ ops : List Op, (∀ o ∈ ops, o = .delete 2 ∨ o = .write 2 [0, 0, 0, 0]) ∧ Op.write 2 [0, 0, 0, 0] ∈ ops ∧
      readSection (run [secB] (fun _ => 0xFF) ops) [secB] 2 4 = none :=
  ⟨[.write 2 [0, 0, 0, 0], .delete 2, .write 2 [0, 0, 0, 0], .write 2 [0, 0, 0, 0]],
    by simp, by simp, by decide +kernel⟩

/-- C12, proved part: a successful write is read back if the section has no checksum, or for some
copy the medium held different data or held an intact checksum. Missing: media where every copy
already holds the very bytes being written with a wrong checksum, where the claim fails. -/
theorem write_read_partial (m : Mem) (secs : List Section) (id : Int) (data : List Byte) (ws : List Write)
    (s : Section) (hs : lookup secs id = some s)
    (hw : writeSection m secs id data = some ws)
    (hok : s.crc = false ∨ ∃ e ∈ s.entries,
      readRange m (s.entryOffset e) s.size ≠ data ∨ copyOk m s e = true) :
    readSection (apply m ws) secs id data.length = some data := by
  unfold writeSection at hw
  unfold readSection
  rw [hs] at hw ⊢
  simp only at hw ⊢
  split at hw
  · cases hw
  · rename_i hl
    have hl : s.size = data.length := by omega
    injection hw with hw
    subst hw
    rw [if_neg (by omega)]
    have key := writeCopies_result m s data hl.symm
    refine readCopies_eq _ _ _ _ (fun e he => (key e he).1) ?_
    rcases hok with h | ⟨e, he, h⟩
    · refine ⟨0, ?_, ?_⟩
      · unfold Section.entries; split <;> simp
      · simp [copyOk, h]
    · exact ⟨e, he, (key e he).2 (h.symm)⟩

/-- The exact failure condition: with a checksum, a successful write is *not* read back precisely
when every copy already held those bytes with a wrong checksum. -/
theorem write_read_fails_iff (m : Mem) (secs : List Section) (id : Int) (data : List Byte)
    (ws : List Write) (s : Section) (hs : lookup secs id = some s)
    (hw : writeSection m secs id data = some ws) :
    readSection (apply m ws) secs id data.length ≠ some data ↔
      (s.crc = true ∧ ∀ e ∈ s.entries,
        readRange m (s.entryOffset e) s.size = data ∧ copyOk m s e = false) := by
  constructor
  · intro h
    apply Classical.byContradiction
    intro hn
    apply h
    apply write_read_partial m secs id data ws s hs hw
    by_cases hc : s.crc = false
    · exact Or.inl hc
    · right
      apply Classical.byContradiction
      intro hne
      apply hn
      refine ⟨by simpa using hc, fun e he => ⟨?_, ?_⟩⟩
      · apply Classical.byContradiction; intro hd; exact hne ⟨e, he, Or.inl hd⟩
      · cases hk : copyOk m s e
        · rfl
        · exact absurd ⟨e, he, Or.inr hk⟩ hne
  · intro ⟨hc, hall⟩
    have hws : ws = [] := by
      unfold writeSection at hw
      rw [hs] at hw
      simp only at hw
      split at hw
      · cases hw
      · injection hw with hw
        subst hw
        have : ∀ es, (∀ e ∈ es, e ∈ s.entries) → writeCopies m s data es = [] := by
          intro es
          induction es with
          | nil => intro _; rfl
          | cons e es ih =>
            intro hes
            have he := hall e (hes e List.mem_cons_self)
            have hwc : writeCopy m s data e = [] := by
              unfold writeCopy; rw [if_neg (fun h => h he.1)]
            simp only [writeCopies, hwc, apply_nil, List.nil_append]
            exact ih (fun x hx => hes x (List.mem_cons_of_mem _ hx))
        exact this _ (fun _ h => h)
    subst hws
    unfold readSection
    rw [hs, apply_nil]
    simp only
    split
    · simp
    · rw [readCopies_none _ _ _ (fun e he => (hall e he).2)]
      simp

example : readSection (step [secA, secB] (fun _ => 0xFF) (.write 2 [1, 2, 3, 4])) [secA, secB] 2 4
    = some [1, 2, 3, 4] := by decide +kernel

/-! ## C13: sections do not disturb each other -/

/-- C13: a write or delete changes no byte outside the addresses owned by the named section. -/
theorem step_frame (secs : List Section) (m : Mem) (op : Op) (a : Nat)
    (ha : ∀ s ∈ secs, s.id = op.id → ¬ s.owns a) : step secs m op a = m a := by
  cases op with
  | read id n => rfl
  | write id data =>
    simp only [step]
    cases hw : writeSection m secs id data with
    | none => rfl
    | some ws =>
      obtain ⟨s, hs, hid, hown⟩ := writeSection_addr hw
      apply apply_other
      intro w hww e
      exact ha s hs hid (e ▸ hown w hww)
  | delete id =>
    simp only [step]
    cases hw : deleteSection secs id with
    | none => rfl
    | some ws =>
      obtain ⟨s, hs, hid, hown⟩ := deleteSection_addr hw
      apply apply_other
      intro w hww e
      exact ha s hs hid (e ▸ hown w hww)

/-- C13, histories: over every layout of non-overlapping sections and every history of operations
on other sections, every address owned by a section keeps its byte. -/
theorem history_frame (secs : List Section) (hd : Disjoint secs) (s : Section) (hs : s ∈ secs)
    (ops : List Op) (hops : ∀ o ∈ ops, o.id ≠ s.id) (m : Mem) (a : Nat) (ha : s.owns a) :
    run secs m ops a = m a := by
  induction ops generalizing m with
  | nil => rfl
  | cons o ops ih =>
    show run secs (step secs m o) ops a = m a
    rw [ih (fun x hx => hops x (List.mem_cons_of_mem _ hx))]
    apply step_frame
    intro t ht hid hown
    have hne := hops o List.mem_cons_self
    exact hd t ht s hs (by rw [hid]; exact hne) a hown ha

/-- C13: and so every other section reads exactly as before. -/
theorem sections_isolated (secs : List Section) (hd : Disjoint secs) (id : Int) (size : Nat)
    (ops : List Op) (hops : ∀ o ∈ ops, o.id ≠ id) (m : Mem) :
    readSection (run secs m ops) secs id size = readSection m secs id size := by
  apply readSection_congr
  intro s hs a ha
  obtain ⟨hm, hid⟩ := lookup_mem hs
  exact history_frame secs hd s hm ops (by rw [hid]; exact hops) m a ha

/-- Addresses owned by no section (the state area, when sections are placed outside it) never change. -/
theorem outside_untouched (secs : List Section) (ops : List Op) (m : Mem) (a : Nat)
    (ha : ∀ s ∈ secs, ¬ s.owns a) : run secs m ops a = m a := by
  induction ops generalizing m with
  | nil => rfl
  | cons o ops ih =>
    show run secs (step secs m o) ops a = m a
    rw [ih, step_frame _ _ _ _ (fun s hs _ => ha s hs)]

/-- C12 and C13 together: a value written (and not hitting the stale-checksum case) is still read
after any later operations on other sections. -/
theorem write_persists_partial (secs : List Section) (hd : Disjoint secs) (m : Mem) (id : Int)
    (data : List Byte) (ws : List Write) (s : Section) (hs : lookup secs id = some s)
    (hw : writeSection m secs id data = some ws)
    (hok : s.crc = false ∨ ∃ e ∈ s.entries,
      readRange m (s.entryOffset e) s.size ≠ data ∨ copyOk m s e = true)
    (ops : List Op) (hops : ∀ o ∈ ops, o.id ≠ id) :
    readSection (run secs m (.write id data :: ops)) secs id data.length = some data := by
  show readSection (run secs (step secs m (.write id data)) ops) secs id data.length = some data
  rw [sections_isolated secs hd id _ ops hops]
  simp only [step, hw, Option.getD_some]
  exact write_read_partial m secs id data ws s hs hw hok

/-- Registration keeps identifiers unique, so `lookup` finds every registered section. -/
theorem register_unique (secs secs' : List Section) (s : Section)
    (h : register secs s = some secs') (hu : (secs.map (·.id)).Nodup) :
    (secs'.map (·.id)).Nodup ∧ lookup secs' s.id = some s := by
  unfold register at h
  split at h
  · cases h
  · split at h
    · cases h
    · rename_i hany
      injection h with h
      subst h
      have hnot : ∀ t ∈ secs, t.id ≠ s.id := by
        intro t ht e
        apply hany
        exact List.any_eq_true.mpr ⟨t, ht, by simp [e]⟩
      constructor
      · rw [List.map_append, List.nodup_append]
        refine ⟨hu, by simp, ?_⟩
        intro x hx y hy
        simp only [List.map_cons, List.map_nil, List.mem_cons, List.not_mem_nil, or_false] at hy
        obtain ⟨t, ht, hxt⟩ := List.mem_map.mp hx
        rw [hy, ← hxt]; exact hnot t ht
      · unfold lookup
        rw [List.find?_append, List.find?_eq_none.mpr]
        · simp
        · intro t ht; simpa using hnot t ht

/-- Registration does not check ranges: the hypothesis `Disjoint` of C13 is the caller's duty. -/
theorem register_accepts_overlap : ∃ secs, register [secA] { secB with offset := 16 } = some secs ∧
    readSection (run secs (fun _ => 0xFF) [.write 1 [1, 2, 3, 4], .write 2 [5, 6, 7, 8]]) secs 1 4
      = some [5, 6, 7, 8] :=
  ⟨_, rfl, by decide +kernel⟩

theorem disjointAB : Disjoint [secA, secB] := by
  intro s hs t ht hne a h1 h2
  simp only [List.mem_cons, List.not_mem_nil, or_false] at hs ht
  rcases hs with hs | hs <;> rcases ht with ht | ht <;> subst hs <;> subst ht <;>
    simp [Section.owns, secA, secB] at h1 h2 hne <;> omega

example : readSection (run [secA, secB] (fun _ => 0xFF)
    [.write 1 [1, 2, 3, 4], .write 2 [5, 6, 7, 8], .delete 2, .write 2 [0, 1, 1, 1]]) [secA, secB] 1 4
    = some [1, 2, 3, 4] := by decide +kernel

/-! ## C14: power loss while writing a backed-up section -/

/-- C14 in full. -/
def CrashSafe : Prop :=
  ∀ (m : Mem) (secs : List Section) (id : Int) (s : Section) (old new : List Byte)
    (ws : List Write) (n : Nat),
    lookup secs id = some s → s.crc = true → s.backup = true →
    readSection m secs id old.length = some old →
    writeSection m secs id new = some ws →
    readSection (crash m ws n) secs id new.length = some old
      ∨ readSection (crash m ws n) secs id new.length = some new

/-- A medium on which both copies of `secB` hold four zero bytes with their checksum. -/
def intactB : Mem := run [secB] (fun _ => 0xFF) [.write 2 [0, 0, 0, 0]]

/-- C14 is false of the code: exclusive-or with 3, 64, 1 on three bytes leaves the CRC unchanged, so
losing power after three bytes makes the section read as a mixture. -/
theorem crash_mixture_violation :
    ∃ n, readSection (crash intactB ((writeSection intactB [secB] 2 [3, 64, 1, 9]).getD []) n) [secB] 2 4
      = some [3, 64, 1, 0] := ⟨3, by decide +kernel⟩

/-- C14 also fails without any checksum coincidence: reading does not repair a damaged backup copy,
so power loss while the backup is being written, followed by power loss during the next write,
loses both values. -/
theorem crash_twice_violation :
    ∃ n1 n2, let m1 := crash intactB ((writeSection intactB [secB] 2 [1, 2, 3, 4]).getD []) n1
      readSection m1 [secB] 2 4 = some [1, 2, 3, 4] ∧
      readSection (crash m1 ((writeSection m1 [secB] 2 [5, 6, 7, 8]).getD []) n2) [secB] 2 4 = none :=
  ⟨7, 1, by decide +kernel⟩

/-- And it fails when the interrupted write is repeated with the same data: the main copy is then
skipped with its stale checksum while the backup is overwritten. -/
theorem crash_retry_violation :
    ∃ n1 n2, let m1 := crash intactB ((writeSection intactB [secB] 2 [1, 2, 3, 4]).getD []) n1
      readSection m1 [secB] 2 4 = some [0, 0, 0, 0] ∧
      readSection (crash m1 ((writeSection m1 [secB] 2 [1, 2, 3, 4]).getD []) n2) [secB] 2 4 = none :=
  ⟨4, 1, by decide +kernel⟩

theorem crash_safe_violation : ¬ CrashSafe := by
  intro h
  obtain ⟨n, hn⟩ := crash_mixture_violation
  have := h intactB [secB] 2 secB [0, 0, 0, 0] [3, 64, 1, 9] _ n rfl rfl rfl (by decide +kernel) rfl
  rw [show ([3, 64, 1, 9] : List Byte).length = 4 from rfl] at this
  have e : (writeSection intactB [secB] 2 [3, 64, 1, 9]).getD []
    = writeCopies intactB secB [3, 64, 1, 9] [0, 1] := rfl
  rw [e] at hn
  have e2 : secB.entries = [0, 1] := rfl
  rw [e2, hn] at this
  revert this; decide

theorem holds_iff (s : Section) (m : Mem) (e : Nat) (data : List Byte) (hl : data.length = s.size)
    (hc : s.crc = true) :
    s.holds m e data ↔ (readRange m (s.entryOffset e) s.size = data ∧ copyOk m s e = true) := by
  have he : s.entryOffset e = s.offset + e * (s.size + 2) := by
    simp [Section.entryOffset, Section.entrySize, hc]
  unfold Section.holds
  simp only [← he]
  rw [← hl, readRange_eq_iff]
  constructor
  · intro ⟨h1, h2, h3⟩
    refine ⟨h1, ?_⟩
    unfold copyOk
    rw [hc, ← hl, (readRange_eq_iff m _ data).mpr h1]
    simp only [Bool.not_true, Bool.false_or, beq_iff_eq]
    simp only [readRange, List.range_succ, List.range_zero, List.nil_append, List.map_cons,
      List.cons_append, List.map_nil, Nat.add_zero, le16]
    rw [h2, h3]
  · intro ⟨h1, h2⟩
    refine ⟨h1, ?_⟩
    unfold copyOk at h2
    rw [hc, ← hl, (readRange_eq_iff m _ data).mpr h1] at h2
    simp only [Bool.not_true, Bool.false_or, beq_iff_eq] at h2
    simp only [readRange, List.range_succ, List.range_zero, List.nil_append, List.map_cons,
      List.cons_append, List.map_nil, Nat.add_zero, le16] at h2
    injection h2 with a b
    injection b with b _
    exact ⟨a, b⟩

/-- Reading a backed-up section. -/
theorem readCopies_two (m : Mem) (s : Section) : readCopies m s [0, 1] =
    if copyOk m s 0 then some (readRange m (s.entryOffset 0) s.size)
    else if copyOk m s 1 then some (readRange m (s.entryOffset 1) s.size) else none := rfl

/-- C14, proved part: when both copies are intact (the state every completed write leaves, see
`write_keeps_copies`), power loss after any number of byte writes leaves the old or the new value,
unless a half-written main copy happens to carry the CRC of the old one. Missing: that coincidence,
and a second power loss before both copies were made intact again; both are violations above. -/
theorem crash_safe_partial (m : Mem) (secs : List Section) (id : Int) (s : Section)
    (old new : List Byte) (ws : List Write) (n : Nat)
    (hs : lookup secs id = some s) (hc : s.crc = true) (hb : s.backup = true)
    (hl : old.length = s.size)
    (h0 : s.holds m 0 old) (h1 : s.holds m 1 old)
    (hw : writeSection m secs id new = some ws)
    (hmix : ∀ k, crc16 (new.take k ++ old.drop k) = crc16 old →
      new.take k ++ old.drop k = old ∨ new.take k ++ old.drop k = new) :
    readSection (crash m ws n) secs id new.length = some old
      ∨ readSection (crash m ws n) secs id new.length = some new := by
  unfold writeSection at hw
  rw [hs] at hw
  simp only at hw
  split at hw
  · cases hw
  rename_i hln
  have hln : new.length = s.size := by omega
  injection hw with hw
  have hent : s.entries = [0, 1] := by simp [Section.entries, hb]
  rw [hent] at hw
  unfold readSection
  rw [hs]
  simp only
  rw [if_neg (by omega), hent, readCopies_two]
  rw [holds_iff s m _ old hl hc] at h0 h1
  have hesz : s.entrySize = s.size + 2 := by simp [Section.entrySize, hc]
  -- every prefix of the first copy's writes leaves the second copy alone
  have other : ∀ p : List Write, (∀ w ∈ p, w ∈ writeCopy m s new 0) →
      readRange (apply m p) (s.entryOffset 1) s.size = old ∧ copyOk (apply m p) s 1 = true := by
    intro p hp
    have o := copy_other m s 0 1 p (by decide) (fun w hw => writeCopy_addr m s new 0 hln w (hp w hw))
    rw [o.1, o.2]; exact h1
  unfold crash
  subst hw
  simp only [writeCopies, List.append_nil]
  by_cases hn : n ≤ (writeCopy m s new 0).length
  · -- still inside the main copy
    rw [List.take_append_of_le_length hn]
    have oth := other ((writeCopy m s new 0).take n) (fun w hw => List.mem_of_mem_take hw)
    rw [oth.1, oth.2, if_pos rfl]
    split
    · rename_i hok
      unfold writeCopy at hok ⊢
      split
      · rename_i hne
        rw [if_pos hne, if_pos hc] at hok
        by_cases hnd : n ≤ new.length
        · -- inside the data bytes
          rw [List.take_append_of_le_length (by rw [bytesAt_length]; exact hnd), bytesAt_take] at hok ⊢
          have hmixed := readRange_partial m (s.entryOffset 0) n new old (by omega) (by rw [hln]; exact h0.1)
          rw [hln] at hmixed
          rw [hmixed]
          unfold copyOk at hok
          rw [hmixed] at hok
          have hcrc : readRange (apply m (bytesAt (s.entryOffset 0) (new.take n)))
              (s.entryOffset 0 + s.size) 2 = le16 (crc16 old) := by
            rw [readRange_disjoint]
            · have := h0.2
              unfold copyOk at this
              rw [h0.1, hc] at this
              simpa using this
            · intro w hw
              have := bytesAt_addr _ _ _ hw
              simp only [List.length_take] at this
              omega
          rw [hcrc, hc] at hok
          have hinj : crc16 old = crc16 (new.take n ++ old.drop n) := by
            simp only [Bool.not_true, Bool.false_or, beq_iff_eq, le16, List.cons.injEq, and_true] at hok
            obtain ⟨hlo, hhi⟩ := hok
            apply BitVec.eq_of_getLsbD_eq
            intro i hi
            by_cases h8 : i < 8
            · have := congrArg (fun x => x.getLsbD i) hlo
              simpa [h8] using this
            · have := congrArg (fun x => x.getLsbD (i - 8)) hhi
              have e : 8 + (i - 8) = i := by omega
              simpa [show i - 8 < 8 by omega, e] using this
          rcases hmix n hinj.symm with h | h
          · left; rw [h]
          · right; rw [h]
        · -- inside the checksum bytes: the data is already the new one
          right
          rw [List.take_append, bytesAt_length, List.take_of_length_le (by rw [bytesAt_length]; omega),
            apply_append, bytesAt_take, readRange_disjoint]
          · congr 1
            rw [← hln]; exact readRange_written m _ new
          · intro w hw
            have := bytesAt_addr _ _ _ hw
            omega
      · rename_i heq
        left
        simp only [List.take_nil, apply_nil]
        rw [h0.1]
    · left; rfl
  · -- main copy completely written
    right
    rw [List.take_append, List.take_of_length_le (by omega : (writeCopy m s new 0).length ≤ n), apply_append]
    have w0 := writeCopy_result m s new 0 hln
    generalize hm1 : apply m (writeCopy m s new 0) = m1 at *
    have o := copy_other m1 s 1 0 ((writeCopy m1 s new 1).take (n - (writeCopy m s new 0).length)) (by decide)
      (fun w hw => writeCopy_addr m1 s new 1 hln w (List.mem_of_mem_take hw))
    rw [o.1, o.2, w0.1, w0.2 (Or.inl h0.2), if_pos rfl]

/-- C14 without side condition on the CRC: if old and new value differ only within some window of 16
bits, power loss at any point leaves one of them. -/
theorem crash_safe_window_partial (m : Mem) (secs : List Section) (id : Int) (s : Section)
    (old new : List Byte) (ws : List Write) (n : Nat)
    (hs : lookup secs id = some s) (hc : s.crc = true) (hb : s.backup = true)
    (hl : old.length = s.size)
    (h0 : s.holds m 0 old) (h1 : s.holds m 1 old)
    (hw : writeSection m secs id new = some ws)
    (hwin : ∃ i, ∀ j, (j < i ∨ i + 16 ≤ j) → Crc16.bitAt old j = Crc16.bitAt new j) :
    readSection (crash m ws n) secs id new.length = some old
      ∨ readSection (crash m ws n) secs id new.length = some new := by
  apply crash_safe_partial m secs id s old new ws n hs hc hb hl h0 h1 hw
  intro k hk
  left
  have hln : new.length = s.size := by
    unfold writeSection at hw
    rw [hs] at hw
    simp only at hw
    split at hw
    · cases hw
    · omega
  apply Classical.byContradiction
  intro hne
  obtain ⟨i, hi⟩ := hwin
  refine Crc16.burst_detected (new.take k ++ old.drop k) old ?_ hne i ?_ hk
  · simp only [List.length_append, List.length_take, List.length_drop]; omega
  · intro j hj
    have := hi j hj
    unfold Crc16.bitAt at *
    by_cases hjk : j / 8 < k
    · rw [this]
      congr 1
      simp only [List.getD_eq_getElem?_getD]
      by_cases hjl : j / 8 < new.length
      · rw [List.getElem?_append_left (by simp; omega), List.getElem?_take_of_lt hjk]
      · rw [List.getElem?_append_right (by simp; omega), List.getElem?_drop]
        simp only [List.length_take]
        rw [List.getElem?_eq_none (by omega), List.getElem?_eq_none (by omega)]
    · congr 1
      simp only [List.getD_eq_getElem?_getD]
      rw [List.getElem?_append_right (by simp; omega), List.getElem?_drop]
      simp only [List.length_take]
      by_cases hkl : k ≤ new.length
      · congr 2; omega
      · rw [List.getElem?_eq_none (by omega), List.getElem?_eq_none (by omega)]

/-- A completed write leaves both copies holding the new value. -/
theorem write_keeps_copies (m : Mem) (secs : List Section) (id : Int) (s : Section)
    (old new : List Byte) (ws : List Write)
    (hs : lookup secs id = some s) (hc : s.crc = true) (hb : s.backup = true)
    (hl : old.length = s.size) (h0 : s.holds m 0 old) (h1 : s.holds m 1 old)
    (hw : writeSection m secs id new = some ws) :
    new.length = s.size ∧ s.holds (apply m ws) 0 new ∧ s.holds (apply m ws) 1 new := by
  unfold writeSection at hw
  rw [hs] at hw
  simp only at hw
  split at hw
  · cases hw
  rename_i hln
  have hln : new.length = s.size := by omega
  injection hw with hw
  subst hw
  have key := writeCopies_result m s new hln
  rw [holds_iff s m _ old hl hc] at h0 h1
  have hent : s.entries = [0, 1] := by simp [Section.entries, hb]
  rw [hent] at key ⊢
  refine ⟨hln, ?_, ?_⟩
  · rw [holds_iff s _ _ new hln hc]
    exact ⟨(key 0 (by simp)).1, (key 0 (by simp)).2 (Or.inl h0.2)⟩
  · rw [holds_iff s _ _ new hln hc]
    exact ⟨(key 1 (by simp)).1, (key 1 (by simp)).2 (Or.inl h1.2)⟩

/-- The value last written to a section: writes of another length are refused. -/
def lastWritten (id : Int) (size : Nat) (v : List Byte) : List Op → List Byte
  | [] => v
  | .write i d :: ops => lastWritten id size (if i = id ∧ d.length = size then d else v) ops
  | _ :: ops => lastWritten id size v ops

/-- After any history that does not delete the section, both copies hold the last written value. -/
theorem history_copies (secs : List Section) (hd : Disjoint secs) (id : Int) (s : Section)
    (hs : lookup secs id = some s) (hc : s.crc = true) (hb : s.backup = true) (ops : List Op)
    (hops : Op.delete id ∉ ops) : ∀ (m : Mem) (v : List Byte), v.length = s.size →
    s.holds m 0 v → s.holds m 1 v →
    (lastWritten id s.size v ops).length = s.size
      ∧ s.holds (run secs m ops) 0 (lastWritten id s.size v ops)
      ∧ s.holds (run secs m ops) 1 (lastWritten id s.size v ops) := by
  obtain ⟨hmem, hid⟩ := lookup_mem hs
  induction ops with
  | nil => intro m v hv h0 h1; exact ⟨hv, h0, h1⟩
  | cons o ops ih =>
    intro m v hv h0 h1
    have ih := ih (fun h => hops (List.mem_cons_of_mem _ h))
    -- operations on another section
    have frame : o.id ≠ id → s.holds (step secs m o) 0 v ∧ s.holds (step secs m o) 1 v := by
      intro hne
      rw [holds_iff s _ _ v hv hc] at h0 h1
      rw [holds_iff s _ _ v hv hc, holds_iff s _ _ v hv hc]
      have hfr : ∀ a, s.owns a → step secs m o a = m a := fun a ha =>
        history_frame secs hd s hmem [o] (by simpa [hid] using hne) m a ha
      have hent : ∀ e, e ∈ s.entries → readRange (step secs m o) (s.entryOffset e) s.size
          = readRange m (s.entryOffset e) s.size ∧ copyOk (step secs m o) s e = copyOk m s e := by
        intro e he
        have hr : readRange (step secs m o) (s.entryOffset e) s.size = readRange m (s.entryOffset e) s.size :=
          readRange_congr _ _ _ _ fun a h1 h2 =>
            hfr a (entry_owned s e he a h1 (by unfold Section.entrySize; omega))
        refine ⟨hr, ?_⟩
        unfold copyOk
        rw [hr, readRange_congr (step secs m o) m (s.entryOffset e + s.size) 2 fun a h1 h2 =>
          hfr a (entry_owned s e he a (by omega) (by simp only [Section.entrySize, hc, if_true]; omega))]
      have hen : s.entries = [0, 1] := by simp [Section.entries, hb]
      have e0 := hent 0 (by simp [hen])
      have e1 := hent 1 (by simp [hen])
      rw [e0.1, e0.2, e1.1, e1.2]
      exact ⟨h0, h1⟩
    show (lastWritten id s.size v (o :: ops)).length = s.size
      ∧ s.holds (run secs (step secs m o) ops) 0 _ ∧ s.holds (run secs (step secs m o) ops) 1 _
    cases o with
    | read i n => exact ih _ v hv h0 h1
    | delete i =>
      have hne : i ≠ id := fun e => hops (by rw [e]; exact List.mem_cons_self)
      have := frame hne
      exact ih _ v hv this.1 this.2
    | write i d =>
      simp only [lastWritten]
      by_cases hi : i = id
      · subst hi
        by_cases hdl : d.length = s.size
        · rw [if_pos ⟨rfl, hdl⟩]
          have hw : writeSection m secs i d = some (writeCopies m s d s.entries) := by
            unfold writeSection; rw [hs]; simp only; rw [if_neg (by omega)]
          have := write_keeps_copies m secs i s v d _ hs hc hb hv h0 h1 hw
          have e : step secs m (.write i d) = apply m (writeCopies m s d s.entries) := by
            simp only [step, hw, Option.getD_some]
          rw [e]
          exact ih _ d this.1 this.2.1 this.2.2
        · rw [if_neg (fun h => hdl h.2)]
          have hw : writeSection m secs i d = none := by
            unfold writeSection; rw [hs]; simp only; rw [if_pos (by omega)]
          have e : step secs m (.write i d) = m := by
            simp only [step, hw, Option.getD_none, apply_nil]
          rw [e]
          exact ih _ v hv h0 h1
      · rw [if_neg (fun h => hi h.1)]
        have := frame hi
        exact ih _ v hv this.1 this.2

/-- C14 over histories, proved part: from intact copies, after any history of complete operations on
any sections (none deleting this one), power loss at any byte of the next write leaves the last
written value or the new one, unless a mixture carries the old checksum. -/
theorem crash_history_partial (secs : List Section) (hd : Disjoint secs) (id : Int) (s : Section)
    (hs : lookup secs id = some s) (hc : s.crc = true) (hb : s.backup = true) (m : Mem)
    (v : List Byte) (hv : v.length = s.size) (h0 : s.holds m 0 v) (h1 : s.holds m 1 v)
    (ops : List Op) (hops : Op.delete id ∉ ops) (old new : List Byte)
    (hold : old = lastWritten id s.size v ops)
    (ws : List Write) (n : Nat) (hw : writeSection (run secs m ops) secs id new = some ws)
    (hmix : ∀ k, crc16 (new.take k ++ old.drop k) = crc16 old →
      new.take k ++ old.drop k = old ∨ new.take k ++ old.drop k = new) :
    readSection (crash (run secs m ops) ws n) secs id new.length = some old
      ∨ readSection (crash (run secs m ops) ws n) secs id new.length = some new := by
  subst hold
  obtain ⟨a, b, c⟩ := history_copies secs hd id s hs hc hb ops hops m v hv h0 h1
  exact crash_safe_partial _ secs id s _ new ws n hs hc hb a b c hw hmix

/-- The hypotheses are met: intact copies, a one-byte change, and every crash point. -/
example : secB.holds intactB 0 [0, 0, 0, 0] ∧ secB.holds intactB 1 [0, 0, 0, 0]
    ∧ writeSection intactB [secA, secB] 2 [0, 7, 0, 0] ≠ none := by
  refine ⟨?_, ?_, by decide +kernel⟩
  · rw [holds_iff secB _ _ _ rfl rfl]; decide +kernel
  · rw [holds_iff secB _ _ _ rfl rfl]; decide +kernel

end Verif.Storage
