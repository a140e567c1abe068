import Verif.FileStore.Model

/-! # State storage in a file: proofs -/

namespace Verif.FileStore

/-! ## Reading and writing -/

theorem put_length {b d : Bytes} {off : Nat} (h : off + d.length ≤ b.length) : (put b off d).length = b.length := by
  unfold put
  rw [List.length_append, List.length_append, List.length_take, List.length_drop]
  omega

theorem put_get {b d : Bytes} {off : Nat} (h : off + d.length ≤ b.length) (i : Nat) :
    (put b off d)[i]? = if off ≤ i ∧ i < off + d.length then d[i - off]? else b[i]? := by
  unfold put
  have hl : (b.take off).length = off := by rw [List.length_take]; omega
  by_cases h1 : i < off
  · rw [if_neg (by omega), List.append_assoc, List.getElem?_append_left (by rw [hl]; exact h1), List.getElem?_take_of_lt h1]
  · by_cases h2 : i < off + d.length
    · rw [if_pos ⟨by omega, h2⟩, List.getElem?_append_left (by rw [List.length_append, hl]; exact h2),
        List.getElem?_append_right (by rw [hl]; omega), hl]
    · rw [if_neg (by omega), List.getElem?_append_right (by rw [List.length_append, hl]; omega), List.length_append, hl,
        List.getElem?_drop]
      congr 1
      omega

/-- Inside the buffer both kinds write, and what is written is read back; other places are not touched. -/
theorem write_read (k : Kind) (off : Nat) (d : Bytes) (s : S) (h : off + d.length ≤ s.buf.length) (hs : s.buf.length < 2 ^ 32) :
    ∃ s', write k off d s = some (d.length, s') ∧ s'.buf.length = s.buf.length ∧ s'.dirty = true ∧ s'.file = s.file ∧
      read k off d.length s' = some d ∧ ∀ i, i < off ∨ off + d.length ≤ i → s'.buf[i]? = s.buf[i]? := by
  have hr : refused k s.buf.length off d.length = false := by
    cases k with
    | spiffs =>
      show decide ((off + d.length) % 2 ^ 32 > s.buf.length) = false
      rw [Nat.mod_eq_of_lt (by omega)]
      exact decide_eq_false (by omega)
    | linux => rfl
  have hp := put_length h
  refine ⟨{ s with buf := put s.buf off d, dirty := true }, ?_, hp, rfl, rfl, ?_, fun i hi => ?_⟩
  · unfold write
    rw [hr, if_neg Bool.false_ne_true, if_pos (Or.inl h)]
  · unfold read
    dsimp only
    rw [hp, hr, if_neg Bool.false_ne_true, if_pos (Or.inl h)]
    congr 1
    apply List.ext_getElem?
    intro i
    by_cases hi : i < d.length
    · rw [List.getElem?_take_of_lt hi, List.getElem?_drop, put_get h, if_pos ⟨by omega, by omega⟩]
      congr 1
      omega
    · rw [List.getElem?_eq_none (by rw [List.length_take]; omega), List.getElem?_eq_none (by omega)]
  · show (put s.buf off d)[i]? = _
    rw [put_get h, if_neg (by omega)]

/-- SPIFFS refuses what lies outside, without touching the buffer, for offsets and sizes whose sum fits 32 bits. -/
theorem spiffs_refuses (off : Nat) (d : Bytes) (s : S) (h : off + d.length > s.buf.length) (hs : off + d.length < 2 ^ 32) :
    write .spiffs off d s = some (0, { s with dirty := true }) ∧ read .spiffs off d.length s = some [] := by
  have hr : refused .spiffs s.buf.length off d.length = true := by
    show decide ((off + d.length) % 2 ^ 32 > s.buf.length) = true
    rw [Nat.mod_eq_of_lt hs]
    exact decide_eq_true h
  unfold write read
  rw [hr]
  exact ⟨rfl, rfl⟩

/-! ## Restarts -/

/-- Full claim: after a restart at any moment of a commit the storage holds the old or the new state. -/
def CrashSafe (k : Kind) : Prop := ∀ (s : S) (old : Bytes) (d : Disk), s.file = some old → old.length = s.buf.length →
  (restart k s.buf.length (commit d s)).buf = old ∨ (restart k s.buf.length (commit d s)).buf = s.buf

/-- Full claim: what was written is in the file after a later commit that works. -/
def Retried (k : Kind) : Prop := ∀ (s : S) (ds : List Disk), s.dirty = true →
  (restart k s.buf.length (commit .whole (ds.foldl (fun s d => commit d s) s))).buf = s.buf

theorem load_same (k : Kind) (b : Bytes) : load k b.length (some b) = b := by
  cases k with
  | spiffs => show (if b.length ≠ b.length then _ else b) = b; rw [if_neg (fun h => h rfl)]
  | linux => show b.take b.length ++ List.replicate (b.length - b.length) 0 = b; rw [List.take_length, Nat.sub_self]; exact List.append_nil _

/-- A commit that works is there after the restart. -/
theorem commit_kept (k : Kind) (s : S) (h : s.dirty = true) : (restart k s.buf.length (commit .whole s)).buf = s.buf := by
  show load k s.buf.length (commit .whole s).file = s.buf
  rw [show (commit .whole s).file = some s.buf by unfold commit; rw [if_pos h]; rfl]
  exact load_same k s.buf

/-- The restart gives the old state if the commit did not begin to write, the new one if it wrote everything. -/
theorem crash_safe_partial (k : Kind) (s : S) (old : Bytes) (d : Disk) (hf : s.file = some old) (hl : old.length = s.buf.length)
    (hd : ∀ n, d ≠ .part n) :
    (restart k s.buf.length (commit d s)).buf = old ∨ (restart k s.buf.length (commit d s)).buf = s.buf := by
  have ho : load k s.buf.length (some old) = old := by rw [← hl]; exact load_same k old
  show load k s.buf.length (commit d s).file = old ∨ load k s.buf.length (commit d s).file = s.buf
  unfold commit
  cases s.dirty
  · rw [if_neg Bool.false_ne_true]
    show load k s.buf.length s.file = old ∨ _
    rw [hf]; exact Or.inl ho
  · rw [if_pos rfl]
    cases d with
    | closed =>
      show load k s.buf.length s.file = old ∨ _
      rw [hf]; exact Or.inl ho
    | part n => exact absurd rfl (hd n)
    | whole => exact Or.inr (load_same k s.buf)

/-- Nothing changed: nothing is written. -/
theorem clean_not_written (d : Disk) (s : S) (h : s.dirty = false) : (commit d s).file = s.file := by
  unfold commit
  rw [h]
  rfl

/-- The buffer always has the size asked for. -/
theorem load_length (k : Kind) (size : Nat) (file : Option Bytes) : (load k size file).length = size := by
  unfold load
  cases file with
  | none => exact List.length_replicate
  | some f =>
    cases k with
    | spiffs =>
      dsimp only
      by_cases h : f.length ≠ size
      · rw [if_pos h]; exact List.length_replicate
      · rw [if_neg h]; omega
    | linux =>
      dsimp only
      rw [List.length_append, List.length_take, List.length_replicate]
      omega

/-- SPIFFS: a power cut anywhere in the writing of the file loses the whole state, old and new. -/
theorem spiffs_crash_violation : ¬ CrashSafe .spiffs ∧ ∀ (s : S) (n : Nat), s.dirty = true → n < s.buf.length →
    (restart .spiffs s.buf.length (commit (.part n) s)).buf = List.replicate s.buf.length 0 := by
  have key : ∀ (s : S) (n : Nat), s.dirty = true → n < s.buf.length →
      (restart .spiffs s.buf.length (commit (.part n) s)).buf = List.replicate s.buf.length 0 := by
    intro s n hd hn
    show load .spiffs s.buf.length (commit (.part n) s).file = _
    rw [show (commit (.part n) s).file = some (s.buf.take n) by unfold commit; rw [if_pos hd]; rfl]
    show (if (s.buf.take n).length ≠ s.buf.length then _ else _) = _
    rw [if_pos (by rw [List.length_take]; omega)]
  refine ⟨fun h => ?_, key⟩
  rcases h ⟨[1, 2], some [1, 1], true⟩ [1, 1] (.part 1) rfl rfl with h | h <;> revert h <;> decide

/-- Linux: a mixture of new bytes and zeros. -/
theorem linux_crash_violation : ¬ CrashSafe .linux ∧ ∀ (s : S) (n : Nat), s.dirty = true → n < s.buf.length →
    (restart .linux s.buf.length (commit (.part n) s)).buf = s.buf.take n ++ List.replicate (s.buf.length - n) 0 := by
  have key : ∀ (s : S) (n : Nat), s.dirty = true → n < s.buf.length →
      (restart .linux s.buf.length (commit (.part n) s)).buf = s.buf.take n ++ List.replicate (s.buf.length - n) 0 := by
    intro s n hd hn
    show load .linux s.buf.length (commit (.part n) s).file = _
    rw [show (commit (.part n) s).file = some (s.buf.take n) by unfold commit; rw [if_pos hd]; rfl]
    show (s.buf.take n).take s.buf.length ++ List.replicate (s.buf.length - (s.buf.take n).length) 0 = _
    rw [List.take_take, List.length_take, Nat.min_eq_left (Nat.le_of_lt hn), Nat.min_eq_right (Nat.le_of_lt hn)]
  refine ⟨fun h => ?_, key⟩
  rcases h ⟨[2, 2], some [1, 1], true⟩ [1, 1] (.part 1) rfl rfl with h | h <;> revert h <;> decide

/-- A commit that failed is not repeated: later ones write nothing until something is written again. -/
theorem not_retried_violation (k : Kind) : ¬ Retried k ∧ ∀ (s : S) (ds : List Disk),
    (ds.foldl (fun s d => commit d s) (commit .closed s)).file = s.file := by
  have key : ∀ (s : S) (ds : List Disk), (ds.foldl (fun s d => commit d s) (commit .closed s)).file = s.file := by
    intro s ds
    have h0 : (commit .closed s).file = s.file ∧ (commit .closed s).dirty = false := by
      unfold commit
      cases s.dirty <;> exact ⟨rfl, rfl⟩
    generalize commit .closed s = t at h0
    induction ds generalizing t with
    | nil => exact h0.1
    | cons d ds ih =>
      rw [List.foldl_cons]
      refine ih (commit d t) ⟨by rw [clean_not_written d t h0.2]; exact h0.1, ?_⟩
      unfold commit
      cases t.dirty <;> rfl
  refine ⟨fun h => ?_, key⟩
  have := h ⟨[7], none, true⟩ [.closed] rfl
  revert this
  cases k <;> decide

/-- After an update of the device that needs a storage of another size SPIFFS drops the whole state; Linux keeps what
fits. -/
theorem resize_violation (f : Bytes) (size : Nat) (h : f.length ≠ size) :
    load .spiffs size (some f) = List.replicate size 0 ∧ ∀ i < size, i < f.length → (load .linux size (some f))[i]? = f[i]? := by
  refine ⟨if_pos h, fun i hi hf => ?_⟩
  show (f.take size ++ List.replicate (size - f.length) 0)[i]? = f[i]?
  rw [List.getElem?_append_left (by rw [List.length_take]; omega), List.getElem?_take_of_lt hi]

/-- Linux: every access outside the buffer is undefined; SPIFFS: one whose end wraps around 32 bits. -/
theorem outside_violation : (∀ off d s, off + d.length > s.buf.length → d ≠ [] → write .linux off d s = none) ∧
    write .spiffs (2 ^ 32 - 1) [1, 2] ⟨[0, 0, 0], none, false⟩ = none := by
  constructor
  · intro off d s h hd
    unfold write
    rw [show refused .linux s.buf.length off d.length = false from rfl, if_neg Bool.false_ne_true,
      if_neg (fun hc => by rcases hc with hc | hc; omega; exact hd hc)]
  · decide +kernel

/-- Non-vacuity. -/
example : (write .spiffs 1 [8, 9] ⟨[1, 2, 3], none, false⟩).map Prod.snd = some ⟨[1, 8, 9], none, true⟩ ∧
    (restart .spiffs 3 (commit .whole ⟨[1, 8, 9], none, true⟩)).buf = [1, 8, 9] := by decide +kernel

end Verif.FileStore
