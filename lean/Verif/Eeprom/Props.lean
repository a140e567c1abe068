/-
What is read back from the EEPROM, at once and after a restart, in every history.
-/
import Mathlib.Data.List.Induction
import Verif.Eeprom.Model

namespace Verif.Eeprom

/-! ## Within one run -/

theorem writeAll_frame : ∀ (bs : List Nat) (m : M) (off : Nat),
    (writeAll m off bs).size = m.size ∧ (writeAll m off bs).flash = m.flash ∧ (writeAll m off bs).changed = m.changed
  | [], _, _ => ⟨rfl, rfl, rfl⟩
  | b :: bs, m, off => by
    obtain ⟨h1, h2, h3⟩ := writeAll_frame bs (writeByte m off b) (off + 1)
    have hw : (writeByte m off b).size = m.size ∧ (writeByte m off b).flash = m.flash ∧ (writeByte m off b).changed = m.changed := by
      unfold writeByte
      split <;> exact ⟨rfl, rfl, rfl⟩
    unfold writeAll
    exact ⟨by rw [h1, hw.1], by rw [h2, hw.2.1], by rw [h3, hw.2.2]⟩

/-- What is in memory after a write: the new bytes as far as there is room, all others as before. -/
theorem writeAll_copy : ∀ (bs : List Nat) (m : M) (off a : Nat),
    (writeAll m off bs).copy a = if off ≤ a ∧ a < off + bs.length ∧ a < m.size then bs.getD (a - off) 0 else m.copy a
  | [], m, off, a => by
    rw [if_neg (by simp only [List.length_nil]; omega)]
    rfl
  | b :: bs, m, off, a => by
    unfold writeAll
    rw [writeAll_copy bs (writeByte m off b) (off + 1) a]
    have hs : (writeByte m off b).size = m.size := by unfold writeByte; split <;> rfl
    have hc : (writeByte m off b).copy a = if a = off ∧ off < m.size then b else m.copy a := by
      unfold writeByte
      by_cases h : off < m.size
      · rw [if_pos h]
        dsimp only
        by_cases ha : a = off <;> simp [ha, h]
      · rw [if_neg h, if_neg (by omega)]
    rw [hs, hc]
    simp only [List.length_cons]
    by_cases ha : a = off
    · rw [if_neg (by omega)]
      by_cases h : off < m.size
      · rw [if_pos ⟨ha, h⟩, if_pos (by omega), ha]
        simp
      · rw [if_neg (by omega), if_neg (by omega)]
    · by_cases h : off ≤ a ∧ a < off + (bs.length + 1) ∧ a < m.size
      · rw [if_pos (by omega), if_pos h]
        obtain ⟨k, hk⟩ : ∃ k, a - off = k + 1 := ⟨a - off - 1, by omega⟩
        have hk' : a - (off + 1) = k := by omega
        rw [hk, hk']
        simp
      · rw [if_neg (by omega), if_neg h, if_neg (by omega)]

theorem read_length (m : M) : ∀ (n off : Nat), (read m off n).length = n
  | 0, _ => rfl
  | n + 1, off => by unfold read; rw [List.length_cons, read_length m n (off + 1)]

theorem read_get (m : M) : ∀ (n off i : Nat), i < n → (read m off n).getD i 0 = readByte m (off + i)
  | 0, _, _, h => by omega
  | n + 1, off, 0, _ => by unfold read; simp
  | n + 1, off, i + 1, h => by
    unfold read
    rw [List.getD_cons_succ, read_get m n (off + 1) i (by omega)]
    congr 1
    omega

/-- The full claim: what was written is read back. -/
def ReadBack : Prop := ∀ (m : M) (off : Nat) (bs : List Nat), read (write m off bs) off bs.length = bs

/-- Exactly what is read back: the bytes up to the end of the EEPROM, and zeros. -/
theorem read_back (m : M) (off : Nat) (bs : List Nat) (i : Nat) (hi : i < bs.length) :
    (read (write m off bs) off bs.length).getD i 0 = if off + i < m.size then bs.getD i 0 else 0 := by
  rw [read_get _ _ _ _ hi]
  unfold readByte write
  rw [(writeAll_frame bs _ off).1, writeAll_copy]
  dsimp only
  by_cases h : off + i < m.size
  · rw [if_pos h, if_pos h, if_pos ⟨by omega, by omega, h⟩]
    congr 1
    omega
  · rw [if_neg h, if_neg h]

/-- Proved for what is within the EEPROM. -/
theorem read_back_partial (m : M) (off : Nat) (bs : List Nat) (h : off + bs.length ≤ m.size) :
    read (write m off bs) off bs.length = bs := by
  apply List.ext_getElem (read_length _ _ _)
  intro i h1 h2
  have hr := read_back m off bs i h2
  rw [if_pos (by omega)] at hr
  simpa [List.getD_eq_getElem?_getD, h1, h2] using hr

/-- A byte that is not zero and outside is lost, and `writeStorage` says it was written. -/
theorem outside_lost (m : M) (off : Nat) (bs : List Nat) (i : Nat) (hi : i < bs.length) (ho : m.size ≤ off + i)
    (hb : bs.getD i 0 ≠ 0) : read (write m off bs) off bs.length ≠ bs := by
  intro h
  have hr := read_back m off bs i hi
  rw [if_neg (by omega), h] at hr
  exact hb hr

theorem read_back_violation : ¬ ReadBack := fun h =>
  outside_lost (boot 512 (fun _ => 255)) 511 [7, 8] 1 (by decide) (by decide) (by decide) (h _ _ _)

/-- A write leaves all other addresses. -/
theorem others_kept (m : M) (off : Nat) (bs : List Nat) (a : Nat) (h : a < off ∨ off + bs.length ≤ a) :
    readByte (write m off bs) a = readByte m a := by
  unfold readByte write
  rw [(writeAll_frame bs _ off).1, writeAll_copy, if_neg (show ¬ (off ≤ a ∧ a < off + bs.length ∧ a < m.size) by omega)]

example : read (write (boot 1024 (fun _ => 255)) 10 [1, 2, 3]) 9 5 = [255, 1, 2, 3, 255] := by decide

/-! ## Across restarts -/

theorem step_size (m : M) (o : Op) : (step m o).size = m.size := by
  cases o with
  | write off bs => exact (writeAll_frame bs _ off).1
  | commit ok =>
    show (commit m ok).size = _
    unfold commit
    split <;> rfl
  | restart => rfl

theorem run_append : ∀ (a b : List Op) (m : M), run m (a ++ b) = run (run m a) b
  | [], _, _ => rfl
  | o :: a, b, m => run_append a b (step m o)

/-- In every history, whenever the device is cut off: after the restart it has exactly the content it had in memory at one
earlier moment — never a mixture of two. -/
theorem consistent (n : Nat) (f : Nat → Nat) (os : List Op) : ∃ pre post, os = pre ++ post ∧
    (run (boot n f) os).flash = (run (boot n f) pre).copy := by
  induction os using List.reverseRecOn with
  | nil => exact ⟨[], [], rfl, rfl⟩
  | append_singleton os o ih =>
    obtain ⟨pre, post, he, hf⟩ := ih
    have hlast : run (boot n f) (os ++ [o]) = step (run (boot n f) os) o := by rw [run_append]; rfl
    have hkeep : (step (run (boot n f) os) o).flash = (run (boot n f) os).flash →
        ∃ pre post, os ++ [o] = pre ++ post ∧ (run (boot n f) (os ++ [o])).flash = (run (boot n f) pre).copy := fun h =>
      ⟨pre, post ++ [o], by rw [he, List.append_assoc], by rw [hlast, h, hf]⟩
    cases o with
    | write off bs => exact hkeep (writeAll_frame bs _ off).2.1
    | restart => exact hkeep rfl
    | commit ok =>
      cases hc : (run (boot n f) os).changed with
      | false =>
        apply hkeep
        show (commit _ ok).flash = _
        unfold commit
        rw [hc]
        rfl
      | true =>
        cases ok with
        | false =>
          apply hkeep
          show (commit _ false).flash = _
          unfold commit
          rw [hc]
          rfl
        | true =>
          refine ⟨os, [.commit true], rfl, ?_⟩
          rw [hlast]
          show (commit _ true).flash = _
          unfold commit
          rw [hc]
          rfl

/-- After a write and a commit that succeeds a restart keeps everything. -/
theorem committed_kept (n : Nat) (f : Nat → Nat) (os : List Op) (off : Nat) (bs : List Nat) :
    (run (boot n f) (os ++ [.write off bs, .commit true, .restart])).copy = (run (boot n f) (os ++ [.write off bs])).copy := by
  rw [run_append, run_append]
  generalize run (boot n f) os = m
  show (boot _ (commit (write m off bs) true).flash).copy = (write m off bs).copy
  have hc : (write m off bs).changed = true := (writeAll_frame bs _ off).2.2
  unfold commit
  rw [hc]
  rfl

/-- The full claim: once a commit has succeeded, everything written before it is kept, also if an earlier commit failed. -/
def CommitKeeps : Prop := ∀ (n : Nat) (f : Nat → Nat) (os : List Op) (a : Nat),
  (∀ o ∈ os, match o with | .restart => False | _ => True) →
  (run (boot n f) (os ++ [.commit true, .restart])).copy a = (run (boot n f) os).copy a

/-- After a commit that failed further commits do nothing until the next write. -/
theorem failed_forgotten (m : M) : ∀ oks : List Bool, (run (commit m false) (oks.map .commit)).flash = m.flash ∧
    (run (commit m false) (oks.map .commit)).changed = false := by
  have h0 : (commit m false).flash = m.flash ∧ (commit m false).changed = false := by
    unfold commit
    split <;> exact ⟨rfl, rfl⟩
  have hn : ∀ (oks : List Bool) (x : M), x.changed = false →
      (run x (oks.map .commit)).flash = x.flash ∧ (run x (oks.map .commit)).changed = false := by
    intro oks
    induction oks with
    | nil => exact fun x hx => ⟨rfl, hx⟩
    | cons k ks ih =>
      intro x hx
      have hs : step x (.commit k) = { x with changed := false } := by
        show commit x k = _
        unfold commit
        rw [hx]
        rfl
      show (run (step x (.commit k)) (ks.map .commit)).flash = _ ∧ (run (step x (.commit k)) (ks.map .commit)).changed = false
      rw [hs]
      exact ih _ rfl
  intro oks
  obtain ⟨h1, h2⟩ := hn oks _ h0.2
  exact ⟨by rw [h1, h0.1], h2⟩

theorem commit_keeps_violation : ¬ CommitKeeps := fun h => by
  have := h 512 (fun _ => 255) [.write 0 [1], .commit false] 0 (by simp)
  revert this; decide

theorem quiet_same : ∀ (os : List Op) (m : M), (∀ o ∈ os, match o with | .write _ _ => True | .commit ok => ok = true | .restart => False) →
    (m.changed = false → m.flash = m.copy) → ((run m os).changed = false → (run m os).flash = (run m os).copy)
  | [], _, _, hi => hi
  | o :: os, m, hos, hi => by
    refine quiet_same os (step m o) (fun x hx => hos x (List.mem_cons_of_mem _ hx)) ?_
    have ho := hos o (List.mem_cons_self ..)
    cases o with
    | write off bs =>
      intro h
      have h' : (write m off bs).changed = false := h
      unfold write at h'
      rw [(writeAll_frame bs _ off).2.2] at h'
      cases h'
    | commit ok =>
      have ho : ok = true := ho
      rw [ho]
      show (commit m true).changed = false → (commit m true).flash = (commit m true).copy
      unfold commit
      cases hc : m.changed with
      | true => intro _; rfl
      | false => intro _; exact hi hc
    | restart => exact ho.elim

/-- Proved for histories in which no commit failed. -/
theorem commit_keeps_partial (n : Nat) (f : Nat → Nat) (os : List Op)
    (hos : ∀ o ∈ os, match o with | .write _ _ => True | .commit ok => ok = true | .restart => False) :
    (run (boot n f) (os ++ [.commit true, .restart])).copy = (run (boot n f) os).copy := by
  have hq := quiet_same os (boot n f) hos (fun _ => rfl)
  rw [run_append]
  generalize run (boot n f) os = m at *
  show (commit m true).flash = m.copy
  unfold commit
  cases hc : m.changed with
  | true => rfl
  | false => exact hq hc

/-- What was written and not committed is gone after a restart. -/
theorem uncommitted_gone (m : M) (off : Nat) (bs : List Nat) (a : Nat) (h : a < m.size) :
    readByte (run m [.write off bs, .restart]) a = m.flash a := by
  show readByte (boot (write m off bs).size (write m off bs).flash) a = _
  have hw : (write m off bs).size = m.size ∧ (write m off bs).flash = m.flash := ⟨(writeAll_frame bs _ off).1, (writeAll_frame bs _ off).2.1⟩
  unfold readByte
  rw [hw.1, hw.2]
  show (if a < m.size then m.flash a else 0) = _
  rw [if_pos h]

example : sizeOf 1024 (-1) = 1024 ∧ sizeOf 512 0 = 512 ∧ sizeOf 512 2000 = 2000 := by decide

end Verif.Eeprom
