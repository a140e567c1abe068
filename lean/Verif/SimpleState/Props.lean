import Verif.SimpleState.Lemmas
import Verif.Crc16.Props

/-!
# State of the elements without wear levelling: theorems
-/

namespace Verif.SimpleState

open Verif.Storage (Byte Mem Write readRange bytesAt apply le16 apply_append apply_bytesAt bytesAt_length bytesAt_take
  bytesAt_addr readRange_length readRange_congr readRange_eq_iff readRange_written readRange_disjoint readRange_partial)
open Verif.Crc16 (crc16 bitAt)

/-! ## Histories -/

/-- A device: medium, state, and the bytes of the last complete save. -/
structure Dev where
  m : Mem
  s : S
  last : Option (List Byte) := none

/-- What happens: the elements are saved, or the device is started again. -/
inductive Op where
  | save (cs : List (List Byte))
  | restart (cs : List (List Byte))

/-- The bytes of an operation. -/
def Op.bytes : Op → List Byte
  | .save cs => cs.flatten
  | .restart cs => cs.flatten

/-- The first start on a medium. -/
def first (start : Nat) (m : Mem) (cs : List (List Byte)) : Dev :=
  { m := apply m (begin' start m cs).ws, s := (begin' start m cs).s }

/-- One step. -/
def step (start : Nat) (d : Dev) : Op → Dev
  | .save cs => { m := apply d.m (save (start + 8) d.m d.s cs).2, s := (save (start + 8) d.m d.s cs).1, last := some cs.flatten }
  | .restart cs => { d with m := apply d.m (begin' start d.m cs).ws, s := (begin' start d.m cs).s }

/-- A history. -/
def run (start : Nat) (ops : List Op) (d : Dev) : Dev := ops.foldl (step start) d

/-- A medium that a device can use: no tag, or the header for one section. -/
def Usable (start : Nat) (m : Mem) : Prop := readRange m start 5 ≠ tag ∨ HasHeader start m

/-- The same elements: the pieces have the same sizes. -/
def Same (cs cs' : List (List Byte)) : Prop := cs.map List.length = cs'.map List.length

/-! ## Invariant -/

structure Inv (start N : Nat) (d : Dev) : Prop where
  header : HasHeader start d.m
  ready : Ready (start + 8) d.s
  size : d.s.esize = 0 ∨ d.s.esize = N
  last : ∀ D, d.last = some D → D.length = N ∧ HasPreamble (start + 8) d.m N (crc16 D) ∧ readRange d.m (start + 15) N = D

theorem preamble_length (n : Nat) (c : BitVec 16) : (preamble n c).length = 7 := rfl

theorem header_kept {start : Nat} {m : Mem} {ws : List Write} (h : HasHeader start m) (hw : ∀ w ∈ ws, start + 8 ≤ w.1) :
    HasHeader start (apply m ws) := by
  unfold HasHeader at h ⊢
  rw [readRange_disjoint m start 8 ws (fun w a => .inr (hw w a))]
  exact h

theorem save_memory {start N : Nat} {d : Dev} {cs : List (List Byte)} (hi : Inv start N d) (hn : cs.flatten.length = N) :
    apply d.m (save (start + 8) d.m d.s cs).2 =
      apply d.m (bytesAt (start + 15) cs.flatten ++ bytesAt (start + 8) (preamble N (crc16 cs.flatten))) := by
  obtain ⟨_, _, _, a4, _⟩ := save_spec (m := d.m) (cs := cs) hi.ready (by have := hi.size; omega)
  rw [a4, apply_append, hn]

theorem step_inv {start N : Nat} {d : Dev} {op : Op} (hi : Inv start N d) (hn : op.bytes.length = N) : Inv start N (step start d op) := by
  cases op with
  | save cs =>
    have hn : cs.flatten.length = N := hn
    obtain ⟨a1, a2, a3, a4, _⟩ := save_spec (m := d.m) (cs := cs) hi.ready (by have := hi.size; omega)
    have hm := save_memory hi hn
    show Inv start N { m := apply d.m (save (start + 8) d.m d.s cs).2, s := (save (start + 8) d.m d.s cs).1, last := some cs.flatten }
    rw [hm]
    refine ⟨header_kept hi.header (fun w hw => ?_), a1, .inr (a2.trans hn), fun D hD => ?_⟩
    · rcases List.mem_append.mp hw with h | h
      · have := bytesAt_addr _ _ _ h; omega
      · have := bytesAt_addr _ _ _ h; omega
    · injection hD with hD
      subst hD
      refine ⟨hn, ?_, ?_⟩
      · unfold HasPreamble
        show readRange (apply d.m _) _ _ = _
        rw [apply_append]
        exact readRange_written _ _ (preamble N (crc16 cs.flatten))
      · show readRange (apply d.m _) _ _ = _
        rw [apply_append, readRange_disjoint _ _ _ _ (fun w h => ?_)]
        · rw [← hn]
          exact readRange_written _ _ cs.flatten
        · have := bytesAt_addr _ _ _ h
          rw [preamble_length] at this
          omega
  | restart cs =>
    have hn : cs.flatten.length = N := hn
    obtain ⟨b1, b2, b3, _⟩ := begin_header cs hi.header
    show Inv start N { d with m := apply d.m (begin' start d.m cs).ws, s := (begin' start d.m cs).s }
    rw [b1]
    exact ⟨hi.header, b2, by rw [← hn]; exact b3, hi.last⟩

theorem first_inv {start : Nat} {m : Mem} (cs : List (List Byte)) (hu : Usable start m) :
    Inv start cs.flatten.length (first start m cs) := by
  by_cases hh : HasHeader start m
  · obtain ⟨b1, b2, b3, _⟩ := begin_header cs hh
    unfold first
    rw [b1]
    exact ⟨hh, b2, b3, fun D hD => by cases hD⟩
  · have ht : readRange m start 5 ≠ tag := by
      rcases hu with h | h
      · exact h
      · exact absurd h hh
    have hb : boot start m = ({ valid := true }, update m (start + 8) (preamble 0 0) ++ bytesAt start header) := by
      unfold boot
      rw [if_pos (.inl ht)]
    have hx : begin' start m cs = loadState (apply m (update m (start + 8) (preamble 0 0) ++ bytesAt start header))
        (sizeCheck (start + 8) (apply m (update m (start + 8) (preamble 0 0) ++ bytesAt start header)) { valid := true } cs) cs
        (update m (start + 8) (preamble 0 0) ++ bytesAt start header) := by
      unfold begin'
      rw [hb]
    have hw : (begin' start m cs).ws = update m (start + 8) (preamble 0 0) ++ bytesAt start header := by
      rw [hx]
      unfold loadState
      split <;> rfl
    unfold first
    refine ⟨?_, ?_, ?_, fun D hD => by cases hD⟩
    · show HasHeader start (apply m (begin' start m cs).ws)
      rw [hw]
      unfold HasHeader
      rw [apply_append]
      exact readRange_written _ _ header
    all_goals
      show _ ∨ _
      dsimp only
      rw [hx]
      obtain ⟨s1, s2⟩ := sizeCheck_spec (start + 8) (apply m (update m (start + 8) (preamble 0 0) ++ bytesAt start header)) { valid := true } cs
      dsimp only at s1 s2
      generalize sizeCheck (start + 8) (apply m (update m (start + 8) (preamble 0 0) ++ bytesAt start header)) { valid := true } cs = c at s1 s2
      unfold loadState
      by_cases he : 0 = cs.flatten.length
      · obtain ⟨t1, t2, t3, _⟩ := s1 he
        rw [if_pos t1]
        have hk := readAll_keeps (m := apply m (update m (start + 8) (preamble 0 0) ++ bytesAt start header)) (cs.map List.length) { c.1 with dry := false, cur := c.1.eoff }
        first
        | exact .inr (hk.1.trans t2)
        | exact .inl (hk.2.trans t3)
      · obtain ⟨t1, t2, t3⟩ := s2 he
        rw [if_neg (by rw [t1]; exact fun a => Bool.noConfusion a)]
        first
        | exact .inr t2
        | exact .inl t3

theorem run_inv {start N : Nat} (ops : List Op) (d : Dev) (hi : Inv start N d) (hn : ∀ op ∈ ops, op.bytes.length = N) :
    Inv start N (run start ops d) := by
  induction ops generalizing d with
  | nil => exact hi
  | cons op ops ih =>
    exact ih _ (step_inv hi (hn op List.mem_cons_self)) fun o h => hn o (List.mem_cons_of_mem _ h)

theorem same_length {cs cs' : List (List Byte)} (h : Same cs cs') : cs'.flatten.length = cs.flatten.length := by
  unfold Same at h
  rw [List.length_flatten, List.length_flatten, h]

/-! ## A saved state is loaded -/

/-- What was saved last is what the elements get after a restart, on any medium and after any number of saves and
restarts, as long as the elements write the same number of bytes. -/
theorem save_restart (start : Nat) (m : Mem) (cs0 cs cs' : List (List Byte)) (ops : List Op) (hu : Usable start m)
    (hn : ∀ op ∈ ops, op.bytes.length = cs0.flatten.length) (hc : cs.flatten.length = cs0.flatten.length)
    (h16 : cs.flatten.length < 65536) (hs : Same cs cs') :
    (begin' start (run start (ops ++ [.save cs]) (first start m cs0)).m cs').loaded = cs.map some := by
  have hi := run_inv (ops ++ [.save cs]) _ (first_inv cs0 hu) (by
    intro op h
    rcases List.mem_append.mp h with h | h
    · exact hn op h
    · rw [List.mem_singleton] at h; rw [h]; exact hc)
  have hl : (run start (ops ++ [.save cs]) (first start m cs0)).last = some cs.flatten := by
    unfold run
    rw [List.foldl_append]
    rfl
  generalize run start (ops ++ [.save cs]) (first start m cs0) = d at hi hl
  obtain ⟨l1, l2, l3⟩ := hi.last _ hl
  rw [← hc] at l2 l3
  have hin := init_preamble l2 h16
  have hx : start + 8 + 7 = start + 15 := rfl
  rw [hx, l3] at hin
  obtain ⟨_, _, _, _, b5⟩ := begin_header cs' hi.header
  rw [hin] at b5
  rw [b5 (by simp) (same_length hs).symm, same_length hs, l3, ← hs, pieces_flatten]

/-- A medium of which nothing is known, two saves and a restart. -/
example : Usable 0 (fun _ => 0xFF) ∧
    (begin' 0 (run 0 [.save [[1], [2, 3]], .restart [[0], [0, 0]], .save [[7], [8, 9]]] (first 0 (fun _ => 0xFF) [[0], [0, 0]])).m [[0], [0, 0]]).loaded
      = [some [7], some [8, 9]] := by
  refine ⟨.inl (by decide +kernel), by decide +kernel⟩

/-- A state of another number of bytes is not loaded, not even in part. -/
theorem other_size_not_loaded (start : Nat) (m : Mem) (cs : List (List Byte)) (size : Nat) (crc : BitVec 16)
    (hh : HasHeader start m) (hp : HasPreamble (start + 8) m size crc) (h16 : size < 65536) (hne : size ≠ cs.flatten.length) :
    (begin' start m cs).loaded = cs.map fun _ => none := by
  have hin := init_preamble hp h16
  obtain ⟨_, _, _, b4, _⟩ := begin_header cs hh
  rcases b4 with h | ⟨_, h, _⟩
  · exact h
  · rw [hin] at h
    exact absurd h hne

/-- Nothing outside the fifteen bytes of the two preambles and the bytes of the elements is written. -/
theorem confined {start N : Nat} {d : Dev} (op : Op) (hi : Inv start N d) (hn : op.bytes.length = N) (a : Nat)
    (ha : a < start ∨ start + 15 + N ≤ a) : (step start d op).m a = d.m a := by
  cases op with
  | save cs =>
    have hn : cs.flatten.length = N := hn
    show apply d.m (save (start + 8) d.m d.s cs).2 a = d.m a
    rw [save_memory hi hn, apply_append, apply_bytesAt, preamble_length, if_neg (by omega), apply_bytesAt, if_neg (by omega)]
  | restart cs =>
    show apply d.m (begin' start d.m cs).ws a = d.m a
    rw [(begin_header cs hi.header).1]
    rfl

/-! ## Power loss -/

/-- The medium when the power fails after `n` bytes of a save. -/
def torn (start : Nat) (d : Dev) (cs : List (List Byte)) (n : Nat) : Mem :=
  apply d.m ((save (start + 8) d.m d.s cs).2.take n)

/-- The claim: after a power loss during a save the elements get the old state, the new one, or none. -/
def Atomic (start : Nat) : Prop := ∀ (m : Mem) (cs0 : List (List Byte)) (ops : List Op) (old new cs' : List (List Byte)) (n : Nat),
  Usable start m → (∀ op ∈ ops, op.bytes.length = cs0.flatten.length) → cs0.flatten.length < 65536 →
  old.flatten.length = cs0.flatten.length → Same old new → Same new cs' →
  (begin' start (torn start (run start (ops ++ [.save old]) (first start m cs0)) new n) cs').loaded = (cs'.map fun _ => none) ∨
  (begin' start (torn start (run start (ops ++ [.save old]) (first start m cs0)) new n) cs').loaded = old.map some ∨
  (begin' start (torn start (run start (ops ++ [.save old]) (first start m cs0)) new n) cs').loaded = new.map some

theorem torn_inv {start N : Nat} {d : Dev} {old : List Byte} {new cs' : List (List Byte)} (n : Nat) (hi : Inv start N d)
    (hl : d.last = some old) (hn : new.flatten.length = N) (h16 : N < 65536) (hs : Same new cs') :
    (begin' start (torn start d new n) cs').loaded = (cs'.map fun _ => none) ∨
    (begin' start (torn start d new n) cs').loaded = new.map some ∨
    ∃ j ≤ N, (crc16 (new.flatten.take j ++ old.drop j) = crc16 old ∨ crc16 old = 0) ∧
      (begin' start (torn start d new n) cs').loaded = (pieces (new.map List.length) (new.flatten.take j ++ old.drop j)).map some := by
  obtain ⟨l1, l2, l3⟩ := hi.last _ hl
  obtain ⟨_, _, _, _, a5⟩ := save_spec (m := d.m) (cs := new) hi.ready (by have := hi.size; omega)
  have hs' := same_length hs
  rcases a5 n with ⟨j, j1, j2⟩ | ⟨j, j2⟩
  · -- in the data
    have hm : torn start d new n = apply d.m (bytesAt (start + 15) (new.flatten.take j)) := j2
    rw [hm]
    have hlt : (new.flatten.take j).length = j := by rw [List.length_take]; omega
    have hh : HasHeader start (apply d.m (bytesAt (start + 15) (new.flatten.take j))) :=
      header_kept hi.header fun w hw => by have := bytesAt_addr _ _ _ hw; omega
    have hp : HasPreamble (start + 8) (apply d.m (bytesAt (start + 15) (new.flatten.take j))) N (crc16 old) := by
      unfold HasPreamble
      rw [readRange_disjoint _ _ _ _ (fun w hw => by have := bytesAt_addr _ _ _ hw; omega)]
      exact l2
    have hr : readRange (apply d.m (bytesAt (start + 15) (new.flatten.take j))) (start + 15) N = new.flatten.take j ++ old.drop j := by
      rw [← hn]
      exact readRange_partial d.m (start + 15) j new.flatten old (by omega) (by rw [hn]; exact l3)
    have hin := init_preamble hp h16
    have hx : start + 8 + 7 = start + 15 := rfl
    rw [hx, hr] at hin
    obtain ⟨_, _, _, b4, _⟩ := begin_header cs' hh
    rw [hin] at b4
    rcases b4 with h | ⟨h1, _, h3⟩
    · exact .inl h
    · refine .inr (.inr ⟨j, by omega, by simpa using h1, ?_⟩)
      rw [h3, hs', hn, hr, hs]
  · -- in the preamble
    have hm : torn start d new n = apply (apply d.m (bytesAt (start + 15) new.flatten))
        (bytesAt (start + 8) ((preamble new.flatten.length (crc16 new.flatten)).take j)) := j2
    rw [hm]
    have hlt : ((preamble new.flatten.length (crc16 new.flatten)).take j).length ≤ 7 := by
      rw [List.length_take, preamble_length]; omega
    generalize (preamble new.flatten.length (crc16 new.flatten)).take j = p at hlt
    have hh : HasHeader start (apply (apply d.m (bytesAt (start + 15) new.flatten)) (bytesAt (start + 8) p)) :=
      header_kept (header_kept hi.header fun w hw => by have := bytesAt_addr _ _ _ hw; omega)
        fun w hw => by have := bytesAt_addr _ _ _ hw; omega
    have hr : readRange (apply (apply d.m (bytesAt (start + 15) new.flatten)) (bytesAt (start + 8) p)) (start + 15) new.flatten.length = new.flatten := by
      rw [readRange_disjoint _ _ _ _ (fun w hw => by have := bytesAt_addr _ _ _ hw; omega)]
      exact readRange_written _ _ _
    obtain ⟨_, _, _, b4, _⟩ := begin_header cs' hh
    rcases b4 with h | ⟨_, _, h3⟩
    · exact .inl h
    · right; left
      rw [h3, hs', hr, ← hs, pieces_flatten]

theorem run_last (start : Nat) (ops : List Op) (cs : List (List Byte)) (d : Dev) :
    (run start (ops ++ [.save cs]) d).last = some cs.flatten := by
  unfold run
  rw [List.foldl_append]
  rfl

/-- After a power loss at any byte, what is loaded, if anything, is the new state or begins like the new and ends like
the old one, and then has the checksum of the old one, unless that is 0. -/
theorem power_loss_partial (start : Nat) (m : Mem) (cs0 old new cs' : List (List Byte)) (ops : List Op) (n : Nat) (hu : Usable start m)
    (hn : ∀ op ∈ ops, op.bytes.length = cs0.flatten.length) (h16 : cs0.flatten.length < 65536)
    (ho : old.flatten.length = cs0.flatten.length) (hon : Same old new) (hs : Same new cs') :
    (begin' start (torn start (run start (ops ++ [.save old]) (first start m cs0)) new n) cs').loaded = (cs'.map fun _ => none) ∨
    (begin' start (torn start (run start (ops ++ [.save old]) (first start m cs0)) new n) cs').loaded = new.map some ∨
    ∃ j, (crc16 (new.flatten.take j ++ old.flatten.drop j) = crc16 old.flatten ∨ crc16 old.flatten = 0) ∧
      (begin' start (torn start (run start (ops ++ [.save old]) (first start m cs0)) new n) cs').loaded =
        (pieces (new.map List.length) (new.flatten.take j ++ old.flatten.drop j)).map some := by
  have hi := run_inv (ops ++ [.save old]) _ (first_inv cs0 hu) (by
    intro op h
    rcases List.mem_append.mp h with h | h
    · exact hn op h
    · rw [List.mem_singleton] at h; rw [h]; exact ho)
  have hl := run_last start ops old (first start m cs0)
  rcases torn_inv n hi hl ((same_length hon).trans ho) h16 hs with h | h | ⟨j, _, h⟩
  · exact .inl h
  · exact .inr (.inl h)
  · exact .inr (.inr ⟨j, h⟩)

theorem mix_bit {old new : List Byte} (hl : new.length = old.length) (k j : Nat) (h : bitAt new j = bitAt old j) :
    bitAt (new.take k ++ old.drop k) j = bitAt old j := by
  unfold bitAt at h ⊢
  by_cases hk : j / 8 < k
  · have : (new.take k ++ old.drop k).getD (j / 8) 0 = new.getD (j / 8) 0 := by
      simp only [List.getD_eq_getElem?_getD]
      by_cases hj : j / 8 < new.length
      · rw [List.getElem?_append_left (by rw [List.length_take]; omega), List.getElem?_take_of_lt hk]
      · rw [List.getElem?_eq_none (by simp; omega), List.getElem?_eq_none (by omega)]
    rw [this, h]
  · have : (new.take k ++ old.drop k).getD (j / 8) 0 = old.getD (j / 8) 0 := by
      simp only [List.getD_eq_getElem?_getD]
      by_cases hj : k ≤ new.length
      · rw [List.getElem?_append_right (by rw [List.length_take]; omega), List.length_take, Nat.min_eq_left hj, List.getElem?_drop]
        congr 2
        omega
      · rw [List.getElem?_eq_none (by simp; omega), List.getElem?_eq_none (by omega)]
    rw [this]

/-- When only bits within a window of 16 changed, and the checksum of the old state is not 0, a power loss leaves the
old state, the new one, or none. -/
theorem small_change_atomic_partial (start : Nat) (m : Mem) (cs0 old new cs' : List (List Byte)) (ops : List Op) (n : Nat) (hu : Usable start m)
    (hn : ∀ op ∈ ops, op.bytes.length = cs0.flatten.length) (h16 : cs0.flatten.length < 65536)
    (ho : old.flatten.length = cs0.flatten.length) (hon : Same old new) (hs : Same new cs')
    (i : Nat) (hw : ∀ j, j < i ∨ i + 16 ≤ j → bitAt new.flatten j = bitAt old.flatten j) (hz : crc16 old.flatten ≠ 0) :
    (begin' start (torn start (run start (ops ++ [.save old]) (first start m cs0)) new n) cs').loaded = (cs'.map fun _ => none) ∨
    (begin' start (torn start (run start (ops ++ [.save old]) (first start m cs0)) new n) cs').loaded = old.map some ∨
    (begin' start (torn start (run start (ops ++ [.save old]) (first start m cs0)) new n) cs').loaded = new.map some := by
  rcases power_loss_partial start m cs0 old new cs' ops n hu hn h16 ho hon hs with h | h | ⟨k, hc, h⟩
  · exact .inl h
  · exact .inr (.inr h)
  · right; left
    have hl : new.flatten.length = old.flatten.length := same_length hon
    have heq : new.flatten.take k ++ old.flatten.drop k = old.flatten := by
      apply Classical.byContradiction
      intro hne
      refine Crc16.burst_detected _ _ ?_ hne i (fun j hj => mix_bit hl k j (hw j hj)) ?_
      · rw [List.length_append, List.length_take, List.length_drop]; omega
      · rcases hc with hc | hc
        · exact hc
        · exact absurd hc hz
    rw [h, heq, ← hon, pieces_flatten]

example : (begin' 0 (torn 0 (run 0 [.save [[1, 2, 3]]] (first 0 (fun _ => 0xFF) [[0, 0, 0]])) [[1, 7, 8]] 1) [[0, 0, 0]]).loaded = [some [1, 2, 3]] ∧
    (begin' 0 (torn 0 (run 0 [.save [[1, 2, 3]]] (first 0 (fun _ => 0xFF) [[0, 0, 0]])) [[1, 7, 8]] 2) [[0, 0, 0]]).loaded = [none] ∧
    (begin' 0 (torn 0 (run 0 [.save [[1, 2, 3]]] (first 0 (fun _ => 0xFF) [[0, 0, 0]])) [[1, 7, 8]] 10) [[0, 0, 0]]).loaded = [some [1, 7, 8]] := by
  decide +kernel

/-- A checksum of 0 switches the check off: a state of which half was written is loaded. -/
theorem zero_checksum_violation : ¬ Atomic 0 ∧
    (begin' 0 (torn 0 (run 0 [.save [[5, 127, 67]]] (first 0 (fun _ => 0xFF) [[0, 0, 0]])) [[9, 9, 9]] 1) [[0, 0, 0]]).loaded
      = [some [9, 127, 67]] := by
  refine ⟨fun h => ?_, by decide +kernel⟩
  have := h (fun _ => 0xFF) [[0, 0, 0]] [] [[5, 127, 67]] [[9, 9, 9]] [[0, 0, 0]] 1 (.inl (by decide +kernel)) (by simp) (by decide) (by decide) rfl rfl
  revert this
  decide +kernel

/-- And two states may share a checksum. -/
theorem collision_violation :
    (begin' 0 (torn 0 (run 0 [.save [[1, 64, 1, 4]]] (first 0 (fun _ => 0xFF) [[0, 0, 0, 0]])) [[2, 0, 0, 5]] 3) [[0, 0, 0, 0]]).loaded
      = [some [2, 0, 0, 4]] := by decide +kernel

/-- The claim that a state saved once is there after every later power loss. -/
def Kept : Prop := ∀ (m : Mem) (old new cs' : List (List Byte)) (n : Nat), Usable 0 m → Same old new → Same new cs' → old.flatten.length < 65536 →
  (begin' 0 (torn 0 (run 0 [.save old] (first 0 m old)) new n) cs').loaded ≠ cs'.map fun _ => none

/-- Without wear levelling there is one copy: a power loss during a save loses the state. -/
theorem lost_violation : ¬ Kept := by
  intro h
  have := h (fun _ => 0xFF) [[1, 2]] [[3, 4]] [[0, 0]] 1 (.inl (by decide +kernel)) rfl rfl (by decide)
  revert this
  decide +kernel

/-! ## Elements that grow -/

/-- The claim that a save is loaded whatever was saved before. -/
def SaveLoads : Prop := ∀ (m : Mem) (cs0 cs cs' : List (List Byte)) (ops : List Op), Usable 0 m →
  cs.flatten.length < 65536 → Same cs cs' →
  (begin' 0 (run 0 (ops ++ [.save cs]) (first 0 m cs0)).m cs').loaded = cs.map some

/-- An element that saves more than before without a restart spoils the save: the pieces after it are written over
the beginning, and the state is lost. -/
theorem growth_violation : ¬ SaveLoads := by
  intro h
  have := h (fun _ => 0xFF) [[0], [0]] [[1], [2, 2], [3]] [[0], [0, 0], [0]] [.save [[1], [2]]] (.inl (by decide +kernel)) (by decide) rfl
  revert this
  decide +kernel

/-! ## The first start -/

/-- The claim that after a power loss during the first start the next one makes the storage usable. -/
def FirstStart : Prop := ∀ (m : Mem) (cs : List (List Byte)) (n : Nat), readRange m 0 5 ≠ tag →
  Usable 0 (apply m ((begin' 0 m cs).ws.take n))

/-- The tag is there, with another version. -/
def Refused (start : Nat) (m : Mem) : Prop := readRange m start 5 = tag ∧ m (start + 7) ≠ 0 ∧ readRange m (start + 5) 2 ≠ le16 1

theorem refused_kept {start : Nat} {m : Mem} {ws : List Write} (h : Refused start m) (hw : ∀ w ∈ ws, start + 8 ≤ w.1) :
    Refused start (apply m ws) := by
  unfold Refused at h ⊢
  rw [readRange_disjoint m start 5 ws (fun w a => .inr (by have := hw w a; omega)),
    readRange_disjoint m (start + 5) 2 ws (fun w a => .inr (by have := hw w a; omega)),
    Storage.apply_other ws m (start + 7) (fun w a => by have := hw w a; omega)]
  exact h

theorem refused_begin {start : Nat} {m : Mem} (cs : List (List Byte)) (h : Refused start m) :
    (begin' start m cs).ws = [] ∧ (begin' start m cs).loaded = (cs.map fun _ => none) ∧ Ready (start + 8) (begin' start m cs).s ∧
    ((begin' start m cs).s.esize = 0 ∨ (begin' start m cs).s.esize = cs.flatten.length) := by
  have hb : boot start m = ({}, []) := by
    unfold boot
    rw [if_neg (by rintro (a | a); exact a h.1; exact h.2.1 a), if_pos h.2.2]
  have hx : begin' start m cs = loadState m (sizeCheck (start + 8) m {} cs) cs [] := by
    unfold begin'
    rw [hb]
    rfl
  rw [hx]
  obtain ⟨s1, s2⟩ := sizeCheck_spec (start + 8) m {} cs
  dsimp only at s1 s2
  generalize sizeCheck (start + 8) m {} cs = c at s1 s2
  unfold loadState
  by_cases he : 0 = cs.flatten.length
  · obtain ⟨t1, t2, t3, t4⟩ := s1 he
    rw [if_pos t1]
    have hk := readAll_keeps (m := m) (cs.map List.length) { c.1 with dry := false, cur := c.1.eoff }
    refine ⟨rfl, ?_, .inr (hk.1.trans t2), .inl (hk.2.trans t3)⟩
    show (readAll m { c.1 with dry := false, cur := c.1.eoff } (cs.map List.length)).2 = _
    rw [readAll_invalid (cs.map List.length) { c.1 with dry := false, cur := c.1.eoff } t4, List.map_map]
    rfl
  · obtain ⟨t1, t2, t3⟩ := s2 he
    rw [if_neg (by rw [t1]; exact fun a => Bool.noConfusion a)]
    exact ⟨rfl, rfl, .inr t2, .inl t3⟩

theorem refused_run {start N : Nat} (ops : List Op) (d : Dev) (hr : Refused start d.m) (hy : Ready (start + 8) d.s)
    (hz : d.s.esize = 0 ∨ d.s.esize = N) (hn : ∀ op ∈ ops, op.bytes.length = N) : Refused start (run start ops d).m := by
  induction ops generalizing d with
  | nil => exact hr
  | cons op ops ih =>
    have ho : op.bytes.length = N := hn op List.mem_cons_self
    refine ih (step start d op) ?_ ?_ ?_ fun o h => hn o (List.mem_cons_of_mem _ h)
    all_goals
      cases op with
      | save cs =>
        have ho : cs.flatten.length = N := ho
        obtain ⟨a1, a2, _, a4, _⟩ := save_spec (m := d.m) (cs := cs) hy (by omega)
        first
        | exact a1
        | exact .inr (a2.trans ho)
        | show Refused start (apply d.m (save (start + 8) d.m d.s cs).2)
          rw [a4]
          exact refused_kept (refused_kept hr fun w hw => by have := bytesAt_addr _ _ _ hw; omega)
            fun w hw => by have := bytesAt_addr _ _ _ hw; omega
      | restart cs =>
        have ho : cs.flatten.length = N := ho
        obtain ⟨b1, _, b3, b4⟩ := refused_begin cs hr
        first
        | exact b3
        | exact ho ▸ b4
        | show Refused start (apply d.m (begin' start d.m cs).ws)
          rw [b1]
          exact hr

/-- A storage with another version is not used and not replaced: nothing is loaded after any number of saves. -/
theorem refused_forever (start : Nat) (m : Mem) (cs : List (List Byte)) (ops : List Op) (hr : Refused start m)
    (hn : ∀ op ∈ ops, op.bytes.length = cs.flatten.length) :
    (begin' start (run start ops (first start m cs)).m cs).loaded = cs.map fun _ => none := by
  obtain ⟨b1, _, b3, b4⟩ := refused_begin cs hr
  refine (refused_begin cs (refused_run ops (first start m cs) ?_ b3 b4 hn)).2.1
  unfold first
  rw [b1]
  exact hr

/-- When only the tag was written before the power failed, the version is that of the empty medium: the storage is
refused at every start and nothing is ever loaded again. -/
theorem torn_header_violation : ¬ FirstStart ∧ ∀ ops : List Op, (∀ op ∈ ops, op.bytes.length = 1) →
    (begin' 0 (run 0 ops (first 0 (apply (fun _ => 0xFF) ((begin' 0 (fun _ => 0xFF) [[0]]).ws.take 12)) [[0]])).m [[0]]).loaded = [none] := by
  refine ⟨fun h => ?_, fun ops hn => ?_⟩
  · have := h (fun _ => 0xFF) [[0]] 12 (by decide +kernel)
    rcases this with h | h
    · revert h; decide +kernel
    · unfold HasHeader at h; revert h; decide +kernel
  · exact refused_forever 0 _ [[0]] ops (by unfold Refused; decide +kernel) hn

/-! ## Channel numbers -/

theorem readAll_numbered (m : Mem) (shape : Nat → List Nat) (es : List El) : ∀ (s : S) (todo : List Nat) (d : List Byte),
    Stream m s ((numbered es).flatten ++ d) → (∀ e ∈ es, e.1 < 256 ∧ shape e.1 = e.2.map List.length) →
    (es.map (·.1)).Nodup → (∀ e ∈ es, e.1 ∈ todo) →
    loadNumbered m shape es.length s todo = es.map fun e => (e.1, e.2.map some) := by
  induction es with
  | nil => intro s todo d _ _ _ _; rfl
  | cons e es ih =>
    intro s todo d hst hsh hnd htd
    obtain ⟨h1, h2⟩ := hsh e List.mem_cons_self
    have hfl : (numbered (e :: es)).flatten ++ d = [BitVec.ofNat 8 e.1] ++ (e.2.flatten ++ ((numbered es).flatten ++ d)) := by
      simp [numbered, List.append_assoc]
    rw [hfl] at hst
    obtain ⟨r1, r2⟩ := read_stream hst
    obtain ⟨q1, q2⟩ := readAll_stream e.2 r2
    rw [List.map_cons, List.nodup_cons] at hnd
    have hch : (((readState m s 1).2.getD [0]).getD 0 0).toNat = e.1 := by
      have r1 : (readState m s 1).2 = some [BitVec.ofNat 8 e.1] := r1
      rw [r1]
      show (BitVec.ofNat 8 e.1).toNat = e.1
      rw [BitVec.toNat_ofNat]
      exact Nat.mod_eq_of_lt h1
    have hmem : todo.contains e.1 = true := by
      simpa using htd e List.mem_cons_self
    show (if todo.contains (((readState m s 1).2.getD [0]).getD 0 0).toNat then _ else _) = _
    rw [hch, if_pos hmem]
    show (e.1, (readAll m (readState m s 1).1 (shape e.1)).2) ::
      loadNumbered m shape es.length (readAll m (readState m s 1).1 (shape e.1)).1 (todo.filter (· ≠ e.1)) = _
    rw [h2]
    have q1 : (readAll m (readState m s 1).1 (e.2.map List.length)).2 = e.2.map some := q1
    have q2 : Stream m (readAll m (readState m s 1).1 (e.2.map List.length)).1 ((numbered es).flatten ++ d) := q2
    rw [q1, ih _ (todo.filter (· ≠ e.1)) d q2 (fun x hx => hsh x (List.mem_cons_of_mem _ hx)) hnd.2 (fun x hx => by
      rw [List.mem_filter]
      refine ⟨htd x (List.mem_cons_of_mem _ hx), ?_⟩
      have : x.1 ≠ e.1 := fun a => hnd.1 (by rw [← a]; exact List.mem_map.mpr ⟨x, hx, rfl⟩)
      simpa using this)]
    rfl

/-- With stored channel numbers each element gets its own state, in whatever order the elements of the next firmware
are created. -/
theorem numbered_restart (start : Nat) (m : Mem) (cs0 : List (List Byte)) (ops : List Op) (es : List El) (shape : Nat → List Nat)
    (todo : List Nat) (hu : Usable start m) (hn : ∀ op ∈ ops, op.bytes.length = cs0.flatten.length)
    (hc : (numbered es).flatten.length = cs0.flatten.length) (h16 : cs0.flatten.length < 65536)
    (hsh : ∀ e ∈ es, e.1 < 256 ∧ shape e.1 = e.2.map List.length) (hnd : (es.map (·.1)).Nodup)
    (htodo : todo.Perm (es.map (·.1))) :
    let d := run start (ops ++ [.save (numbered es)]) (first start m cs0)
    loadNumbered d.m shape todo.length { (boot start d.m).1 with dry := false, cur := (boot start d.m).1.eoff } todo
      = es.map fun e => (e.1, e.2.map some) := by
  intro d
  have hi := run_inv (ops ++ [.save (numbered es)]) _ (first_inv cs0 hu) (by
    intro op h
    rcases List.mem_append.mp h with h | h
    · exact hn op h
    · rw [List.mem_singleton] at h; rw [h]; exact hc)
  have hl := run_last start ops (numbered es) (first start m cs0)
  obtain ⟨l1, l2, l3⟩ := hi.last _ hl
  have hin := init_preamble l2 h16
  have hx : start + 8 + 7 = start + 15 := rfl
  rw [hx, l3] at hin
  have hb := boot_header hi.header
  have hlen : todo.length = es.length := by rw [htodo.length_eq, List.length_map]
  rw [hlen]
  show loadNumbered d.m shape es.length { (boot start d.m).1 with dry := false, cur := (boot start d.m).1.eoff } todo = _
  rw [hb, hin]
  refine readAll_numbered d.m shape es _ todo [] ⟨by simp, ?_, ?_⟩ hsh hnd (fun e he => ?_)
  · rw [List.append_nil, l1]; exact Nat.le_refl _
  · rw [List.append_nil, l1]; exact l3
  · exact htodo.mem_iff.mpr (List.mem_map.mpr ⟨e, he, rfl⟩)

/-- Two elements, channels 4 and 7, in another order after the update. -/
example : loadNumbered (run 0 [.save (numbered [(4, [[1, 2]]), (7, [[9], [8]])])] (first 0 (fun _ => 0xFF) [[0, 0, 0, 0, 0, 0]])).m
    (fun c => if c = 4 then [2] else [1, 1]) 2
    { (boot 0 (run 0 [.save (numbered [(4, [[1, 2]]), (7, [[9], [8]])])] (first 0 (fun _ => 0xFF) [[0, 0, 0, 0, 0, 0]])).m).1 with dry := false, cur := (boot 0 (run 0 [.save (numbered [(4, [[1, 2]]), (7, [[9], [8]])])] (first 0 (fun _ => 0xFF) [[0, 0, 0, 0, 0, 0]])).m).1.eoff }
    [7, 4] = [(4, [some [1, 2]]), (7, [some [9], some [8]])] := by decide +kernel

end Verif.SimpleState
