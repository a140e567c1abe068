import Verif.KeyValue.Lemmas

/-!
# C08–C11: the configuration store

Vocabulary: `Map`, `Op`, `canon`, `reads` (`Verif/KeyValue/Spec.lean`), `Op.Ok` (a C string contains
no zero character).
-/

namespace Verif.KeyValue

/-! ## C08 -/

/-- **C08.** Any history of typed set and get requests on an empty store answers exactly like a map
from keys (their first 15 characters) to typed values, in which a set of a different type is refused
and changes nothing. -/
theorem store_is_typed_map (ops : List Op) :
    (run [] ops).1 = (Map.run Map.empty ops).1 ∧
      ∀ k, find (run [] ops).2 k = (Map.run Map.empty ops).2 (canon k) := by
  have gen : ∀ (l : List Elem) (m : Map), (∀ k, find l k = m (canon k)) →
      (run l ops).1 = (Map.run m ops).1 ∧ ∀ k, find (run l ops).2 k = (Map.run m ops).2 (canon k) := by
    induction ops with
    | nil => intro l m h; exact ⟨rfl, h⟩
    | cons op ops ih =>
      intro l m h
      have hreads : ∀ k v, ((reads l).set k v).1 = (m.set k v).1 ∧
          ∀ c, ((reads l).set k v).2 (canon c) = (m.set k v).2 (canon c) := by
        intro k v
        unfold Map.set reads
        rw [find_canon, h k]
        cases m (canon k) with
        | none => simp [h, canon_canon]
        | some w =>
          simp only []
          split <;> simp [h, canon_canon]
      have hstep : (step l op).1 = (m.step op).1 ∧ ∀ k, find (step l op).2 k = (m.step op).2 (canon k) := by
        cases op with
        | set k v =>
          obtain ⟨h1, h2⟩ := set_spec k v l
          obtain ⟨h3, h4⟩ := hreads k v
          refine ⟨?_, ?_⟩
          · simp only [step, Map.step, h1, h3]
          · intro c
            simp only [step, Map.step, h2, h4]
        | getTyped t k =>
          refine ⟨?_, h⟩
          simp only [step, Map.step, getTyped, h k]
          cases m (canon k) with
          | none => simp
          | some w => by_cases ht : w.typeId = t <;> simp [Option.filter, ht]
        | getString k n =>
          refine ⟨?_, h⟩
          simp only [step, Map.step, getString, h k]
          cases m (canon k) with
          | none => rfl
          | some w => cases w <;> simp [Nat.lt_iff_add_one_le]
        | getBlob k n =>
          refine ⟨?_, h⟩
          simp only [step, Map.step, getBlob, h k]
          cases m (canon k) with
          | none => rfl
          | some w => cases w <;> rfl
        | getStringSize k =>
          refine ⟨?_, h⟩
          simp only [step, Map.step, getStringSize, h k]
          cases m (canon k) with
          | none => rfl
          | some w => cases w <;> rfl
        | getBlobSize k =>
          refine ⟨?_, h⟩
          simp only [step, Map.step, getBlobSize, h k]
          cases m (canon k) with
          | none => rfl
          | some w => cases w <;> rfl
      obtain ⟨i1, i2⟩ := ih (step l op).2 (m.step op).2 hstep.2
      exact ⟨by simp only [run, Map.run, hstep.1, i1], i2⟩
  exact gen [] Map.empty (fun k => rfl)

/-- Setting one key never changes what a different key reads, and a successful set is read back. -/
theorem set_get (ops : List Op) (k k' : Bytes) (v : Value) :
    let l := (run [] ops).2
    ((set k v l).1 = true → find (set k v l).2 k = some v) ∧
      ((set k v l).1 = false → find (set k v l).2 k = find l k) ∧
      (canon k' ≠ canon k → find (set k v l).2 k' = find l k') := by
  intro l
  obtain ⟨h1, h2⟩ := set_spec k v l
  rw [h1, h2, h2]
  unfold Map.set reads
  rw [find_canon]
  cases hf : find l k with
  | none =>
    simp only [find_canon]
    exact ⟨by simp, by simp, fun h => by simp [h]⟩
  | some w =>
    by_cases ht : w.typeId = v.typeId
    · simp only [ht, if_true, find_canon]
      exact ⟨by simp, by simp, fun h => by simp [h]⟩
    · simp [ht, find_canon, hf]

/-- Keys that agree in 15 characters share an entry; a wrong type is refused. -/
example : (run [] [.set [97, 98] (.u8 5), .set [97, 98] (.str [65]), .getTyped 1 [97, 98],
    .set [99] (.str [72, 105]), .getString [99] 3, .getString [99] 2]).1 =
    [.done true, .done false, .val (some (.u8 5)), .done true, .bytes (some [72, 105]),
     .bytes none] := by decide

example : find (set (List.replicate 16 65) (.u8 1) []).2 (List.replicate 15 65) = some (.u8 1) := by
  decide

/-! ## C09 -/

/-- The full claim C09: serialising into a large enough buffer and loading gives a store that reads
the same. -/
def SurvivesReload : Prop :=
  ∀ (ops : List Op), (∀ op ∈ ops, op.Ok) → ∀ n, ((run [] ops).2.map fun e => e.block.length).sum ≤ n →
    ∃ l', load (serialize n (run [] ops).2) = .ok l' ∧ ∀ k, find l' k = find (run [] ops).2 k

/-- **C09 is false of the code**: a store whose oldest entry is an empty blob does not reload (the loop
condition `input + 18 < endPtr` excludes a final block of exactly 18 bytes). -/
theorem survives_reload_violation : ¬ SurvivesReload := by
  intro h
  obtain ⟨l', h1, _⟩ := h [.set [97] (.blob [])] (by simp [Op.Ok]) 100 (by decide)
  have : load (serialize 100 (run [] [.set [97] (.blob [])]).2) = .fail [] := by decide +kernel
  rw [this] at h1
  cases h1

/-- A second way C09 fails: the stored size is truncated to 16 bits, so a 65536-byte blob does not
reload either (here: one whose 16th byte is zero). -/
theorem survives_reload_size_violation (b : Bytes) (hb : b.length = 65536)
    (h0 : b.getD 15 0 = 0) : ∃ l, load (serialize 100000 (set [97] (.blob b) []).2) = .fail l := by
  have hl : (set [97] (.blob b) []).2 = [⟨storedKey [97], .blob b⟩] := rfl
  have hser : serialize 100000 [⟨storedKey [97], .blob b⟩] = storedKey [97] ++ 5 :: 0 :: 0 :: b := by
    rw [serialize_eq _ _ (by simp [image, Elem.block, storedKey_length, le16, Value.payload, hb])]
    simp [image, Elem.block, Value.typeId, le16, Value.sizeField, Value.payload, hb]
  obtain ⟨h1, h2, h3, h4, h5, h6⟩ := parse_head (storedKey [97]) (storedKey_length _) 5 0 0 b
  have hp : parseOne (storedKey [97] ++ 5 :: 0 :: 0 :: b) = .elem ⟨storedKey [97], .blob []⟩ 18 := by
    unfold parseOne
    rw [h1, h2, h3, h4, h5, h6]
    have : storedKey (storedKey [97]) = storedKey [97] := by decide
    simp [this]
  have hp2 : parseOne b = .fail := by
    unfold parseOne
    have : ¬ (b.length < 18) := by omega
    rw [if_neg this, h0]
    simp
  refine ⟨[⟨storedKey [97], .blob []⟩], ?_⟩
  rw [hl, hser]
  unfold load
  rw [h1]
  have e1 : 18 + b.length + 1 = (b.length + 18) + 1 := by omega
  rw [e1]
  have h18 : 18 < 18 + b.length := by omega
  have hb18 : 18 < b.length := by omega
  simp only [loadLoop, h1, h18, if_true, hp, h6, hb18, hp2]
  simp

/-- **C09 (partial).** Every reachable store in which no key holds an empty blob or a value of 65536
bytes or more survives serialisation and reload: loading succeeds and every key reads the same. Missing
with respect to `SurvivesReload`: exactly those two kinds of values. -/
theorem survives_reload_partial (ops : List Op) (hok : ∀ op ∈ ops, op.Ok)
    (hv : ∀ k v, find (run [] ops).2 k = some v → v.sizeField < 65536 ∧ v ≠ .blob [])
    (n : Nat) (hn : ((run [] ops).2.map fun e => e.block.length).sum ≤ n) :
    ∃ l', load (serialize n (run [] ops).2) = .ok l' ∧ ∀ k, find l' k = find (run [] ops).2 k := by
  have hwf := run_wf ops [] wf_nil hok
  generalize (run [] ops).2 = l at *
  have himg : (image l).length = (l.map fun e => e.block.length).sum := by
    simp [image, List.length_flatMap]
  rw [serialize_eq l n (by omega)]
  refine ⟨l, ?_, fun k => rfl⟩
  unfold load
  have := loadLoop_image l ((image l).length + 1) [] (by
    intro e he
    exact ⟨hwf.keys e he, (hv e.key e.val (find_of_mem hwf he)).1, hwf.strs e he⟩) (by
    intro e he
    exact (hv e.key e.val (find_of_mem hwf (List.mem_of_getLast? he))).2) (by omega)
  simpa using this

/-- Non-vacuity: a store with every type. -/
example : load (serialize 4096 (run [] [.set [97] (.u8 5), .set [98] (.i32 7), .set [99] (.blob [1, 2]),
      .set [100] (.str [72, 105]), .set [97] (.u8 6)]).2) =
    .ok [⟨storedKey [100], .str [72, 105]⟩, ⟨storedKey [99], .blob [1, 2]⟩, ⟨storedKey [98], .i32 7⟩,
      ⟨storedKey [97], .u8 6⟩] := by
  decide +kernel

/-! ## C10 -/

/-- The full claim C10. -/
def LoadSafe : Prop := ∀ img, load img ≠ .outside ∧ load img ≠ .unterminated

/-- **C10 is false of the code**: a string entry without terminator makes `strlen` run past the heap
copy of the entry. -/
theorem load_safe_violation : ¬ LoadSafe := by
  intro h
  have := (h (List.replicate 15 65 ++ [6, 1, 0, 66])).2
  revert this
  decide +kernel

/-- **C10 (partial).** Loading any byte image terminates (`fuel` is never hit) and never reads outside
the image. Missing: string entries without a terminator, for which the code then reads outside its
own heap copy. -/
theorem load_safe_partial (img : Bytes) : load img ≠ .outside ∧ load img ≠ .fuel :=
  loadLoop_safe _ _ _ (by omega)

/-- Every string entry in the image that is inspected contains a terminator. -/
def Terminated (img : Bytes) : Prop :=
  ∀ n, 18 ≤ (img.drop n).length → (img.drop n).getD 15 0 = 6 →
    (0 : UInt8) ∈ ((img.drop n).drop 18).take
      (((img.drop n).getD 16 0).toNat + 256 * ((img.drop n).getD 17 0).toNat)

theorem load_safe_terminated_partial (img : Bytes) (h : Terminated img) :
    load img ≠ .unterminated := by
  have gen : ∀ (fuel m : Nat) (acc : List Elem), loadLoop fuel (img.drop m) acc ≠ .unterminated := by
    intro fuel
    induction fuel with
    | zero => intro m acc; simp [loadLoop]
    | succ fuel ih =>
      intro m acc
      simp only [loadLoop]
      split
      · rename_i hgt
        have hp : parseOne (img.drop m) ≠ .unterminated := by
          have ht := h m (by omega)
          generalize img.drop m = im at *
          unfold parseOne
          simp only []
          repeat' split
          all_goals first
            | (intro hx; cases hx; done)
            | skip
          rename_i h6 _ _ hnot
          exact absurd (ht h6) hnot
        cases hq : parseOne (img.drop m) with
        | elem e used =>
          simp only [List.drop_drop]
          exact ih _ _
        | fail => simp
        | outside => simp
        | unterminated => exact absurd hq hp
      · split <;> simp
  have := gen (img.length + 1) 0 []
  simpa [load] using this

/-- Hypothesis met by a corrupted image: an entry of unknown type. -/
example : load (List.replicate 15 65 ++ [9, 1, 0, 66]) = .fail [] := by decide +kernel
example : Terminated (List.replicate 15 65 ++ [9, 1, 0, 66]) := by
  intro n h1 h2
  simp at h1
  have : n = 0 ∨ n = 1 := by omega
  rcases this with rfl | rfl <;> simp at h2

/-! ## C11 -/

/-- The full claim C11 for one store. -/
def EraseRemovesOnly (l : List Elem) (k : Bytes) : Prop :=
  ∃ l', (eraseKey k l).2 = .live l' ∧ find l' k = none ∧
    (∀ k', canon k' ≠ canon k → find l' k' = find l k') ∧
    ((eraseKey k l).1 = true ↔ find l k ≠ none)

/-- **C11 is false of the code**: erasing the most recently created key leaves `first` pointing to
the deleted element. -/
theorem erase_violation :
    ¬ ∀ (ops : List Op), (∀ op ∈ ops, op.Ok) → ∀ k, EraseRemovesOnly (run [] ops).2 k := by
  intro h
  obtain ⟨l', h1, _⟩ := h [.set [97] (.u8 1)] (by simp [Op.Ok]) [97]
  have : (eraseKey [97] (run [] [.set [97] (.u8 1)]).2).2 = .dangling := by decide
  rw [this] at h1
  cases h1

theorem eraseFirst_spec (k : Bytes) : ∀ (l : List Elem), (l.map fun e => canon e.key).Nodup →
    find (eraseFirst k l) k = none ∧
    ∀ k', canon k' ≠ canon k → find (eraseFirst k l) k' = find l k' := by
  intro l
  induction l with
  | nil => intro _; exact ⟨rfl, fun _ _ => rfl⟩
  | cons e l ih =>
    intro hn
    simp only [List.map_cons, List.nodup_cons] at hn
    by_cases hk : canon e.key = canon k
    · have hb := (isKeyEqual_iff e k).mpr hk
      simp only [eraseFirst, hb, if_true]
      refine ⟨(find_none_iff l k).mpr ?_, ?_⟩
      · intro e' he' heq
        exact hn.1 (List.mem_map.mpr ⟨e', he', heq.trans hk.symm⟩)
      · intro k' hk'
        rw [find_cons, if_neg (fun h => hk' (h.symm.trans hk))]
    · have hb : e.isKeyEqual k = false := by
        cases hb : e.isKeyEqual k
        · rfl
        · exact absurd ((isKeyEqual_iff e k).mp hb) hk
      obtain ⟨h1, h2⟩ := ih hn.2
      simp only [eraseFirst, hb, Bool.false_eq_true, if_false]
      refine ⟨by rw [find_cons, if_neg hk, h1], ?_⟩
      intro k' hk'
      rw [find_cons, find_cons, h2 k' hk']

/-- **C11 (partial).** Erasing any key other than the one at the head of the list (the most recently
created one) removes that key, leaves every other key as it was and reports whether the key existed.
Missing: the head, for which the claim fails. -/
theorem erase_partial (ops : List Op) (hok : ∀ op ∈ ops, op.Ok) (k : Bytes)
    (hhead : ∀ e, (run [] ops).2.head? = some e → canon e.key ≠ canon k) :
    EraseRemovesOnly (run [] ops).2 k := by
  have hwf := run_wf ops [] wf_nil hok
  generalize (run [] ops).2 = l at *
  unfold EraseRemovesOnly eraseKey
  cases hf : find l k with
  | none => exact ⟨l, rfl, hf, fun _ _ => rfl, by simp⟩
  | some w =>
    cases l with
    | nil => simp [find_nil] at hf
    | cons e es =>
      have hk : canon e.key ≠ canon k := hhead e rfl
      have hb : e.isKeyEqual k = false := by
        cases hb : e.isKeyEqual k
        · rfl
        · exact absurd ((isKeyEqual_iff e k).mp hb) hk
      have hn := hwf.nodup
      simp only [List.map_cons, List.nodup_cons] at hn
      obtain ⟨h1, h2⟩ := eraseFirst_spec k es hn.2
      simp only [hb, Bool.false_eq_true, if_false]
      refine ⟨e :: eraseFirst k es, rfl, by rw [find_cons, if_neg hk, h1], ?_, by simp⟩
      intro k' hk'
      rw [find_cons, find_cons, h2 k' hk']

/-- Non-vacuity: erase the older of two keys. -/
example : (eraseKey [97] (run [] [.set [97] (.u8 1), .set [98] (.u8 2)]).2) =
    (true, .live [⟨storedKey [98], .u8 2⟩]) := by decide

end Verif.KeyValue
