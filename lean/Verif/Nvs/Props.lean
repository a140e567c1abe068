import Verif.Nvs.Model

/-! # Configuration in the non-volatile storage of ESP-IDF: proofs -/

namespace Verif.Nvs

/-! ## What is stored is read back -/

/-- Specification: the value a key must have after a history, newest call first. -/
def expected (k : Text) : List Op → Option Val
  | [] => none
  | .removeAll :: _ => none
  | .erase k' :: older => if k' = k then none else expected k older
  | .set k' v :: older => if k' = k ∧ accepted k' v = true then some v else expected k older

/-- After every history each key has the value of its last accepted call. -/
theorem last_set (ops : List Op) (k : Text) : run ops removeAll k = expected k ops.reverse := by
  have key : ∀ l : List Op, (l.foldr (fun o s => step s o) removeAll) k = expected k l := by
    intro l
    induction l with
    | nil => rfl
    | cons o older ih =>
      rw [List.foldr_cons]
      generalize older.foldr (fun o s => step s o) removeAll = s at ih
      cases o with
      | removeAll => rfl
      | erase k' =>
        show (if k = k' then none else s k) = if k' = k then none else expected k older
        by_cases h : k' = k
        · rw [if_pos h, if_pos h.symm]
        · rw [if_neg h, if_neg (fun e => h e.symm), ih]
      | set k' v =>
        show (set s k' v).2 k = if k' = k ∧ accepted k' v = true then some v else expected k older
        unfold set
        cases ha : accepted k' v with
        | false =>
          rw [if_neg Bool.false_ne_true, if_neg (fun h => by cases h.2)]
          exact ih
        | true =>
          rw [if_pos rfl]
          show (if k = k' then some v else s k) = _
          by_cases h : k' = k
          · rw [if_pos h.symm, if_pos ⟨h, rfl⟩]
          · rw [if_neg (fun e => h e.symm), if_neg (fun e => h e.1), ih]
  have := key ops.reverse
  rw [← this, List.foldr_reverse]
  rfl

/-- Texts: read back whole with a buffer that has room for the zero byte; with a smaller one the call fails. -/
theorem string_read (s : Store) (k t : Text) (n : Nat) (h : s k = some (.str t)) :
    getString s k n = if t.length < n then some t else none := by
  unfold getString
  rw [h]
  dsimp only
  by_cases hn : t.length < n
  · rw [if_pos hn, if_pos (Nat.succ_le_of_lt hn)]
  · rw [if_neg hn, if_neg (fun h => hn (Nat.lt_of_succ_le h))]

/-- Blobs: read back whole with a buffer that is not smaller. -/
theorem blob_read (s : Store) (k : Text) (b : List Nat) (n : Nat) (h : s k = some (.blob b)) :
    getBlob s k n = if b.length ≤ n then some b else none := by
  unfold getBlob
  rw [h]

/-- Numbers. -/
theorem num_read (s : Store) (k : Text) (n : Int) (h : s k = some (.num n)) : getNum s k = some n := by
  unfold getNum
  rw [h]

/-- A missing key is never found. -/
theorem missing_read (s : Store) (k : Text) (n : Nat) (h : s k = none) : getString s k n = none ∧ getBlob s k n = none ∧ getNum s k = none := by
  unfold getString getBlob getNum
  rw [h]
  exact ⟨rfl, rfl, rfl⟩

/-! ## Restart -/

/-- The same partition table at the next start: the same partition is used and everything is kept. -/
theorem restart_keeps (f : Flash) (hn : ∀ p, f.nvs = some p → p.full = false) (hs : ∀ p, f.supla = some p → p.full = false) :
    (init (init f).2).1 = (init f).1 ∧ storeOf (init (init f).2).1 (init (init f).2).2 = storeOf (init f).1 (init f).2 := by
  obtain ⟨n, s⟩ := f
  cases n with
  | none => exact ⟨rfl, rfl⟩
  | some n =>
    have h1 := hn n rfl
    cases s with
    | none =>
      obtain ⟨st, fu⟩ := n
      subst h1
      exact ⟨rfl, rfl⟩
    | some s =>
      have h2 := hs s rfl
      obtain ⟨st, fu⟩ := n
      obtain ⟨st2, fu2⟩ := s
      subst h1
      subst h2
      exact ⟨rfl, rfl⟩

/-- The first start with an unchanged table reads what was there. -/
theorem start_reads (f : Flash) (n : Part) (h : f.nvs = some n) (hn : n.full = false) (hs : f.supla = none) :
    (init f).1 = .nvs ∧ storeOf (init f).1 (init f).2 = n.store := by
  obtain ⟨a, b⟩ := f
  cases h
  cases hs
  obtain ⟨st, fu⟩ := n
  subst hn
  exact ⟨rfl, rfl⟩

/-- With "suplanvs" in use, its contents are read. -/
theorem start_reads_supla (f : Flash) (n s : Part) (h : f.nvs = some n) (hs : f.supla = some s) (hf : s.full = false) :
    (init f).1 = .supla ∧ storeOf (init f).1 (init f).2 = s.store := by
  obtain ⟨a, b⟩ := f
  cases h
  cases hs
  obtain ⟨st, fu⟩ := s
  subst hf
  exact ⟨rfl, rfl⟩

/-- Full claim: a firmware with the additional partition keeps the configuration of a device. -/
def KeepsOnNewTable : Prop := ∀ (n : Part) (k : Text), n.full = false →
  storeOf (init ⟨some n, some {}⟩).1 (init ⟨some n, some {}⟩).2 k = n.store k

/-- It is lost: nothing is found in the new partition, and the old one is erased. -/
theorem new_table_violation : ¬ KeepsOnNewTable ∧ ∀ (n : Part), storeOf (init ⟨some n, some {}⟩).1 (init ⟨some n, some {}⟩).2 = (fun _ => none) ∧
    storeOf .nvs (init ⟨some n, some {}⟩).2 = (fun _ => none) := by
  refine ⟨fun h => ?_, fun n => ⟨rfl, rfl⟩⟩
  have := h ⟨fun _ => some (.num 1), false⟩ [97] rfl
  cases this

/-! ## Sizes -/

/-- The size of a stored text is its length; nothing stays taken. -/
theorem size_present (s : Store) (k t : Text) (h : s k = some (.str t)) (ht : t.length < 4000) :
    getStringSize s k = ((t.length : Int), 0) := by
  unfold getStringSize
  rw [string_read s k t 4000 h, if_pos ht]

/-- Full claims: asking for the size takes no memory; a buffer of that size is enough; the size of a blob is told. -/
def NoLeak : Prop := ∀ s k, (getStringSize s k).2 = 0
def SizeIsEnough : Prop := ∀ s k t, s k = some (.str t) → t.length < 4000 → getString s k (getStringSize s k).1.toNat = some t
def BlobSizeKnown : Prop := ∀ s k b, s k = some (.blob b) → getBlobSize s k = b.length

/-- Each question for a missing text takes 4000 bytes for good. -/
theorem leak_violation : ¬ NoLeak ∧ ∀ (s : Store) (ks : List Text), (∀ k ∈ ks, s k = none) →
    (ks.map fun k => (getStringSize s k).2).sum = 4000 * ks.length := by
  have one : ∀ (s : Store) (k : Text), s k = none → getStringSize s k = (-1, 4000) := by
    intro s k h
    unfold getStringSize
    rw [(missing_read s k 4000 h).1]
  refine ⟨fun h => ?_, fun s ks h => ?_⟩
  · have := h (fun _ => none) [97]
    rw [one _ _ rfl] at this
    cases this
  · induction ks with
    | nil => rfl
    | cons k ks ih =>
      rw [List.map_cons, List.sum_cons, ih (fun x hx => h x (List.mem_cons_of_mem _ hx)), one s k (h k List.mem_cons_self), List.length_cons]
      dsimp only
      omega

/-- A buffer of the size told is never enough. -/
theorem size_violation : ¬ SizeIsEnough ∧ ∀ s k t, s k = some (.str t) → t.length < 4000 → getString s k (getStringSize s k).1.toNat = none := by
  have key : ∀ s k t, s k = some (.str t) → t.length < 4000 → getString s k (getStringSize s k).1.toNat = none := by
    intro s k t h ht
    rw [size_present s k t h ht, string_read s k t _ h, if_neg (by dsimp only; omega)]
  refine ⟨fun h => ?_, key⟩
  have h1 := h (fun _ => some (.str [1])) [97] [1] rfl (by decide)
  rw [key _ _ [1] rfl (by decide)] at h1
  cases h1

/-- On the key-value stores it is enough. -/
theorem kv_size (s : Store) (k t : Text) (h : s k = some (.str t)) : kvGetString s k (kvStringSize s k).toNat = some t := by
  unfold kvGetString kvStringSize
  rw [h]
  dsimp only
  rw [if_pos (by omega)]

/-- The size of a blob is never told. -/
theorem blob_size_violation : ¬ BlobSizeKnown := by
  intro h
  have := h (fun _ => some (.blob [1])) [97] [1] rfl
  revert this
  decide

/-! ## Text field of the configuration page -/

/-- Full claim: the page shows the stored text, and saving an untouched page changes nothing. -/
def UntouchedKeeps : Prop := ∀ (s : Store) (tag t : Text) (maxSize : Nat), s tag = some (.str t) → t.length < 4000 →
  saveUntouched s tag maxSize tag = some (.str t)

theorem setField_set (s : Store) (tag t : Text) (maxSize : Nat) (h : t.length ≤ maxSize) (ha : accepted tag (.str t) = true) :
    setField s tag maxSize t tag = some (.str t) := by
  unfold setField
  rw [if_neg (by omega)]
  unfold set
  rw [if_pos ha]
  show (if tag = tag then some (Val.str t) else s tag) = _
  rw [if_pos rfl]

/-- On the key-value stores an untouched page changes nothing. -/
theorem kv_untouched (s : Store) (tag t : Text) (maxSize : Nat) (h : s tag = some (.str t)) :
    kvSaveUntouched s tag maxSize tag = some (.str t) := by
  unfold kvSaveUntouched
  have e : sentBack (fieldValue (kvStringSize s tag) (kvGetString s tag)) = t := by
    unfold fieldValue
    rw [if_pos (by unfold kvStringSize; rw [h]; dsimp only; omega), kv_size s tag t h]
    rfl
  rw [e]
  unfold setField
  split
  · exact h
  · unfold set
    split
    · show (if tag = tag then some (Val.str t) else s tag) = _
      rw [if_pos rfl]
    · exact h

/-- On NVS the field is always shown empty, and saving the page erases the stored text. -/
theorem untouched_violation : ¬ UntouchedKeeps ∧ ∀ (s : Store) (tag t : Text) (maxSize : Nat), s tag = some (.str t) → t.length < 4000 →
    sentBack (fieldValue (getStringSize s tag).1 (getString s tag)) = [] ∧
    (tag ≠ [] → tag.length ≤ 15 → saveUntouched s tag maxSize tag = some (.str [])) := by
  have key : ∀ (s : Store) (tag t : Text), s tag = some (.str t) → t.length < 4000 →
      sentBack (fieldValue (getStringSize s tag).1 (getString s tag)) = [] := by
    intro s tag t h ht
    unfold fieldValue
    rw [size_violation.2 s tag t h ht]
    split <;> rfl
  have key2 : ∀ (s : Store) (tag t : Text) (maxSize : Nat), s tag = some (.str t) → t.length < 4000 → tag ≠ [] → tag.length ≤ 15 →
      saveUntouched s tag maxSize tag = some (.str []) := by
    intro s tag t maxSize h ht h1 h2
    unfold saveUntouched
    rw [key s tag t h ht]
    refine setField_set s tag [] maxSize (Nat.zero_le _) ?_
    unfold accepted
    rw [decide_eq_true (show tag ≠ [] ∧ tag.length ≤ 15 from ⟨h1, h2⟩)]
    rfl
  refine ⟨fun h => ?_, fun s tag t maxSize h ht => ⟨key s tag t h ht, key2 s tag t maxSize h ht⟩⟩
  have h1 := h (fun _ => some (.str [65])) [97] [65] 10 rfl (by decide)
  rw [key2 _ [97] [65] 10 rfl (by decide) (by decide) (by decide)] at h1
  cases h1

/-- Non-vacuity: a history. -/
example : run [.set [97] (.num 1), .set [98] (.str [65, 66]), .set [97] (.num 2), .erase [99]] removeAll [97] = some (.num 2) := by decide
example : getString (run [.set [98] (.str [65, 66])] removeAll) [98] 3 = some [65, 66] ∧ getString (run [.set [98] (.str [65, 66])] removeAll) [98] 2 = none := by decide

end Verif.Nvs
