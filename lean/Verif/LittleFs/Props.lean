import Verif.KeyValue.Props

/-!
# C109: the configuration kept on a LittleFS partition

Models `/repo/src/supla/storage/littlefs_config.cpp`. Values of fewer than 32 bytes live in the
key-value store of `Verif.KeyValue` (and reach the flash only by `commit`), longer ones each in a file
`/supla/<key>`, written at once; the own CA certificate is a file too.

Simplifications: the partition mounts, is large enough and its reads and writes are complete (the
failure branches return `false` and change nothing); a file is replaced as a whole (LittleFS publishes a
file's new content when it is closed); `configMaxSize` is large enough for the list, so that `commit`
followed by `init` gives the same list (proved of the serialised form as C09).
-/

namespace Verif.LittleFs
open Verif.KeyValue

/-- `BIG_BLOG_SIZE_TO_BE_STORED_IN_FILE`, `littlefs_config.cpp:36`. -/
def bigSize : Nat := 32

/-- The key part of the file name: `snprintf` of `/supla/<key>` into 50 characters,
`littlefs_config.cpp:282-283, 309-310, 338-339`. -/
def fileKey (k : Bytes) : Bytes := (cstr k).take 42

/-- The live list, the list in `/supla-dev.cfg`, the files of `/supla` and `/custom_ca.pem`. -/
structure Fs where
  live : List Elem
  saved : List Elem
  files : Bytes → Option Bytes
  ca : Option Bytes

/-- An empty partition. -/
def Fs.empty : Fs := ⟨[], [], fun _ => none, none⟩

/-- The file of a key is (over)written. -/
def putFile (f : Bytes → Option Bytes) (n v : Bytes) : Bytes → Option Bytes :=
  fun m => if m = n then some v else f m

/-- `setBlob`, `littlefs_config.cpp:268-296`. -/
def setBlob (s : Fs) (k v : Bytes) : Bool × Fs :=
  if v.length < bigSize then ((set k (.blob v) s.live).1, { s with live := (set k (.blob v) s.live).2 })
  else (true, { s with files := putFile s.files (fileKey k) v })

/-- The bytes put into the caller's buffer when the file's size fits, `littlefs_config.cpp:318-330`. -/
def readFile (f : Option Bytes) (n : Nat) : Option Bytes :=
  f.bind fun b => if n < b.length then none else some b

/-- `getBlob`, `littlefs_config.cpp:298-331`: `none` is the result `false`, `some b` the result `true`
with the bytes `b` written to the start of the buffer of `n`. -/
def getBlob (s : Fs) (k : Bytes) (n : Nat) : Option Bytes :=
  if n < bigSize then KeyValue.getBlob k n s.live else readFile (s.files (fileKey k)) n

/-- `getBlobSize`, `littlefs_config.cpp:333-352`. -/
def getBlobSize (s : Fs) (k : Bytes) : Nat := ((s.files (fileKey k)).map List.length).getD 0

/-- `eraseKey` is the one of `KeyValue` (`key_value.cpp:580-597`; not overridden in
`littlefs_config.h`). `none` when the head of the list is deleted and left in place (C11). -/
def eraseKey (s : Fs) (k : Bytes) : Option (Bool × Fs) :=
  match KeyValue.eraseKey k s.live with
  | (b, .live l) => some (b, { s with live := l })
  | (_, .dangling) => none

/-- `commit`, `littlefs_config.cpp:108-134`. -/
def commit (s : Fs) : Fs := { s with saved := s.live }

/-- `removeAll`, `littlefs_config.cpp:236-266`: the files, then `KeyValue::removeAll`
(`key_value.cpp:36-48`): the list is emptied and saved. -/
def removeAll (s : Fs) : Fs := commit { s with live := [], files := fun _ => none, ca := none }

/-- A restart and `init`, `littlefs_config.cpp:44-106`. -/
def restart (s : Fs) : Fs := { s with live := s.saved }

/-- `setCustomCA`, `littlefs_config.cpp:200-219`: the text up to its terminator. -/
def setCustomCA (s : Fs) (c : Bytes) : Fs := { s with ca := some (cstr c) }

/-- `getCustomCASize`, `littlefs_config.cpp:178-198`. -/
def getCustomCASize (s : Fs) : Nat := (s.ca.map List.length).getD 0

/-- The first bytes of a buffer are overwritten. -/
def over (buf b : Bytes) : Bytes := b ++ buf.drop b.length

/-- `getCustomCA` into a buffer, `littlefs_config.cpp:136-176`: result and buffer. With no file the
result is `true` and the buffer is left alone. -/
def getCustomCA (s : Fs) (buf : Bytes) (maxSize : Nat) : Bool × Bytes :=
  match s.ca with
  | none => (true, buf)
  | some c => if maxSize < c.length then (false, buf) else (true, over buf c)

/-- What the rest of the device may do. -/
inductive Op where
  | set (k v : Bytes)
  | erase (k : Bytes)
  | removeAll
  | commit
  | restart
  | ca (c : Bytes)

/-- One request; `none` once an erased head is used. -/
def step (s : Fs) : Op → Option Fs
  | .set k v => some (setBlob s k v).2
  | .erase k => (eraseKey s k).map Prod.snd
  | .removeAll => some (removeAll s)
  | .commit => some (commit s)
  | .restart => some (restart s)
  | .ca c => some (setCustomCA s c)

/-- A history. -/
def run : Fs → List Op → Option Fs
  | s, [] => some s
  | s, op :: ops => (step s op).bind fun t => run t ops

/-! ## Reading back -/

/-- **C109 (read back).** A value accepted, of whatever size, is then read back exactly, in every
state. -/
theorem read_back (s : Fs) (k v : Bytes) (h : (setBlob s k v).1 = true) :
    getBlob (setBlob s k v).2 k v.length = some v := by
  unfold setBlob at h ⊢
  unfold getBlob
  by_cases hb : v.length < bigSize
  · rw [if_pos hb] at h ⊢
    rw [if_pos hb]
    dsimp only at h ⊢
    have hs := set_spec k (.blob v) s.live
    have hf := hs.2 k
    rw [hs.1] at h
    have : find (KeyValue.set k (.blob v) s.live).2 k = some (.blob v) := by
      rw [hf]
      unfold Map.set at h ⊢
      revert h
      cases (reads s.live) (canon k) with
      | none => intro _; simp
      | some w =>
        dsimp only
        by_cases ht : w.typeId = (Value.blob v).typeId
        · intro _; simp [ht]
        · intro h; rw [if_neg ht] at h; exact absurd h Bool.false_ne_true
    unfold KeyValue.getBlob
    rw [this]
    simp
  · rw [if_neg hb] at h ⊢
    rw [if_neg hb]
    simp [putFile, readFile]

example : getBlob (setBlob Fs.empty [97] (List.replicate 40 7)).2 [97] 40 = some (List.replicate 40 7) ∧
    getBlob (setBlob Fs.empty [97] (List.replicate 5 7)).2 [97] 5 = some (List.replicate 5 7) := by
  decide +kernel

theorem set_other_kv (k k' v : Bytes) (l : List Elem) (h : canon k' ≠ canon k) :
    find (KeyValue.set k (.blob v) l).2 k' = find l k' := by
  rw [(set_spec k (.blob v) l).2 k']
  have hr : reads l (canon k') = find l k' := by
    unfold reads
    rw [find_canon]
  unfold Map.set
  cases (reads l) (canon k) with
  | none => simp [h, hr]
  | some w =>
    dsimp only
    by_cases ht : w.typeId = (Value.blob v).typeId
    · simp [ht, h, hr]
    · simp [ht, hr]

theorem fileKey_take (k : Bytes) : (fileKey k).take 15 = canon k := by
  unfold fileKey canon
  rw [List.take_take]
  congr 1

/-- **C109 (others kept).** Writing one key changes no read of a key that differs in its first 15
characters. -/
theorem others_kept (s : Fs) (k k' v : Bytes) (n : Nat) (h : canon k' ≠ canon k) :
    getBlob (setBlob s k v).2 k' n = getBlob s k' n ∧
    getBlobSize (setBlob s k v).2 k' = getBlobSize s k' ∧ (setBlob s k v).2.ca = s.ca := by
  have hf : fileKey k' ≠ fileKey k := by
    intro e
    apply h
    rw [← fileKey_take, ← fileKey_take, e]
  unfold setBlob
  by_cases hb : v.length < bigSize
  · rw [if_pos hb]
    refine ⟨?_, rfl, rfl⟩
    unfold getBlob
    by_cases hn : n < bigSize
    · rw [if_pos hn, if_pos hn]
      unfold KeyValue.getBlob
      rw [set_other_kv k k' v s.live h]
    · rw [if_neg hn, if_neg hn]
  · rw [if_neg hb]
    refine ⟨?_, ?_, rfl⟩
    · unfold getBlob
      by_cases hn : n < bigSize
      · rw [if_pos hn, if_pos hn]
      · rw [if_neg hn, if_neg hn]
        simp [putFile, hf]
    · simp [getBlobSize, putFile, hf]

example : canon [97] ≠ canon [98] := by decide

/-- The wished-for meaning of a key: whatever is read successfully after a successful write is the value
written. -/
def LatestRead : Prop :=
  ∀ (ops : List Op) (s : Fs), run Fs.empty ops = some s → ∀ (k v : Bytes), (setBlob s k v).1 = true →
    ∀ (n : Nat) (b : Bytes), getBlob (setBlob s k v).2 k n = some b → b = v

/-- **C109 is false of the code**: a 40-byte value followed by a 20-byte one under the same key: reading
40 bytes still gives the first. -/
theorem latest_violation : ¬ LatestRead := by
  intro h
  have := h [.set [97] (List.replicate 40 1)] _ rfl [97] (List.replicate 20 2) (by decide +kernel) 40
    (List.replicate 40 1) (by decide +kernel)
  revert this
  decide +kernel

/-- **C109 (latest read, partial).** Whatever is read with a size on the same side of the limit of 32
bytes as the value last written is that value. Missing: sizes on the other side. -/
theorem latest_partial (s : Fs) (k v : Bytes) (hs : (setBlob s k v).1 = true) (n : Nat)
    (hn : n < 32 ↔ v.length < 32) (b : Bytes) (h : getBlob (setBlob s k v).2 k n = some b) : b = v := by
  have hr := read_back s k v hs
  revert h hr
  generalize (setBlob s k v).2 = t
  unfold getBlob
  by_cases hb : v.length < bigSize
  · have hnb : n < bigSize := hn.mpr hb
    rw [if_pos hb, if_pos hnb]
    unfold KeyValue.getBlob
    cases find t.live k with
    | none => intro h; simp at h
    | some w =>
      cases w <;> simp
      intro h1 h2 _ h4
      rw [← h2, h4]
  · have hnb : ¬ n < bigSize := fun h => hb (hn.mp h)
    rw [if_neg hb, if_neg hnb]
    unfold readFile
    cases t.files (fileKey k) with
    | none => intro h; simp at h
    | some w =>
      simp
      intro _ h2 _ h4
      rw [← h2, h4]

example : getBlob (setBlob Fs.empty [97] (List.replicate 33 7)).2 [97] 40 = some (List.replicate 33 7) := by
  decide +kernel

/-- The wished-for size check of the plain store (C08): a read succeeds only with the size written, so
that the caller's buffer is filled. -/
def WholeRead : Prop :=
  ∀ (ops : List Op) (s : Fs), run Fs.empty ops = some s → ∀ (k : Bytes) (n : Nat) (b : Bytes),
    getBlob s k n = some b → b.length = n

/-- **C109 is false of the code**: a value of 40 bytes is accepted as the answer to a read of 48; the
last 8 bytes of the caller's buffer are what they were. -/
theorem whole_violation : ¬ WholeRead := by
  intro h
  have := h [.set [97] (List.replicate 40 1)] _ rfl [97] 48 (List.replicate 40 1) (by decide +kernel)
  revert this
  decide +kernel

/-- **C109 (whole read, partial).** A read of fewer than 32 bytes succeeds only if it fills the buffer;
a longer one never overruns it. Missing: that the longer one fills it. -/
theorem whole_partial (s : Fs) (k : Bytes) (n : Nat) (b : Bytes) (h : getBlob s k n = some b) :
    b.length ≤ n ∧ (n < 32 → b.length = n) := by
  revert h
  unfold getBlob
  by_cases hn : n < bigSize
  · rw [if_pos hn]
    unfold KeyValue.getBlob
    cases find s.live k with
    | none => intro h; simp at h
    | some w =>
      cases w <;> simp
      intro h1 h2
      rw [← h2]
      exact ⟨Nat.le_of_eq h1, fun _ => h1⟩
  · rw [if_neg hn]
    unfold readFile
    cases s.files (fileKey k) with
    | none => intro h; simp at h
    | some w =>
      simp
      intro h1 h2
      subst h2
      exact ⟨h1, fun h => absurd h hn⟩

/-! ## Sizes -/

/-- The wished-for size query: the size of the value written. -/
def SizeAsWritten : Prop :=
  ∀ (ops : List Op) (s : Fs), run Fs.empty ops = some s → ∀ (k v : Bytes), (setBlob s k v).1 = true →
    getBlobSize (setBlob s k v).2 k = v.length

/-- **C109 is false of the code**: the size of a short value is reported as 0. -/
theorem size_violation : ¬ SizeAsWritten := by
  intro h
  have := h [] _ rfl [97] (List.replicate 20 2) (by decide +kernel)
  revert this
  decide +kernel

/-- **C109 (size, partial).** The size of a value of at least 32 bytes is reported as written. -/
theorem size_partial (s : Fs) (k v : Bytes) (h : 32 ≤ v.length) :
    getBlobSize (setBlob s k v).2 k = v.length := by
  unfold setBlob
  rw [if_neg (show ¬ v.length < bigSize from by unfold bigSize; omega)]
  simp [getBlobSize, putFile]

/-! ## Erasing -/

/-- The wished-for meaning of erasing: nothing is read under the key any more. -/
def ErasedGone : Prop :=
  ∀ (ops : List Op) (s : Fs), run Fs.empty ops = some s → ∀ (k : Bytes) (r : Bool × Fs),
    eraseKey s k = some r → ∀ n, getBlob r.2 k n = none

/-- **C109 is false of the code**: an erased configuration of 32 bytes or more (a thermostat's, say) is
still there. -/
theorem erase_violation : ¬ ErasedGone := by
  intro h
  have := h [.set [97] (List.replicate 40 1)] _ rfl [97] _ rfl 40
  revert this
  decide +kernel

theorem erase_files (s : Fs) (k : Bytes) (r : Bool × Fs) (h : eraseKey s k = some r) :
    r.2.files = s.files ∧ r.2.ca = s.ca ∧ r.2.saved = s.saved := by
  unfold eraseKey at h
  split at h
  · rw [← Option.some.inj h]; exact ⟨rfl, rfl, rfl⟩
  · cases h

/-- **C109 (erasing leaves long values).** No erase ever removes a value of 32 bytes or more: reads of
that size give what they gave before. -/
theorem erase_keeps_long (s : Fs) (k k' : Bytes) (r : Bool × Fs) (h : eraseKey s k = some r) (n : Nat)
    (hn : 32 ≤ n) : getBlob r.2 k' n = getBlob s k' n := by
  unfold getBlob
  have : ¬ n < bigSize := by unfold bigSize; omega
  rw [if_neg this, if_neg this, (erase_files s k r h).1]

/-! ## Factory reset and restarts -/

/-- **C109 (factory reset).** After `removeAll` no value, long or short, and no certificate is left, and
a restart at any time after it brings nothing back. -/
theorem reset_all (s : Fs) (k : Bytes) (n : Nat) :
    getBlob (removeAll s) k n = none ∧ getBlobSize (removeAll s) k = 0 ∧ (removeAll s).ca = none ∧
    restart (removeAll s) = removeAll s := by
  refine ⟨?_, rfl, rfl, rfl⟩
  unfold getBlob
  by_cases hn : n < bigSize
  · rw [if_pos hn]; rfl
  · rw [if_neg hn]; rfl

/-- **C109 (durability).** After a commit a restart changes nothing; without one, long values and the
certificate survive all the same. -/
theorem durable (s : Fs) (k : Bytes) (n : Nat) :
    getBlob (restart (commit s)) k n = getBlob s k n ∧
    (32 ≤ n → getBlob (restart s) k n = getBlob s k n) ∧ (restart s).ca = s.ca := by
  refine ⟨rfl, ?_, rfl⟩
  intro h
  unfold getBlob
  have : ¬ n < bigSize := by unfold bigSize; omega
  rw [if_neg this, if_neg this]
  rfl

/-! ## The certificate -/

theorem mem_takeWhile (p : UInt8 → Bool) : ∀ (l : Bytes) (x : UInt8), x ∈ l.takeWhile p → p x = true
  | [], x, h => by cases h
  | a :: l, x, h => by
    rw [List.takeWhile_cons] at h
    by_cases ha : p a = true
    · rw [if_pos ha] at h
      rcases List.mem_cons.mp h with rfl | h
      · exact ha
      · exact mem_takeWhile p l x h
    · rw [if_neg ha] at h
      cases h

/-- **C109 (certificate read back).** With a zeroed buffer one byte larger than the reported size, the
certificate read is the certificate set, and it is terminated. -/
theorem ca_read_back (s : Fs) (c : Bytes) (m : Nat) (h : (cstr c).length < m) :
    getCustomCASize (setCustomCA s c) = (cstr c).length ∧
    (getCustomCA (setCustomCA s c) (List.replicate m 0) m).1 = true ∧
    cstr (getCustomCA (setCustomCA s c) (List.replicate m 0) m).2 = cstr c ∧
    (0 : UInt8) ∈ (getCustomCA (setCustomCA s c) (List.replicate m 0) m).2 := by
  have hlen : ¬ m < (cstr c).length := by omega
  have hb : getCustomCA (setCustomCA s c) (List.replicate m 0) m
      = (true, cstr c ++ List.replicate (m - (cstr c).length) 0) := by
    simp [getCustomCA, setCustomCA, hlen, over]
  have hp : List.replicate (m - (cstr c).length) (0 : UInt8)
      = 0 :: List.replicate (m - (cstr c).length - 1) 0 := by
    rw [← List.replicate_succ]
    congr 1
    omega
  refine ⟨rfl, ?_, ?_, ?_⟩
  · rw [hb]
  · rw [hb, hp]
    dsimp only
    have hz : ∀ x ∈ cstr c, (fun y : UInt8 => decide (y ≠ 0)) x = true := by
      intro x hx
      exact mem_takeWhile _ c x hx
    generalize cstr c = d at hz
    unfold cstr
    rw [List.takeWhile_append_of_pos hz]
    simp
  · rw [hb, hp]
    exact List.mem_append_right _ List.mem_cons_self

/-- The wished-for safety of a read into a zeroed buffer of the stated size: a text. -/
def CaTerminated : Prop :=
  ∀ (s : Fs) (c : Bytes) (m : Nat), (getCustomCA (setCustomCA s c) (List.replicate m 0) m).1 = true →
    (0 : UInt8) ∈ (getCustomCA (setCustomCA s c) (List.replicate m 0) m).2

/-- **C109 is false of the code**: a certificate of exactly the buffer's size is accepted and the buffer
holds no terminator (the configuration page reads into 4000 bytes and lets 4000 be typed,
`protocol_parameters.cpp:187-193`: everything behind the buffer is then sent until a zero). -/
theorem ca_violation : ¬ CaTerminated := by
  intro h
  have := h Fs.empty [97, 98] 2 (by decide +kernel)
  revert this
  decide +kernel

/-- **C109 (certificate, no overrun).** A certificate read never writes beyond the stated size, and is
refused, with the buffer untouched, when it is longer. -/
theorem ca_bounded (s : Fs) (buf : Bytes) :
    (getCustomCA s buf buf.length).2.length = buf.length ∧
    (∀ c, s.ca = some c → buf.length < c.length → getCustomCA s buf buf.length = (false, buf)) := by
  constructor
  · unfold getCustomCA
    cases s.ca with
    | none => rfl
    | some c =>
      dsimp only
      by_cases h : buf.length < c.length
      · rw [if_pos h]
      · rw [if_neg h]
        simp [over]
        omega
  · intro c hc h
    unfold getCustomCA
    rw [hc]
    dsimp only
    rw [if_pos h]

end Verif.LittleFs
