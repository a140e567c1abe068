/-!
# C108: files as sources and as storage (Linux port)

`/repo/extras/porting/linux/supla/source/file.cpp` (SF) and `/repo/extras/porting/linux/linux_file_storage.cpp` (FS).
-/

namespace Verif.Parsed.File

/-! ## A file as a source -/

/-- A file as it is found: when it was written (s) and what is in it; empty if it cannot be opened. -/
structure Found where
  mtime : Nat
  content : List Char
deriving DecidableEq

/-- A reading: when, and what is found (`none`: no file). -/
structure Look where
  now : Nat
  file : Option Found
deriving DecidableEq

/-- file.h lines 42-45. -/
structure Src where
  expire : Nat
  prev : List Char
  failures : Nat
deriving DecidableEq

/-- A new source. -/
def new (expire : Nat) : Src := ⟨expire, [], 0⟩

/-- SF lines 67-76. -/
def conclude (r : List Char) (s : Src) : Src × List Char :=
  if r.length < 1 ∧ s.failures < 3 then ({ s with failures := s.failures + 1 }, s.prev) else ({ s with failures := 0, prev := r }, r)

/-- SF lines 42-43. -/
def old (expire now mtime : Nat) : Bool := expire != 0 && mtime + expire < now

/-- `File::getContent`, SF lines 34-77; the cut at 10 MB is left out, lines are taken as they are. -/
def getContent (l : Look) (s : Src) : Src × List Char :=
  match l.file with
  | none => conclude [] s
  | some f => if old s.expire l.now f.mtime then (s, []) else conclude f.content s

/-- A history of readings, newest first. -/
def run (expire : Nat) : List Look → Src
  | [] => new expire
  | l :: ls => (getContent l (run expire ls)).1

/-- What a reading gives. -/
def gives (expire : Nat) (ls : List Look) (l : Look) : List Char := (getContent l (run expire ls)).2

theorem conclude_expire (r : List Char) (s : Src) : (conclude r s).1.expire = s.expire := by unfold conclude; split <;> rfl

theorem getContent_expire (l : Look) (s : Src) : (getContent l s).1.expire = s.expire := by
  unfold getContent
  cases l.file with
  | none => exact conclude_expire _ _
  | some f =>
    dsimp only
    split
    · rfl
    · exact conclude_expire _ _

theorem run_expire (expire : Nat) (ls : List Look) : (run expire ls).expire = expire := by
  induction ls with
  | nil => rfl
  | cons l ls ih => exact (getContent_expire l _).trans ih

/-- The full claim (`/repo/extras/examples/linux/README.md` lines 699-702): nothing is given that is older than the expiration time. -/
def NotExpired : Prop := ∀ expire ls l, expire ≠ 0 → (ls.map Look.now).all (fun n => decide (n ≤ l.now)) = true → gives expire ls l ≠ [] →
  ∃ k ∈ l :: ls, ∃ f, k.file = some f ∧ f.content = gives expire ls l ∧ l.now ≤ f.mtime + expire

/-- **Finding.** A file that has expired and is then deleted is given again, three times. -/
theorem expired_violation : ¬ NotExpired := by
  intro h
  obtain ⟨k, hk, f, h1, h2, h3⟩ := h 600 [⟨700, some ⟨0, ['7']⟩⟩, ⟨1, some ⟨0, ['7']⟩⟩] ⟨701, none⟩ (by decide) (by decide) (by decide)
  rcases List.mem_cons.mp hk with rfl | hk
  · cases h1
  · rcases List.mem_cons.mp hk with rfl | hk
    · obtain rfl := Option.some.inj h1
      exact absurd h3 (by decide)
    · rcases List.mem_cons.mp hk with rfl | hk
      · obtain rfl := Option.some.inj h1
        exact absurd h3 (by decide)
      · cases hk

/-- **C108.** A file that is there, with something in it, is given if it has not expired, and only then. Missing: files that are gone. -/
theorem expired_partial (expire : Nat) (ls : List Look) (now : Nat) (f : Found) (hne : f.content ≠ []) :
    gives expire ls ⟨now, some f⟩ = if expire ≠ 0 ∧ f.mtime + expire < now then [] else f.content := by
  unfold gives getContent
  dsimp only
  rw [run_expire]
  have hl : ¬ (f.content.length < 1 ∧ (run expire ls).failures < 3) := by
    rintro ⟨h, _⟩
    exact hne (List.length_eq_zero_iff.mp (by omega))
  have hc : (conclude f.content (run expire ls)).2 = f.content := by
    unfold conclude
    rw [if_neg hl]
  unfold old
  by_cases h0 : expire = 0
  · subst h0
    rw [if_neg (show ¬ ((0 != 0 && decide (f.mtime + 0 < now)) = true) from Bool.false_ne_true), if_neg (fun h => h.1 rfl), hc]
  · by_cases h1 : f.mtime + expire < now
    · rw [if_pos (by simp [h0, h1]), if_pos ⟨h0, h1⟩]
    · rw [if_neg (by simp [h1]), if_neg (fun h => h1 h.2), hc]

/-- A reading that finds nothing. -/
def Fails (l : Look) : Prop := l.file = none

theorem fails_conclude (l : Look) (h : Fails l) (s : Src) : getContent l s = conclude [] s := by
  unfold getContent
  rw [h]

/-- How far a source has come in failing. -/
theorem fails_run (s : Src) (ls : List Look) (h : ∀ l ∈ ls, Fails l) (hs : s.failures ≤ 3) (hn : 3 ≤ ls.length) :
    (ls.foldr (fun l s => (getContent l s).1) s).prev = [] ∨ (ls.foldr (fun l s => (getContent l s).1) s).failures = 3 := by
  have key : ∀ ls : List Look, (∀ l ∈ ls, Fails l) →
      ((ls.foldr (fun l s => (getContent l s).1) s).prev = [] ∧ (ls.foldr (fun l s => (getContent l s).1) s).failures ≤ 3) ∨
      (ls.foldr (fun l s => (getContent l s).1) s).failures = s.failures + ls.length ∧ (ls.foldr (fun l s => (getContent l s).1) s).failures ≤ 3 := by
    intro ls
    induction ls with
    | nil => intro _; exact Or.inr ⟨rfl, hs⟩
    | cons l ls ih =>
      intro hf
      rw [List.foldr_cons, fails_conclude l (hf l List.mem_cons_self)]
      have := ih (fun x hx => hf x (List.mem_cons_of_mem _ hx))
      generalize ls.foldr (fun l s => (getContent l s).1) s = x at *
      unfold conclude
      by_cases hx : ([] : List Char).length < 1 ∧ x.failures < 3
      · rw [if_pos hx]
        rcases this with ⟨a, b⟩ | ⟨a, b⟩
        · exact Or.inl ⟨a, by show x.failures + 1 ≤ 3; omega⟩
        · exact Or.inr ⟨by show x.failures + 1 = s.failures + (ls.length + 1); omega, by show x.failures + 1 ≤ 3; omega⟩
      · rw [if_neg hx]
        exact Or.inl ⟨rfl, by show 0 ≤ 3; omega⟩
  rcases key ls h with ⟨a, _⟩ | ⟨a, b⟩
  · exact Or.inl a
  · exact Or.inr (by omega)

theorem failures_le (expire : Nat) (ls : List Look) : (run expire ls).failures ≤ 3 := by
  induction ls with
  | nil => exact Nat.zero_le 3
  | cons l ls ih =>
    show (getContent l (run expire ls)).1.failures ≤ 3
    have hc : ∀ r, (conclude r (run expire ls)).1.failures ≤ 3 := by
      intro r
      unfold conclude
      split
      · next h => show (run expire ls).failures + 1 ≤ 3; omega
      · exact Nat.zero_le 3
    unfold getContent
    cases l.file with
    | none => exact hc _
    | some f =>
      dsimp only
      split
      · exact ih
      · exact hc _

theorem run_append (expire : Nat) (a b : List Look) : run expire (a ++ b) = a.foldr (fun l s => (getContent l s).1) (run expire b) := by
  induction a with
  | nil => rfl
  | cons l a ih => rw [List.cons_append, List.foldr_cons, ← ih]; rfl

/-- **C108.** A file that is gone is given for three readings at most. -/
theorem forgets (expire : Nat) (ls gone : List Look) (h : ∀ l ∈ gone, Fails l) (hn : 3 ≤ gone.length) (l : Look) (hl : Fails l) : gives expire (gone ++ ls) l = [] := by
  unfold gives
  rw [fails_conclude l hl]
  have hp : (run expire (gone ++ ls)).prev = [] ∨ (run expire (gone ++ ls)).failures = 3 := by
    rw [run_append]
    exact fails_run _ gone h (failures_le expire ls) hn
  unfold conclude
  split
  · next hx =>
    rcases hp with hp | hp
    · exact hp
    · omega
  · rfl

/-! ## A file as storage -/

/-- `LinuxFileStorage`: the size, the data in memory, whether it has changed, and the file. -/
structure Disk where
  size : Nat
  data : List UInt8
  changed : Bool
  file : List UInt8
deriving DecidableEq

/-- `init`, FS lines 43-62: as much of the file as fits, zeros after it. -/
def load (size : Nat) (file : List UInt8) : Disk := ⟨size, (file.take size) ++ List.replicate (size - file.length) 0, false, file⟩

/-- `writeStorage`, FS lines 74-83; `none`: outside of the data (undefined). -/
def write (off : Nat) (buf : List UInt8) (d : Disk) : Option Disk :=
  if off + buf.length ≤ d.data.length then some { d with changed := true, data := d.data.take off ++ buf ++ d.data.drop (off + buf.length) } else none

/-- `readStorage`, FS lines 64-72. -/
def read (off n : Nat) (d : Disk) : Option (List UInt8) := if off + n ≤ d.data.length then some ((d.data.drop off).take n) else none

/-- How a write of the file goes. -/
inductive Fate
  | done
  /-- The file cannot be opened, FS lines 87-88: nothing is said about it. -/
  | refused
  /-- The power fails after some octets. -/
  | cut (n : Nat)
deriving DecidableEq

/-- `commit`, FS lines 85-98. -/
def commit (f : Fate) (d : Disk) : Disk :=
  if d.changed then
    (match f with
     | .done => { d with changed := false, file := d.data }
     | .refused => { d with changed := false }
     | .cut n => { d with file := d.data.take n })
  else { d with changed := false }

/-- Reachable: the data has the size; what is not marked as changed is what would be loaded, unless a write was refused. -/
structure Ok (d : Disk) : Prop where
  len : d.data.length = d.size
  same : d.changed = false → (load d.size d.file).data = d.data

theorem load_ok (size : Nat) (file : List UInt8) : Ok (load size file) := by
  refine ⟨?_, fun _ => rfl⟩
  show ((file.take size) ++ List.replicate (size - file.length) 0).length = size
  rw [List.length_append, List.length_take, List.length_replicate]
  omega

theorem write_ok (off : Nat) (buf : List UInt8) (d d' : Disk) (h : Ok d) (hw : write off buf d = some d') : Ok d' := by
  unfold write at hw
  split at hw
  · next hl =>
    obtain rfl := Option.some.inj hw
    refine ⟨?_, fun h => (by cases h)⟩
    show (d.data.take off ++ buf ++ d.data.drop (off + buf.length)).length = d.size
    rw [List.length_append, List.length_append, List.length_take, List.length_drop, ← h.len]
    omega
  · cases hw

theorem commit_ok (d : Disk) (h : Ok d) : Ok (commit .done d) := by
  unfold commit
  split
  · refine ⟨h.len, fun _ => ?_⟩
    show d.data.take d.size ++ List.replicate (d.size - d.data.length) 0 = d.data
    rw [h.len, Nat.sub_self, List.take_of_length_le (Nat.le_of_eq h.len)]
    exact List.append_nil _
  · next hc => exact ⟨h.len, fun _ => h.same (by simpa using hc)⟩

/-- Writes and commits, newest first; `none`: undefined. -/
inductive Op
  | write (off : Nat) (buf : List UInt8)
  | commit

/-- What happens to a disk, without failures. -/
def runDisk (size : Nat) (file : List UInt8) : List Op → Option Disk
  | [] => some (load size file)
  | .write off buf :: ops => (runDisk size file ops).bind (write off buf)
  | .commit :: ops => (runDisk size file ops).map (commit .done)

theorem runDisk_ok (size : Nat) (file : List UInt8) (ops : List Op) (d : Disk) (h : runDisk size file ops = some d) : Ok d ∧ d.size = size := by
  induction ops generalizing d with
  | nil => obtain rfl := Option.some.inj h; exact ⟨load_ok size file, rfl⟩
  | cons o ops ih =>
    cases o with
    | write off buf =>
      obtain ⟨e, h1, h2⟩ := Option.bind_eq_some_iff.mp h
      obtain ⟨i1, i2⟩ := ih e h1
      refine ⟨write_ok off buf e d i1 h2, ?_⟩
      unfold write at h2
      split at h2
      · obtain rfl := Option.some.inj h2; exact i2
      · cases h2
    | commit =>
      obtain ⟨e, h1, h2⟩ := Option.map_eq_some_iff.mp h
      obtain ⟨i1, i2⟩ := ih e h1
      subst h2
      refine ⟨commit_ok e i1, ?_⟩
      unfold commit
      split <;> exact i2

/-- **C108.** After a commit a restart finds exactly what was written, for all writes and commits before. -/
theorem kept (size : Nat) (file : List UInt8) (ops : List Op) (d : Disk) (h : runDisk size file (.commit :: ops) = some d) : (load size d.file).data = d.data := by
  obtain ⟨h1, h2⟩ := runDisk_ok size file _ d h
  have hc : d.changed = false := by
    obtain ⟨e, _, rfl⟩ := Option.map_eq_some_iff.mp h
    unfold commit
    split <;> rfl
  rw [← h2]
  exact h1.same hc

/-- **C108.** What is written is read back. -/
theorem read_back (off : Nat) (buf : List UInt8) (d d' : Disk) (h : write off buf d = some d') : read off buf.length d' = some buf := by
  unfold write at h
  split at h
  · next hl =>
    obtain rfl := Option.some.inj h
    unfold read
    have e : (d.data.take off).length = off := by rw [List.length_take]; omega
    have el : (d.data.take off ++ buf ++ d.data.drop (off + buf.length)).length = d.data.length := by
      rw [List.length_append, List.length_append, e, List.length_drop]; omega
    dsimp only
    rw [if_pos (by rw [el]; exact hl), List.append_assoc, List.drop_append, List.drop_of_length_le (Nat.le_of_eq e), e, Nat.sub_self]
    show some (([] ++ (buf ++ List.drop (off + buf.length) d.data)).take buf.length) = some buf
    rw [List.nil_append, List.take_left]
  · cases h

/-- The full claim: whenever the power fails, a restart finds the data as it was before or after the commit. -/
def Atomic : Prop := ∀ size file ops d n, runDisk size file ops = some d →
  (load size (commit (.cut n) d).file).data = (load size d.file).data ∨ (load size (commit (.cut n) d).file).data = d.data

/-- **Finding.** The file is emptied before it is written: a restart may find part of it, or nothing. -/
theorem atomic_violation : ¬ Atomic := by
  intro h
  have := h 4 [1, 2, 3, 4] [.write 0 [9]] _ 0 rfl
  revert this
  decide

/-- The full claim: what could not be written is written by the next commit that can. -/
def Retried : Prop := ∀ size file ops d, runDisk size file ops = some d → (load size (commit .done (commit .refused d)).file).data = d.data

/-- **Finding.** Data that could not be written is taken for written. -/
theorem retried_violation : ¬ Retried := by
  intro h
  have := h 4 [1, 2, 3, 4] [.write 0 [9]] _ rfl
  revert this
  decide

/-- The full claim: no write is undefined. -/
def Bounded : Prop := ∀ size file off buf, (write off buf (load size file)).isSome = true

/-- **Finding.** A write beyond the reserved size is not refused. -/
theorem bounded_violation : ¬ Bounded := by
  intro h
  have := h 4 [] 4 [1]
  revert this
  decide

/-- **C108.** Within the reserved size all are defined. Missing: the rest. -/
theorem bounded_partial (size : Nat) (file : List UInt8) (ops : List Op) (h : ∀ off buf, Op.write off buf ∈ ops → off + buf.length ≤ size) : ∃ d, runDisk size file ops = some d := by
  induction ops with
  | nil => exact ⟨_, rfl⟩
  | cons o ops ih =>
    obtain ⟨d, hd⟩ := ih (fun off buf hm => h off buf (List.mem_cons_of_mem _ hm))
    cases o with
    | write off buf =>
      obtain ⟨h1, h2⟩ := runDisk_ok size file ops d hd
      have hl : off + buf.length ≤ d.data.length := by rw [h1.len, h2]; exact h off buf List.mem_cons_self
      refine ⟨{ d with changed := true, data := d.data.take off ++ buf ++ d.data.drop (off + buf.length) }, ?_⟩
      show (runDisk size file ops).bind (write off buf) = _
      rw [hd]
      show write off buf d = _
      unfold write
      rw [if_pos hl]
    | commit =>
      refine ⟨commit .done d, ?_⟩
      show (runDisk size file ops).map (commit .done) = _
      rw [hd]
      rfl

example : gives 600 [] ⟨10, some ⟨5, ['7']⟩⟩ = ['7'] := by decide
example : (runDisk 4 [1] [.commit, .write 2 [7]]).map Disk.file = some [1, 0, 7, 0] := by decide

end Verif.Parsed.File
