import Verif.Conflict.Model

/-!
# Conflicts between the channels of the device and those of the server are found
-/

namespace Verif.Conflict

/-! ## Specification -/

/-- The server knows channel `n`: it has an entry that is not 0. -/
def Known (report : List Nat) (n : Int) : Prop := ∃ k e, (k : Nat) = n ∧ report[k]? = some e ∧ e ≠ 0

/-- A channel of the device is unknown to the server. -/
def SomeUnknown (dev : List Int) (report : List Nat) : Prop := ∃ n ∈ dev, ¬ Known report n

/-- The server has a channel the device does not have. -/
def SomeAbsent (dev : List Int) (report : List Nat) : Prop :=
  ∃ (k : Nat) (e : Nat), report[k]? = some e ∧ e % 2 = 1 ∧ (k : Int) ∉ dev

/-- The server has another type for a channel of the device. -/
def SomeOther (dev : List Int) (report : List Nat) : Prop :=
  ∃ (k : Nat) (e : Nat), report[k]? = some e ∧ e / 2 % 2 = 1 ∧ (k : Int) ∈ dev

/-- Channels have numbers from 0 to 127. -/
def Valid (dev : List Int) : Prop := ∀ n ∈ dev, 0 ≤ n ∧ n < 128

/-! ## Proof -/

theorem loop_server (dev : List Int) (l : List Nat) (i : Int) (f : Flags) :
    (loop dev i l f).missingOnServer = true ↔
      f.missingOnServer = true ∨ ∃ (k : Nat), l[k]? = some 0 ∧ free dev (i + k) = false := by
  induction l generalizing i f with
  | nil => simp [loop]
  | cons e l ih =>
    rw [loop, ih]
    have ht : (turn dev i e f).missingOnServer = true ↔ f.missingOnServer = true ∨ (e = 0 ∧ free dev i = false) := by
      unfold turn
      split
      · rename_i h; simp [h]
      · rename_i h
        split
        · simp [h]
        · split <;> simp [h]
    rw [ht]
    constructor
    · rintro ((h | h) | ⟨k, h1, h2⟩)
      · exact Or.inl h
      · exact Or.inr ⟨0, by simp [h.1], by simpa using h.2⟩
      · refine Or.inr ⟨k + 1, by simpa using h1, ?_⟩
        rw [show i + ((k + 1 : Nat) : Int) = i + 1 + k by omega]; exact h2
    · rintro (h | ⟨k, h1, h2⟩)
      · exact Or.inl (Or.inl h)
      · cases k with
        | zero => simp at h1 h2; exact Or.inl (Or.inr ⟨h1, h2⟩)
        | succ k =>
          refine Or.inr ⟨k, by simpa using h1, ?_⟩
          rw [show i + ((k + 1 : Nat) : Int) = i + 1 + k by omega] at h2; exact h2

theorem loop_device (dev : List Int) (l : List Nat) (i : Int) (f : Flags) :
    (loop dev i l f).missingOnDevice = true ↔
      f.missingOnDevice = true ∨ ∃ (k : Nat) (e : Nat), l[k]? = some e ∧ e % 2 = 1 ∧ free dev (i + k) = true := by
  induction l generalizing i f with
  | nil => simp [loop]
  | cons e l ih =>
    rw [loop, ih]
    have ht : (turn dev i e f).missingOnDevice = true ↔ f.missingOnDevice = true ∨ (e % 2 = 1 ∧ free dev i = true) := by
      unfold turn
      split
      · rename_i h; simp [h]
      · split
        · rename_i h; simp [h]
        · rename_i h
          split <;> simp [h]
    rw [ht]
    constructor
    · rintro ((h | h) | ⟨k, e', h1, h2, h3⟩)
      · exact Or.inl h
      · exact Or.inr ⟨0, e, by simp, h.1, by simpa using h.2⟩
      · refine Or.inr ⟨k + 1, e', by simpa using h1, h2, ?_⟩
        rw [show i + ((k + 1 : Nat) : Int) = i + 1 + k by omega]; exact h3
    · rintro (h | ⟨k, e', h1, h2, h3⟩)
      · exact Or.inl (Or.inl h)
      · cases k with
        | zero => simp at h1 h3; subst h1; exact Or.inl (Or.inr ⟨h2, h3⟩)
        | succ k =>
          refine Or.inr ⟨k, e', by simpa using h1, h2, ?_⟩
          rw [show i + ((k + 1 : Nat) : Int) = i + 1 + k by omega] at h3; exact h3

theorem loop_type (dev : List Int) (l : List Nat) (i : Int) (f : Flags) :
    (loop dev i l f).invalidType = true ↔
      f.invalidType = true ∨ ∃ (k : Nat) (e : Nat), l[k]? = some e ∧ e / 2 % 2 = 1 ∧ ¬ (e % 2 = 1 ∧ free dev (i + k) = true) := by
  induction l generalizing i f with
  | nil => simp [loop]
  | cons e l ih =>
    rw [loop, ih]
    have ht : (turn dev i e f).invalidType = true ↔ f.invalidType = true ∨ (e / 2 % 2 = 1 ∧ ¬ (e % 2 = 1 ∧ free dev i = true)) := by
      unfold turn
      split
      · rename_i h; simp [h.1]
      · split
        · rename_i h; simp [h]
        · rename_i h
          split
          · rename_i h'; simp [h', h]
          · rename_i h'; simp [h']
    rw [ht]
    constructor
    · rintro ((h | h) | ⟨k, e', h1, h2, h3⟩)
      · exact Or.inl h
      · exact Or.inr ⟨0, e, by simp, h.1, by simpa using h.2⟩
      · refine Or.inr ⟨k + 1, e', by simpa using h1, h2, ?_⟩
        rw [show i + ((k + 1 : Nat) : Int) = i + 1 + k by omega]; exact h3
    · rintro (h | ⟨k, e', h1, h2, h3⟩)
      · exact Or.inl (Or.inl h)
      · cases k with
        | zero => simp at h1; subst h1; exact Or.inl (Or.inr ⟨h2, by simpa using h3⟩)
        | succ k =>
          refine Or.inr ⟨k, e', by simpa using h1, h2, ?_⟩
          rw [show i + ((k + 1 : Nat) : Int) = i + 1 + k by omega] at h3; exact h3

theorem max_ge (dev : List Int) (n : Int) (h : n ∈ dev) : n ≤ maxUsed dev := by
  induction dev with
  | nil => cases h
  | cons m l ih =>
    unfold maxUsed
    rcases List.mem_cons.1 h with rfl | h
    · split <;> omega
    · have := ih h
      split <;> omega

theorem max_mem (dev : List Int) : maxUsed dev = -1 ∨ maxUsed dev ∈ dev := by
  induction dev with
  | nil => exact Or.inl rfl
  | cons m l ih =>
    unfold maxUsed
    split
    · exact Or.inr (List.mem_cons_self ..)
    · rcases ih with h | h
      · exact Or.inl h
      · exact Or.inr (List.mem_cons_of_mem _ h)

theorem free_iff (dev : List Int) (i : Int) (h : i < 128) : free dev i = true ↔ i ∉ dev := by
  unfold free
  rw [if_neg (by omega)]
  simp

/-- **C74.** A report of at most 128 entries, none of which is about the last channel alone missing: the device
sees that the server does not know one of its channels exactly if it does not. -/
theorem unknown_found_partial (dev : List Int) (hv : Valid dev) (report : List Nat) (hr : report.length ≤ 128) (hm : (report.length : Int) ≠ maxUsed dev) :
    (analyse dev report).missingOnServer = true ↔ SomeUnknown dev report := by
  unfold analyse
  rw [loop_server]
  simp only [decide_eq_true_eq]
  constructor
  · rintro (h | ⟨k, h1, h2⟩)
    · rcases max_mem dev with h' | h'
      · rw [h'] at h; omega
      · refine ⟨_, h', ?_⟩
        rintro ⟨k, e, hk, he, _⟩
        have := (List.getElem?_eq_some_iff.1 he).1
        omega
    · have hk := (List.getElem?_eq_some_iff.1 h1).1
      rw [Int.zero_add] at h2
      have hmem : (k : Int) ∈ dev := by
        have := free_iff dev k (by omega)
        rw [h2] at this
        simpa using this
      refine ⟨k, hmem, ?_⟩
      rintro ⟨k', e, hk', he, hne⟩
      have : k' = k := by omega
      subst this
      rw [h1] at he
      injection he with he
      exact hne he.symm
  · rintro ⟨n, hn, hk⟩
    obtain ⟨n0, n1⟩ := hv n hn
    by_cases hlt : n < report.length
    · right
      refine ⟨n.toNat, ?_, ?_⟩
      · have hb : n.toNat < report.length := by omega
        rw [List.getElem?_eq_getElem hb]
        by_cases hz : report[n.toNat] = 0
        · rw [hz]
        · exact absurd ⟨n.toNat, report[n.toNat], by omega, List.getElem?_eq_getElem hb, hz⟩ hk
      · have : ((n.toNat : Nat) : Int) = n := by omega
        rw [this, Int.zero_add]
        have h2 := free_iff dev n n1
        cases hf : free dev n
        · rfl
        · exact absurd hn (h2.1 hf)
    · left
      have := max_ge dev n hn
      omega

example : Valid [0, 1, 2] ∧ SomeUnknown [0, 1, 2] [1, 0, 1] := by
  refine ⟨by simp [Valid], 1, by simp, ?_⟩
  rintro ⟨k, e, hk, he, hne⟩
  have : k = 1 := by omega
  subst this
  simp at he
  exact hne he.symm

/-- The full claim, without the excluded length. -/
def UnknownFound : Prop :=
  ∀ (dev : List Int) (report : List Nat), Valid dev → report.length ≤ 128 →
    ((analyse dev report).missingOnServer = true ↔ SomeUnknown dev report)

/-- **Finding.** The length is compared with the greatest number and not with the number of entries needed: if
just the last channel of the device is beyond the report, it is not seen. -/
theorem unknown_found_violation : ¬ UnknownFound := by
  intro h
  have := (h [0, 1, 2] [1, 1] (by simp [Valid]) (by decide)).2 ⟨2, by simp, by
    rintro ⟨k, e, hk, he, _⟩
    have : k = 2 := by omega
    subst this
    simp at he⟩
  revert this; decide

/-- The full claim for reports of any size the protocol allows (256 entries). -/
def UnknownFoundLong : Prop :=
  ∀ (dev : List Int) (report : List Nat), Valid dev → report.length ≤ 256 → (analyse dev report).missingOnServer = true →
    SomeUnknown dev report

set_option maxRecDepth 4096 in
/-- **Finding.** Numbers from 128 on count as used, so an entry 0 there is taken for a channel of the device the
server does not know. -/
theorem long_report_violation : ¬ UnknownFoundLong := by
  intro h
  have h1 := h [0] (List.replicate 128 1 ++ [0]) (by simp [Valid]) (by simp) ?_
  · obtain ⟨n, hn, hk⟩ := h1
    simp at hn
    subst hn
    exact hk ⟨0, 1, rfl, rfl, by decide⟩
  · unfold analyse
    rw [loop_server]
    right
    refine ⟨128, ?_, ?_⟩
    · rw [List.getElem?_append_right (by simp)]; simp
    · decide

/-- **C74.** The device sees that the server has a channel it does not have exactly if there is one (with a number
below 128). -/
theorem absent_found (dev : List Int) (report : List Nat) (hr : report.length ≤ 128) :
    (analyse dev report).missingOnDevice = true ↔ SomeAbsent dev report := by
  unfold analyse
  rw [loop_device]
  simp only [Bool.false_eq_true, false_or, Int.zero_add]
  constructor
  · rintro ⟨k, e, h1, h2, h3⟩
    have hk := (List.getElem?_eq_some_iff.1 h1).1
    exact ⟨k, e, h1, h2, (free_iff dev k (by omega)).1 h3⟩
  · rintro ⟨k, e, h1, h2, h3⟩
    have hk := (List.getElem?_eq_some_iff.1 h1).1
    exact ⟨k, e, h1, h2, (free_iff dev k (by omega)).2 h3⟩

example : SomeAbsent [0, 2] [1, 1] := ⟨1, 1, rfl, rfl, by decide⟩

/-- **C74.** A type mismatch is seen exactly if there is one for a channel of the device, if the server reports
types only of channels it has. -/
theorem type_found_partial (dev : List Int) (report : List Nat) (hr : report.length ≤ 128) (hs : ∀ e ∈ report, e / 2 % 2 = 1 → e % 2 = 1) :
    (analyse dev report).invalidType = true ↔ SomeOther dev report := by
  unfold analyse
  rw [loop_type]
  simp only [Bool.false_eq_true, false_or, Int.zero_add]
  constructor
  · rintro ⟨k, e, h1, h2, h3⟩
    have hk := (List.getElem?_eq_some_iff.1 h1).1
    refine ⟨k, e, h1, h2, ?_⟩
    by_cases hm : (k : Int) ∈ dev
    · exact hm
    · exact absurd ⟨hs e (List.mem_of_getElem? h1) h2, (free_iff dev k (by omega)).2 hm⟩ h3
  · rintro ⟨k, e, h1, h2, h3⟩
    have hk := (List.getElem?_eq_some_iff.1 h1).1
    refine ⟨k, e, h1, h2, ?_⟩
    rintro ⟨_, h4⟩
    exact (free_iff dev k (by omega)).1 h4 h3

example : SomeOther [0, 1] [1, 3] := ⟨1, 3, rfl, rfl, by decide⟩

/-- The full claim: the resolver is told how long the report is. -/
def SizeTold : Prop := ∀ (report : List Nat), report.length ≤ 256 → toldSize report = report.length

/-- It is for fewer than 256 entries. -/
theorem size_told_partial (report : List Nat) (h : report.length < 256) : toldSize report = report.length := Nat.mod_eq_of_lt h

/-- **Finding.** The longest report is handed on with size 0. -/
theorem size_told_violation : ¬ SizeTold := by
  intro h
  have := h (List.replicate 256 1) (by rw [List.length_replicate]; decide)
  unfold toldSize at this
  rw [List.length_replicate] at this
  revert this; decide

end Verif.Conflict
