import Verif.UpdateUrl.Model

/-!
# C161: updates are checked at the address that was set
-/

namespace Verif.UpdateUrl

/-- A string of a caller: no zero in it. -/
def Text (u : List Nat) : Prop := ∀ c ∈ u, c ≠ 0

theorem cstr_zero (u : List Nat) (h : Text u) (rest : List Nat) : cstr (u ++ 0 :: rest) = some u := by
  induction u with
  | nil => rfl
  | cons c u ih =>
    rw [List.cons_append]
    unfold cstr
    rw [if_neg (h c List.mem_cons_self), ih fun x hx => h x (List.mem_cons_of_mem _ hx)]
    rfl

theorem cstr_none (u : List Nat) (h : Text u) : cstr u = none := by
  induction u with
  | nil => rfl
  | cons c u ih =>
    unfold cstr
    rw [if_neg (h c List.mem_cons_self), ih fun x hx => h x (List.mem_cons_of_mem _ hx)]
    rfl

/-- The buffer always has its size. -/
theorem create_size (u : Option (List Nat)) : (create u).length = 202 := by
  cases u with
  | none => exact List.length_replicate
  | some u =>
    show (u.take 202 ++ List.replicate (202 - u.length) 0).length = 202
    rw [List.length_append, List.length_take, List.length_replicate]
    omega

/-- An address of at most 201 characters is read back as it is. -/
theorem create_reads (u : List Nat) (h : Text u) (hl : u.length ≤ 201) : cstr (create (some u)) = some u := by
  show cstr (u.take 202 ++ List.replicate (202 - u.length) 0) = some u
  rw [List.take_of_length_le (by omega), show 202 - u.length = (201 - u.length) + 1 by omega, List.replicate_succ]
  exact cstr_zero u h _

/-- The full claim: every address an update is made with is read within its buffer. -/
def AlwaysReads : Prop := ∀ u, Text u → cstr (create (some u)) ≠ none

/-- **Finding.** A longer address has no zero behind it: reading it goes past the end of the buffer. -/
theorem long_url_violation (u : List Nat) (h : Text u) (hl : u.length > 201) : cstr (create (some u)) = none := by
  show cstr (u.take 202 ++ List.replicate (202 - u.length) 0) = none
  rw [show 202 - u.length = 0 by omega, List.replicate_zero, List.append_nil]
  exact cstr_none _ fun c hc => h c (List.mem_of_mem_take hc)

theorem reads_violation : ¬ AlwaysReads := by
  intro h
  have ht : Text (List.replicate 202 65) := fun c hc => by rw [List.eq_of_mem_replicate hc]; decide
  exact h _ ht (long_url_violation _ ht (by rw [List.length_replicate]; decide))

/-- The last address in the list that is not too long. -/
def lastFitting (us : List (List Nat)) : Option (List Nat) := (us.filter fun u => decide (u.length ≤ 201)).getLast?

theorem sets_eq (us : List (List Nat)) (s : Option (List Nat)) : sets s us = (lastFitting us).or s := by
  induction us generalizing s with
  | nil => rfl
  | cons u us ih =>
    show sets (setServer s u).1 us = _
    rw [ih]
    unfold setServer lastFitting
    by_cases h : u.length ≤ 201
    · rw [if_neg (show ¬ u.length > maxUrl - 1 by unfold maxUrl; omega), List.filter_cons_of_pos (by simpa using h), List.getLast?_cons]
      cases (List.filter (fun u => decide (u.length ≤ 201)) us).getLast? <;> rfl
    · rw [if_pos (show u.length > maxUrl - 1 by unfold maxUrl; omega), List.filter_cons_of_neg (by simpa using h)]

/-- Whatever addresses have been set, refused ones among them, updates are checked at the last one that was accepted, character by
character, or at the default if none was or if it is empty; the address is always read within its buffer. -/
theorem checked_at (d : Default) (hd : Text d.chars) (hdl : d.chars.length ≤ 201) (us : List (List Nat)) (hu : ∀ u ∈ us, Text u) :
    cstr (start d (sets none us)) = some (match lastFitting us with | some (c :: cs) => c :: cs | _ => d.chars) := by
  rw [sets_eq, Option.or_none]
  cases h : lastFitting us with
  | none => exact create_reads _ hd hdl
  | some u =>
    have hm := List.mem_filter.1 (List.mem_of_getLast? h)
    cases u with
    | nil => exact create_reads _ hd hdl
    | cons c cs =>
      show cstr (create (some (c :: cs))) = some (c :: cs)
      exact create_reads _ (hu _ hm.1) (by simpa using hm.2)

/-- An address is accepted exactly if it has at most 201 characters. -/
theorem accepted_iff (s : Option (List Nat)) (u : List Nat) : (setServer s u).2 = true ↔ u.length ≤ 201 := by
  unfold setServer maxUrl
  by_cases h : u.length > 202 - 1
  · rw [if_pos h]
    constructor
    · intro x; cases x
    · intro x; omega
  · rw [if_neg h]
    constructor
    · intro _; omega
    · intro _; rfl

example : cstr (start ⟨[104, 116]⟩ (sets none [[97, 98], List.replicate 300 65])) = some [97, 98] := by
  have h := checked_at ⟨[104, 116]⟩ (by unfold Text; decide) (by decide) [[97, 98], List.replicate 300 65] (by
    intro u hu
    rcases List.mem_cons.1 hu with e | hu
    · rw [e]; unfold Text; decide
    · rw [List.mem_singleton.1 hu]
      exact fun c hc => by rw [List.eq_of_mem_replicate hc]; decide)
  have e : lastFitting [[97, 98], List.replicate 300 65] = some [97, 98] := by
    unfold lastFitting
    rw [List.filter_cons_of_pos (by decide), List.filter_cons_of_neg (by rw [List.length_replicate]; decide)]
    rfl
  rw [e] at h
  exact h

end Verif.UpdateUrl
