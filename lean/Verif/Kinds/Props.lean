import Verif.Kinds.Model

/-!
# C153: the type of a channel is registered as it was set
-/

namespace Verif.Kinds

/-- Types of the protocol the library has a name for (`proto.h` 381-425, names
also in `channel_types.h` 28-48). -/
def named : List Int :=
  [1000, 1020, 2900, 3034, 3036, 3038, 3042, 3044, 3048, 3050, 4000, 4010, 4020, 5000, 5010,
   6100, 7000, 7010, 9000, 9010, 11000]

/-- Types of the protocol (`proto.h` 381-425) without a name in the library. -/
def unnamed : List Int :=
  [1010, 1500, 2000, 2010, 2020, 3000, 3010, 3020, 3022, 3030, 3032, 3100, 6000, 6010, 8000,
   10000, 12000]

/-- The full claim: a type of the protocol is registered as it was set. -/
def Kept : Prop :=
  ∀ n, n ∈ named ∨ n ∈ unnamed → ∀ c, getType (setType n c) = n

/-- A type with a name is registered as it was set. -/
theorem kept_partial (n : Int) (h : n ∈ named) (c : Chan) : getType (setType n c) = n := by
  simp only [named, List.mem_cons, List.not_mem_nil, or_false] at h
  rcases h with h | h | h | h | h | h | h | h | h | h | h | h | h | h | h | h | h | h | h | h | h <;>
    subst h <;> rfl

/-- Any other number, over all numbers, is registered as zero. -/
theorem lost (n : Int) (h : n ∉ named) (c : Chan) : getType (setType n c) = 0 := by
  simp only [named, List.mem_cons, List.not_mem_nil, or_false, not_or] at h
  have e : ofProto n = .notSet := by
    unfold ofProto
    simp [h]
  unfold getType setType
  dsimp only
  rw [e]
  rfl

/-- Every type of the protocol without a name is registered as zero. -/
theorem unnamed_lost_violation (n : Int) (h : n ∈ unnamed) (c : Chan) :
    getType (setType n c) = 0 ∧ n ≠ 0 := by
  simp only [unnamed, List.mem_cons, List.not_mem_nil, or_false] at h
  refine ⟨lost n ?_ c, by omega⟩
  simp only [named, List.mem_cons, List.not_mem_nil, or_false]
  omega

/-- So the full claim is false. -/
theorem kept_violation : ¬ Kept := by
  intro h
  have := h 3000 (Or.inr (by decide)) fresh
  revert this
  decide

/-- Two numbers registered alike, other than as zero, are the same number. -/
theorem registered_injective (m n : Int) (c d : Chan)
    (h : getType (setType m c) = getType (setType n d)) (h0 : getType (setType m c) ≠ 0) :
    m = n := by
  by_cases hm : m ∈ named
  · by_cases hn : n ∈ named
    · rw [kept_partial m hm, kept_partial n hn] at h
      exact h
    · rw [h, lost n hn] at h0
      exact absurd rfl h0
  · rw [lost m hm] at h0
    exact absurd rfl h0

/-- The last of several settings is the one registered. -/
theorem last_set (ns : List Int) (n : Int) (c : Chan) :
    getType ((ns ++ [n]).foldl (fun c n => setType n c) c) =
      if n ∈ named then n else 0 := by
  rw [List.foldl_append, List.foldl_cons, List.foldl_nil]
  by_cases h : n ∈ named
  · rw [if_pos h]
    exact kept_partial n h _
  · rw [if_neg h]
    exact lost n h _

example : getType (([2900, 3000, 6100] ++ [4010] : List Int).foldl (fun c n => setType n c) fresh) = 4010 := by
  rw [last_set]
  decide

/-- A temperature is read from a channel set as a thermometer, and from one set
as a thermometer with humidity. -/
theorem temperature_read (c : Chan) :
    lastTemperature (setType 3034 c) = c.whole ∧ lastTemperature (setType 3038 c) = c.first :=
  ⟨rfl, rfl⟩

/-- From a channel set to any other number none is read, whatever its value:
also from one set as the thermometer DS18B20 (3000) and the older sensors of
temperature and humidity. -/
theorem temperature_none (n : Int) (h : n ≠ 3034) (h' : n ≠ 3038) (c : Chan) :
    lastTemperature (setType n c) = -275 := by
  have e : ofProto n ≠ .thermometer ∧ ofProto n ≠ .humidityandtempsensor := by
    by_cases hm : n ∈ named
    · simp only [named, List.mem_cons, List.not_mem_nil, or_false] at hm
      rcases hm with hm | hm | hm | hm | hm | hm | hm | hm | hm | hm | hm | hm | hm | hm | hm | hm | hm | hm | hm | hm | hm <;>
        subst hm <;> first | decide | (exact absurd rfl h) | (exact absurd rfl h')
    · have := lost n hm c
      unfold getType setType at this
      dsimp only at this
      generalize ofProto n = k at this
      cases k <;> first | decide | (revert this; decide)
  unfold lastTemperature setType
  dsimp only
  generalize ofProto n = k at e
  cases k <;> first | rfl | (exact absurd rfl e.1) | (exact absurd rfl e.2)

/-- In particular for every older thermometer of the protocol. -/
theorem old_thermometer_violation (n : Int) (h : n ∈ [3000, 3010, 3020, 3022, 3030, 3032])
    (c : Chan) : lastTemperature (setType n c) = -275 ∧ getType (setType n c) = 0 := by
  simp only [List.mem_cons, List.not_mem_nil, or_false] at h
  refine ⟨temperature_none n (by omega) (by omega) c, lost n ?_ c⟩
  simp only [named, List.mem_cons, List.not_mem_nil, or_false]
  omega

example : lastTemperature (setType 3000 { fresh with whole := 21 }) = -275 :=
  (old_thermometer_violation 3000 (by decide) _).1

end Verif.Kinds
