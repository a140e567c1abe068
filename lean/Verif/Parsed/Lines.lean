import Verif.Parsed.Model

/-!
# C106, continued: the simple parser's lines

`/repo/extras/porting/linux/supla/parser/simple.cpp` lines 67-100, `/repo/extras/porting/linux/supla/source/mqtt_src.cpp` lines 49-63.
-/

namespace Verif.Parsed

/-- `std::getline` until the end, simple.cpp lines 76-81: a newline at the end begins no further line. -/
def lines : List Char → List (List Char)
  | [] => []
  | c :: cs => if c = '\n' then [] :: lines cs else
      (match lines cs with
       | [] => [[c]]
       | l :: ls => (c :: l) :: ls)

/-- A value of a line. -/
inductive Val
  | int (i : Int)
  | bool (b : Bool)
  | text (s : List Char)
  | real (x : ℚ)
deriving DecidableEq

/-- C++'s conversion to `int`: towards zero; `none` (undefined) out of range. -/
def toInt (x : ℚ) : Option Int :=
  if 0 ≤ x then (if x.floor < 2 ^ 31 then some x.floor else none) else (if -(2 ^ 31) ≤ x.ceil then some x.ceil else none)

/-- simple.cpp lines 82-95; `stod` is `std::stod` (`none`: it throws). The outer `none` is undefined behaviour. -/
def classify (stod : List Char → Option ℚ) (l : List Char) : Option Val :=
  if l = "true".toList ∨ l = "false".toList then some (.bool (l = "true".toList))
  else match stod l with
    | none => some (.text l)
    | some x => (toInt x).map fun (i : Int) => if x = i then .int i else .real x

/-- `getValue`, simple.cpp lines 34-42: the number of a value. -/
def Val.number : Val → Option ℚ
  | .int i => some i
  | .real x => some x
  | _ => none

/-- The full claim: a line that is a number is read as that number. -/
def LineRead : Prop := ∀ (stod : List Char → Option ℚ) (l : List Char) (x : ℚ), l ≠ "true".toList → l ≠ "false".toList → stod l = some x →
  ∃ v, classify stod l = some v ∧ v.number = some x

/-- **Finding.** The conversion to `int` is undefined for numbers of 2147483648 or more, as meters and counters have. -/
theorem line_violation : ¬ LineRead := by
  intro h
  obtain ⟨v, h1, _⟩ := h (fun _ => some 3000000000) "3000000000".toList 3000000000 (by decide) (by decide) rfl
  have : classify (fun _ => some 3000000000) "3000000000".toList = none := by decide +kernel
  rw [this] at h1
  cases h1

/-- **C106.** Smaller ones are read, as whole numbers or not. Missing: the larger ones. -/
theorem line_partial (stod : List Char → Option ℚ) (l : List Char) (x : ℚ) (h1 : l ≠ "true".toList) (h2 : l ≠ "false".toList) (h : stod l = some x)
    (lo : -2147483648 ≤ x) (hi : x < 2147483648) : ∃ v, classify stod l = some v ∧ v.number = some x := by
  have hi' : ∃ i, toInt x = some i := by
    unfold toInt
    split
    · have : x.floor < 2 ^ 31 := by
        rw [Rat.floor_lt_iff]
        exact hi
      rw [if_pos this]
      exact ⟨_, rfl⟩
    · have : -(2 ^ 31 : Int) ≤ x.ceil := by
        have h3 : x ≤ ((x.ceil : Int) : ℚ) := Rat.le_ceil
        have h4 : ((-2147483648 : Int) : ℚ) ≤ ((x.ceil : Int) : ℚ) := le_trans (by exact_mod_cast lo) h3
        have h5 : (-2147483648 : Int) ≤ x.ceil := by exact_mod_cast h4
        exact h5
      rw [if_pos this]
      exact ⟨_, rfl⟩
  obtain ⟨i, hi'⟩ := hi'
  unfold classify
  rw [if_neg (by rintro (h | h); exacts [h1 h, h2 h]), h]
  dsimp only
  rw [hi']
  by_cases hx : x = i
  · refine ⟨.int i, ?_, ?_⟩
    · show some (if x = i then Val.int i else Val.real x) = _
      rw [if_pos hx]
    · rw [hx]; rfl
  · refine ⟨.real x, ?_, rfl⟩
    show some (if x = i then Val.int i else Val.real x) = _
    rw [if_neg hx]

/-! ## Messages of several topics as lines -/

/-- `Mqtt::getContent`, mqtt_src.cpp lines 49-63; `none`: nothing has arrived under the topic. -/
def combine (acc : List Char) : List (Option (List Char)) → List Char
  | [] => acc
  | none :: ms => combine acc ms
  | some m :: ms => combine (if acc = [] then m else acc ++ '\n' :: m) ms

/-- The full claim: line `i` is the message of topic `i`. -/
def TopicLines : Prop := ∀ (ms : List (Option (List Char))) (i : Nat) (m : List Char), '\n' ∉ m → ms[i]? = some (some m) → (lines (combine [] ms))[i]? = some m

/-- **Finding.** As long as nothing has arrived under a topic, the messages of the topics after it are taken for it. -/
theorem topics_violation : ¬ TopicLines := by
  intro h
  have := h [none, some ['5']] 1 ['5'] (by decide) rfl
  revert this
  decide

/-- The message of the second topic is read as that of the first. -/
theorem topics_shift (m : List Char) (h : '\n' ∉ m) (hne : m ≠ []) : (lines (combine [] [none, some m]))[0]? = some m := by
  have : ∀ m : List Char, '\n' ∉ m → m ≠ [] → lines m = [m] := by
    intro m
    induction m with
    | nil => intro _ h; exact absurd rfl h
    | cons c cs ih =>
      intro h _
      rw [List.mem_cons, not_or] at h
      unfold lines
      rw [if_neg (fun e => h.1 e.symm)]
      cases cs with
      | nil => rfl
      | cons d ds => rw [ih h.2 (by simp)]
  show (lines m)[0]? = some m
  rw [this m h hne]
  rfl

theorem lines_line (m rest : List Char) (h : '\n' ∉ m) : lines (m ++ '\n' :: rest) = m :: lines rest := by
  induction m with
  | nil => simp [lines]
  | cons c cs ih =>
    rw [List.mem_cons, not_or] at h
    rw [List.cons_append, lines, if_neg (fun e => h.1 e.symm), ih h.2]

theorem lines_one (m : List Char) (h : '\n' ∉ m) (hne : m ≠ []) : lines m = [m] := by
  have := topics_shift m h hne
  cases m with
  | nil => exact absurd rfl hne
  | cons c cs =>
    induction cs generalizing c with
    | nil =>
      unfold lines
      rw [if_neg (fun e => h (by rw [e]; exact List.mem_cons_self))]
      rfl
    | cons d ds ih =>
      have h2 : '\n' ∉ d :: ds := fun x => h (List.mem_cons_of_mem _ x)
      have e := ih d h2 (by simp) (topics_shift _ h2 (by simp))
      unfold lines
      rw [if_neg (fun e => h (by rw [e]; exact List.mem_cons_self)), e]

/-- All but the last of the messages, each with its newline, and the last. -/
def joined : List (List Char) → List Char
  | [] => []
  | [m] => m
  | m :: n :: ms => m ++ '\n' :: joined (n :: ms)

theorem combine_joined (acc : List Char) (hacc : acc ≠ []) (ms : List (List Char)) : combine acc (ms.map some) = joined (acc :: ms) := by
  induction ms generalizing acc with
  | nil => rfl
  | cons m ms ih =>
    show combine (if acc = [] then m else acc ++ '\n' :: m) (ms.map some) = _
    rw [if_neg hacc, ih _ (by simp)]
    cases ms with
    | nil => rfl
    | cons n ms => simp [joined]

theorem lines_joined (ms : List (List Char)) (h : ∀ m ∈ ms, '\n' ∉ m ∧ m ≠ []) : lines (joined ms) = ms := by
  induction ms with
  | nil => rfl
  | cons m ms ih =>
    have hm := h m List.mem_cons_self
    cases ms with
    | nil => exact lines_one m hm.1 hm.2
    | cons n ms =>
      show lines (m ++ '\n' :: joined (n :: ms)) = _
      rw [lines_line m _ hm.1, ih (fun x hx => h x (List.mem_cons_of_mem _ hx))]

/-- **C106.** When every topic has a message (of one line, not empty) each line is its topic's. Missing: topics without one. -/
theorem topics_partial (ms : List (List Char)) (h : ∀ m ∈ ms, '\n' ∉ m ∧ m ≠ []) : lines (combine [] (ms.map some)) = ms := by
  cases ms with
  | nil => rfl
  | cons m ms =>
    show lines (combine m (ms.map some)) = _
    rw [combine_joined m (h m List.mem_cons_self).2]
    exact lines_joined _ h

example : lines (combine [] [some "21.5".toList, some "40".toList]) = ["21.5".toList, "40".toList] := by decide
example : classify (fun _ => some (43/2)) "21.5".toList = some (.real (43/2)) := by decide +kernel

end Verif.Parsed
