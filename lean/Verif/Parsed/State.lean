/-!
# C107: states read from files and commands, and the actions they trigger (Linux port)

`/repo/extras/porting/linux/supla/sensor/sensor_parsed.cpp` (SP), `sensor/binary_parsed.cpp` (BP), `control/cmd_relay.cpp` (CR; `custom_relay.cpp`
is the same in what is modelled). What a user is told is in `/repo/extras/examples/linux/README.md` lines 627-636 and 941-965.
-/

namespace Verif.Parsed.State

/-- `std::variant<int, bool, std::string>`. -/
inductive V
  | int (i : Int)
  | bool (b : Bool)
  | text (s : String)
deriving DecidableEq

/-- What a reading finds. -/
inductive Reading
  /-- The source could not be read. -/
  | noSource
  /-- It could, but there is no such value. -/
  | noValue
  | value (v : V)
deriving DecidableEq

/-! ## What is meant -/

/-- README lines 634-636: the values that are always "on". -/
def Standard (v : V) : Prop :=
  v = .int 1 ∨ v = .bool true ∨ v = .text "ON" ∨ v = .text "On" ∨ v = .text "on" ∨ v = .text "Y" ∨ v = .text "YES" ∨ v = .text "Yes" ∨ v = .text "yes"

/-- README lines 627-636: the state (1 on, 0 off, -1 invalid). -/
inductive Means (on : List V) : Reading → Int → Prop
  | noSource : Means on .noSource (-1)
  | noValue : Means on .noValue (-1)
  | invalid : V.int (-1) ∉ on → Means on (.value (.int (-1))) (-1)
  | on (v : V) : v ∈ on ∨ Standard v → Means on (.value v) 1
  | off (v : V) : v ∉ on → ¬ Standard v → v ≠ .int (-1) → Means on (.value v) 0

/-- A history without repetitions. -/
def compress : List Int → List Int
  | [] => []
  | [a] => [a]
  | a :: b :: l => if a = b then compress (b :: l) else a :: compress (b :: l)

/-- README lines 951-965: what is triggered on the way through different values: for each step the action of the change, then that of
what is entered. -/
def triggered (change : Int → Int → Option Nat) (enter : Int → Option Nat) : List Int → List Nat
  | a :: b :: l => (change a b).toList ++ (enter b).toList ++ triggered change enter (b :: l)
  | _ => []

/-! ## The code -/

/-- SP lines 122-124. -/
def isStandard (v : V) : Bool :=
  v == .int 1 || v == .bool true || v == .text "On" || v == .text "ON" || v == .text "on" || v == .text "yes" || v == .text "Y" || v == .text "Yes" || v == .text "YES"

/-- `getStateValue`, SP lines 86-135 (with a configured parameter): the state, and what `setLastValue` is called with. -/
def stateValue (on : List V) : Reading → Int × Option Int
  | .noSource => (-1, none)
  | .noValue => (-1, some (-1))
  | .value v => if on.contains v then (1, some 1) else if isStandard v then (1, some 1) else (0, some 0)

/-- The actions of `setLastState` and `setLastValue`, SP lines 186-203 and 209-225: the new last value and what is sent. The maps are functions. -/
def setLast (change : Int → Int → Option Nat) (enter : Int → Option Nat) (last new : Int) : Int × List Nat :=
  if last ≠ new then (new, (change last new).toList ++ (enter new).toList) else (new, [])

/-- Calls one after the other, oldest first. -/
def calls (change : Int → Int → Option Nat) (enter : Int → Option Nat) (last : Int) : List Int → List Nat
  | [] => []
  | n :: l => (setLast change enter last n).2 ++ calls change enter (setLast change enter last n).1 l

/-- `CmdRelay::isOn`, CR lines 68-86: what is reported, and the state `setLastState` is called with. `none`: no parser. `virtual` is the
relay's own state. -/
def relayIsOn (on : List V) (virtual : Bool) : Option Reading → Bool × Int
  | none => (virtual, 0)
  | some r => (decide ((stateValue on r).1 = 1), if (stateValue on r).1 = 1 then 1 else if (stateValue on r).1 ≠ -1 then 0 else (stateValue on r).1)

/-- `BinaryParsed::getValue`, BP lines 33-46. -/
def binary (on : List V) (r : Reading) : Bool × Int := (decide ((stateValue on r).1 = 1), if (stateValue on r).1 = 1 then 1 else 0)

/-- `CmdRelay::isOffline`, CR lines 102-110, with `offline_on_invalid_state`. -/
def offline (on : List V) (r : Reading) : Bool := decide ((stateValue on r).1 = -1)

/-! ## States -/

theorem isStandard_iff (v : V) : isStandard v = true ↔ Standard v := by
  unfold isStandard Standard
  simp only [Bool.or_eq_true, beq_iff_eq]
  constructor
  · rintro ((((((((h | h) | h) | h) | h) | h) | h) | h) | h) <;> simp [h]
  · rintro (h | h | h | h | h | h | h | h | h) <;> simp [h]

/-- The full claim: every reading is taken for the state the manual says. -/
def StateRead : Prop := ∀ on r s, Means on r s → (stateValue on r).1 = s

/-- **Finding.** The value -1 is "off", not invalid; a relay with it is never offline. -/
theorem state_violation : ¬ StateRead := by
  intro h
  have := h [] (.value (.int (-1))) (-1) (.invalid (by decide))
  revert this
  decide

/-- Such a relay stays online. -/
theorem minus_one_online (on : List V) : offline on (.value (.int (-1))) = false := by
  have : isStandard (.int (-1)) = false := by decide
  have e : (stateValue on (.value (.int (-1)))).1 ≠ -1 := by
    show (if on.contains (V.int (-1)) then ((1 : Int), some (1 : Int)) else if isStandard (V.int (-1)) then (1, some 1) else (0, some 0)).1 ≠ -1
    rw [this]
    cases on.contains (V.int (-1)) <;> decide
  exact decide_eq_false e

/-- **C107.** All others are. Missing: the value -1. -/
theorem state_partial (on : List V) (r : Reading) (s : Int) (hr : r ≠ .value (.int (-1))) (h : Means on r s) : (stateValue on r).1 = s := by
  cases h with
  | noSource => rfl
  | noValue => rfl
  | invalid _ => exact absurd rfl hr
  | on v hv =>
    show (if on.contains v then ((1 : Int), some (1 : Int)) else if isStandard v then (1, some 1) else (0, some 0)).1 = 1
    rcases hv with hv | hv
    · rw [if_pos (by simpa using hv)]
    · rw [(isStandard_iff v).mpr hv]
      split <;> rfl
  | off v h1 h2 h3 =>
    show (if on.contains v then ((1 : Int), some (1 : Int)) else if isStandard v then (1, some 1) else (0, some 0)).1 = 0
    rw [if_neg (by simpa using h1), if_neg (by rw [isStandard_iff]; exact h2)]

/-- Every reading has a meaning, so the claim covers all. -/
theorem means_total (on : List V) (r : Reading) : ∃ s, Means on r s := by
  cases r with
  | noSource => exact ⟨_, .noSource⟩
  | noValue => exact ⟨_, .noValue⟩
  | value v =>
    by_cases h1 : v ∈ on
    · exact ⟨1, .on v (Or.inl h1)⟩
    by_cases h2 : Standard v
    · exact ⟨1, .on v (Or.inr h2)⟩
    by_cases h3 : v = .int (-1)
    · subst h3; exact ⟨-1, .invalid h1⟩
    · exact ⟨0, .off v h1 h2 h3⟩

/-- **C107.** A relay or sensor with a source it cannot read is off, and a relay is offline if asked to. -/
theorem lost (on : List V) (r : Reading) (hr : r = .noSource ∨ r = .noValue) (virtual : Bool) :
    (relayIsOn on virtual (some r)).1 = false ∧ (binary on r).1 = false ∧ offline on r = true := by
  rcases hr with rfl | rfl <;> exact ⟨rfl, rfl, rfl⟩

/-! ## Actions -/

theorem calls_compress (change : Int → Int → Option Nat) (enter : Int → Option Nat) (last : Int) (l : List Int) :
    calls change enter last l = triggered change enter (compress (last :: l)) := by
  induction l generalizing last with
  | nil => rfl
  | cons n l ih =>
    unfold calls setLast compress
    by_cases h : last = n
    · rw [if_neg (fun e => e h), if_pos h, ih]; rfl
    · rw [if_pos h, if_neg h, ih]
      obtain ⟨m, hm⟩ : ∃ m, compress (n :: l) = n :: m := by
        clear ih h
        induction l generalizing n with
        | nil => exact ⟨_, rfl⟩
        | cons k l ih =>
          unfold compress
          split
          · next e => subst e; exact ih n
          · exact ⟨_, rfl⟩
      rw [hm]
      rfl

/-- **C107.** The actions sent over a history of states are those of its changes, in order; repeated readings send nothing. -/
theorem actions (change : Int → Int → Option Nat) (enter : Int → Option Nat) (on : List V) (rs : List Reading) :
    calls change enter (-1) (rs.map fun r => (relayIsOn on false (some r)).2) =
      triggered change enter (compress (-1 :: rs.map fun r => (stateValue on r).1)) := by
  rw [calls_compress]
  congr 2
  apply congrArg
  apply List.map_congr_left
  intro r _
  show (if (stateValue on r).1 = 1 then (1 : Int) else if (stateValue on r).1 ≠ -1 then 0 else (stateValue on r).1) = _
  cases r with
  | noSource => rfl
  | noValue => rfl
  | value v =>
    show (if (if on.contains v then ((1 : Int), some (1 : Int)) else if isStandard v then (1, some 1) else (0, some 0)).1 = 1 then (1 : Int) else if (if on.contains v then ((1 : Int), some (1 : Int)) else if isStandard v then (1, some 1) else (0, some 0)).1 ≠ -1 then 0 else (if on.contains v then ((1 : Int), some (1 : Int)) else if isStandard v then (1, some 1) else (0, some 0)).1) = (if on.contains v then ((1 : Int), some (1 : Int)) else if isStandard v then (1, some 1) else (0, some 0)).1
    cases on.contains v <;> cases isStandard v <;> rfl

/-- The whole numbers a source gives. -/
def ints (is : List Int) : List Reading := is.map fun i => .value (.int i)

/-- What is sent for values: the calls of `setLastValue`. -/
def valueCalls (change : Int → Int → Option Nat) (enter : Int → Option Nat) (on : List V) (rs : List Reading) : List Nat :=
  calls change enter (-1) (rs.filterMap fun r => (stateValue on r).2)

/-- The full claim (README lines 932, 944-946, 954-959): actions of values are triggered by the values that are read. -/
def ValueActions : Prop := ∀ change enter on is, valueCalls change enter on (ints is) = triggered change enter (compress (-1 :: is))

/-- **Finding.** They are triggered by the state instead: an action for the value 5 is never sent. -/
theorem values_violation : ¬ ValueActions := by
  intro h
  have := h (fun _ _ => none) (fun n => if n = 5 then some 2 else none) [] [5]
  revert this
  decide

theorem calls_none (change : Int → Int → Option Nat) (enter : Int → Option Nat) (he : ∀ n, n = -1 ∨ n = 0 ∨ n = 1 → enter n = none) (hc : ∀ a n, n = -1 ∨ n = 0 ∨ n = 1 → change a n = none)
    (l : List Int) (hl : ∀ n ∈ l, n = -1 ∨ n = 0 ∨ n = 1) (last : Int) : calls change enter last l = [] := by
  induction l generalizing last with
  | nil => rfl
  | cons n l ih =>
    have h := hl n List.mem_cons_self
    unfold calls setLast
    rw [ih (fun m hm => hl m (List.mem_cons_of_mem _ hm)), hc last n h, he n h]
    split <;> rfl

/-- No action for another value than -1, 0 and 1 is ever sent, whatever is read. -/
theorem values_never (change : Int → Int → Option Nat) (enter : Int → Option Nat) (he : ∀ n, n = -1 ∨ n = 0 ∨ n = 1 → enter n = none)
    (hc : ∀ a n, n = -1 ∨ n = 0 ∨ n = 1 → change a n = none) (on : List V) (rs : List Reading) : valueCalls change enter on rs = [] := by
  apply calls_none change enter he hc
  intro n hn
  obtain ⟨r, _, hr⟩ := List.mem_filterMap.mp hn
  cases r with
  | noSource => cases hr
  | noValue => exact Or.inl (Option.some.inj hr).symm
  | value v =>
    have hr : (if on.contains v then ((1 : Int), some (1 : Int)) else if isStandard v then (1, some 1) else (0, some 0)).2 = some n := hr
    have hh : n = 0 ∨ n = 1 := by
      generalize on.contains v = a at hr
      generalize isStandard v = b at hr
      cases a <;> cases b
      · exact Or.inl (Option.some.inj hr).symm
      · exact Or.inr (Option.some.inj hr).symm
      · exact Or.inr (Option.some.inj hr).symm
      · exact Or.inr (Option.some.inj hr).symm
    exact Or.inr hh

/-- **C107.** Values 0 and 1 trigger theirs. Missing: all others. -/
theorem values_partial (change : Int → Int → Option Nat) (enter : Int → Option Nat) (is : List Int) (h : ∀ i ∈ is, i = 0 ∨ i = 1) :
    valueCalls change enter [] (ints is) = triggered change enter (compress (-1 :: is)) := by
  unfold valueCalls
  rw [calls_compress]
  congr 2
  apply congrArg
  induction is with
  | nil => rfl
  | cons i is ih =>
    have e : (stateValue [] (.value (.int i))).2 = some i := by
      rcases h i List.mem_cons_self with rfl | rfl <;> decide
    show List.filterMap _ (.value (.int i) :: ints is) = _
    rw [List.filterMap_cons, e]
    exact congrArg (List.cons i) (ih (fun j hj => h j (List.mem_cons_of_mem _ hj)))

/-- The full claim: the state that triggers actions is the state that is reported. -/
def StateReported : Prop := ∀ on virtual r, (relayIsOn on virtual r).2 = 1 ↔ (relayIsOn on virtual r).1 = true

/-- **Finding.** For a relay without a source it is always 0. -/
theorem reported_violation : ¬ StateReported := by
  intro h
  exact absurd ((h [] true none).mpr rfl) (by decide)

/-- **C107.** With a source it is. Missing: relays without. -/
theorem reported_partial (on : List V) (virtual : Bool) (r : Reading) :
    ((relayIsOn on virtual (some r)).2 = 1 ↔ (relayIsOn on virtual (some r)).1 = true) ∧ ((binary on r).2 = 1 ↔ (binary on r).1 = true) := by
  unfold relayIsOn binary
  dsimp only
  generalize (stateValue on r).1 = s
  constructor
  · by_cases h : s = 1
    · simp [h]
    · rw [if_neg h]
      simp only [h, decide_false, Bool.false_eq_true, iff_false]
      split <;> omega
  · by_cases h : s = 1
    · simp [h]
    · simp [h]

example : Means [.text "connect"] (.value (.text "connect")) 1 := .on _ (Or.inl (by decide))
example : calls (fun _ _ => none) (fun n => if n = 1 then some 3 else none) (-1) [0, 1, 1, 0, 1] = [3, 3] := by decide

end Verif.Parsed.State
