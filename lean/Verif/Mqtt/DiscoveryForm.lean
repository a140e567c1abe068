import Verif.Mqtt.Discovery
import Verif.Mqtt.StateProps
import Verif.Mqtt.Command

/-!
# Discovery documents: JSON and the specification of what home automation does with them
-/

namespace Verif.Mqtt.Discovery

open Verif.Mqtt Verif.Tools

/-! ## Specification: documents in JSON -/

/-- A value of a member; strings are lists of `α`, `lit` is a number or a word. -/
inductive J (α : Type)
  | str (s : List α)
  | lit (s : List α)
  | obj (ms : List (List Nat × List α))
  | arr (xs : List (List α))
deriving DecidableEq, Repr

/-- A member; `gap` says that there is a blank behind the colon. -/
structure Mem (α : Type) where
  key : List Nat
  gap : Bool
  val : J α
deriving DecidableEq, Repr

/-- RFC 8259, 7: quotation mark and backslash are written with a backslash. -/
def esc (s : List Nat) : List Nat := s.flatMap (fun c => if c = 34 ∨ c = 92 then [92, c] else [c])

/-- A string. -/
def quoted (s : List Nat) : List Nat := [34] ++ esc s ++ [34]

/-- Parts with commas between them. -/
def commas {α : Type} (c : α) : List (List α) → List α
  | [] => []
  | [x] => x
  | x :: y :: r => x ++ [c] ++ commas c (y :: r)

/-- RFC 8259, 3 to 5. -/
def value : J Nat → List Nat
  | .str s => quoted s
  | .lit s => s
  | .obj ms => [123] ++ commas 44 (ms.map (fun m => quoted m.1 ++ [58] ++ quoted m.2)) ++ [125]
  | .arr xs => [91] ++ commas 44 (xs.map quoted) ++ [93]

/-- A member as text. -/
def member (m : Mem Nat) : List Nat := quoted m.key ++ [58] ++ (if m.gap then [32] else []) ++ value m.val

/-- The text of an object. -/
def object (ms : List (Mem Nat)) : List Nat := [123] ++ commas 44 (ms.map member) ++ [125]

/-- RFC 8259, 7: no control characters. -/
def Printable (s : List Nat) : Prop := ∀ c ∈ s, 32 ≤ c

/-- A value that is allowed: strings without control characters; words and decimal numbers. -/
def Valid : J Nat → Prop
  | .str s => Printable s
  | .lit s => s = codes "true" ∨ s = codes "false" ∨ s = codes "null" ∨ ∃ n, s = decimalText n
  | .obj ms => ∀ m ∈ ms, Printable m.1 ∧ Printable m.2
  | .arr xs => ∀ x ∈ xs, Printable x

/-- `ms` is the content of the document `t`: its text, allowed values, no key twice. -/
def Content (t : List Nat) (ms : List (Mem Nat)) : Prop :=
  t = object ms ∧ (∀ m ∈ ms, Printable m.key ∧ Valid m.val) ∧ (ms.map (·.key)).Nodup

/-- The texts of the device that can be put into a string as they are. -/
def Clean (v : Nat → List Nat) : Prop :=
  (∀ i, ∀ c ∈ v i, 32 ≤ c ∧ c ≠ 34 ∧ c ≠ 92) ∧ ∃ n, v 7 = decimalText n

/-! ## Documents with holes -/

/-- The same renderer for texts with holes. -/
def escP (s : List Piece) : List Piece := s.flatMap (fun c => if c = .ch 34 ∨ c = .ch 92 then [.ch 92, c] else [c])

def quotedP (s : List Piece) : List Piece := [.ch 34] ++ escP s ++ [.ch 34]

def valueP : J Piece → List Piece
  | .str s => quotedP s
  | .lit s => s
  | .obj ms => [.ch 123] ++ commas (.ch 44) (ms.map (fun m => quotedP (m.1.map .ch) ++ [.ch 58] ++ quotedP m.2)) ++ [.ch 125]
  | .arr xs => [.ch 91] ++ commas (.ch 44) (xs.map quotedP) ++ [.ch 93]

def memberP (m : Mem Piece) : List Piece := quotedP (m.key.map .ch) ++ [.ch 58] ++ (if m.gap then [.ch 32] else []) ++ valueP m.val

def objectP (ms : List (Mem Piece)) : List Piece := [.ch 123] ++ commas (.ch 44) (ms.map memberP) ++ [.ch 125]

def instJ (v : Nat → List Nat) : J Piece → J Nat
  | .str s => .str (inst v s)
  | .lit s => .lit (inst v s)
  | .obj ms => .obj (ms.map (fun m => (m.1, inst v m.2)))
  | .arr xs => .arr (xs.map (inst v))

def instM (v : Nat → List Nat) (m : Mem Piece) : Mem Nat := ⟨m.key, m.gap, instJ v m.val⟩

theorem inst_append (v : Nat → List Nat) (a b : List Piece) : inst v (a ++ b) = inst v a ++ inst v b := by
  induction a with
  | nil => rfl
  | cons x a ih =>
    cases x with
    | ch c => simp [inst, ih]
    | hole i => simp [inst, ih]

theorem inst_chars (v : Nat → List Nat) (l : List Nat) : inst v (l.map .ch) = l := by
  induction l with
  | nil => rfl
  | cons x l ih => simp [inst, ih]

theorem inst_commas (v : Nat → List Nat) (c : Nat) : ∀ l : List (List Piece), inst v (commas (.ch c) l) = commas c (l.map (inst v))
  | [] => rfl
  | [x] => rfl
  | x :: y :: r => by
    have := inst_commas v c (y :: r)
    simp only [commas, inst_append, this, List.map_cons]
    rfl

theorem esc_clean (s : List Nat) (h : ∀ c ∈ s, 32 ≤ c ∧ c ≠ 34 ∧ c ≠ 92) : esc s = s := by
  unfold esc
  induction s with
  | nil => rfl
  | cons x s ih =>
    have hx := h x (List.mem_cons_self ..)
    rw [List.flatMap_cons, ih (fun c hc => h c (List.mem_cons_of_mem _ hc)), if_neg (by omega)]
    rfl

theorem esc_append (a b : List Nat) : esc (a ++ b) = esc a ++ esc b := by simp [esc]

theorem inst_esc (v : Nat → List Nat) (hv : Clean v) (s : List Piece) : inst v (escP s) = esc (inst v s) := by
  unfold escP
  induction s with
  | nil => rfl
  | cons x s ih =>
    rw [List.flatMap_cons, inst_append, ih]
    cases x with
    | ch c =>
      show _ = esc (c :: inst v s)
      have : esc (c :: inst v s) = (if c = 34 ∨ c = 92 then [92, c] else [c]) ++ esc (inst v s) := by simp [esc]
      rw [this]
      congr 1
      by_cases h : c = 34 ∨ c = 92
      · rw [if_pos h, if_pos (by simpa using h)]; rfl
      · rw [if_neg h, if_neg (by simpa using h)]; rfl
    | hole i =>
      show _ = esc (v i ++ inst v s)
      rw [esc_append, esc_clean (v i) (hv.1 i)]
      congr 1
      rw [if_neg (by simp)]
      simp [inst]

theorem inst_quoted (v : Nat → List Nat) (hv : Clean v) (s : List Piece) : inst v (quotedP s) = quoted (inst v s) := by
  unfold quotedP quoted
  rw [inst_append, inst_append, inst_esc v hv]
  rfl

theorem inst_value (v : Nat → List Nat) (hv : Clean v) (j : J Piece) : inst v (valueP j) = value (instJ v j) := by
  cases j with
  | str s => exact inst_quoted v hv s
  | lit s => rfl
  | obj ms =>
    simp only [valueP, value, instJ, inst_append, inst_commas, List.map_map]
    have : (inst v ∘ fun m : List Nat × List Piece => quotedP (m.1.map .ch) ++ [.ch 58] ++ quotedP m.2) =
        ((fun m => quoted m.1 ++ [58] ++ quoted m.2) ∘ fun m : List Nat × List Piece => (m.1, inst v m.2)) := by
      funext m
      simp only [Function.comp, inst_append, inst_quoted v hv, inst_chars]
      rfl
    rw [this]
    rfl
  | arr xs =>
    simp only [valueP, value, instJ, inst_append, inst_commas, List.map_map]
    have : (inst v ∘ quotedP) = (quoted ∘ inst v) := by
      funext s
      exact inst_quoted v hv s
    rw [this]
    rfl

theorem inst_object (v : Nat → List Nat) (hv : Clean v) (ms : List (Mem Piece)) : inst v (objectP ms) = object (ms.map (instM v)) := by
  unfold objectP object
  simp only [inst_append, inst_commas, List.map_map]
  have : (inst v ∘ memberP) = (member ∘ instM v) := by
    funext m
    obtain ⟨k, g, j⟩ := m
    simp only [Function.comp, memberP, member, instM, inst_append, inst_quoted v hv, inst_value v hv, inst_chars]
    cases g <;> rfl
  rw [this]
  rfl

/-! ## Reading the documents back

These functions only find the members; `template_object` checks the result. -/

/-- The rest of a string and what is behind it. -/
def strP : List Piece → List Piece × List Piece
  | [] => ([], [])
  | x :: r =>
    if x = .ch 34 then ([], r)
    else if x = .ch 92 then
      match r with
      | [] => ([], [])
      | y :: r => (y :: (strP r).1, (strP r).2)
    else (x :: (strP r).1, (strP r).2)

/-- A number or word and what is behind it. -/
def litP (l : List Piece) : List Piece × List Piece :=
  (l.takeWhile (fun c => c != .ch 44 && c != .ch 125), l.dropWhile (fun c => c != .ch 44 && c != .ch 125))

def codesOf (l : List Piece) : List Nat := l.filterMap (fun p => match p with | .ch c => some c | .hole _ => none)

/-- Strings up to the closing bracket. -/
def arrP : Nat → List Piece → List (List Piece) × List Piece
  | 0, l => ([], l)
  | n + 1, l =>
    if l.head? = some (.ch 34) then ((strP (l.drop 1)).1 :: (arrP n (strP (l.drop 1)).2).1, (arrP n (strP (l.drop 1)).2).2)
    else if l.head? = some (.ch 44) then arrP n (l.drop 1)
    else ([], l.drop 1)

/-- Members with string values up to the closing brace. -/
def objP : Nat → List Piece → List (List Nat × List Piece) × List Piece
  | 0, l => ([], l)
  | n + 1, l =>
    if l.head? = some (.ch 34) then
      ((codesOf (strP (l.drop 1)).1, (strP ((strP (l.drop 1)).2.drop 2)).1) :: (objP n (strP ((strP (l.drop 1)).2.drop 2)).2).1,
        (objP n (strP ((strP (l.drop 1)).2.drop 2)).2).2)
    else if l.head? = some (.ch 44) then objP n (l.drop 1)
    else ([], l.drop 1)

/-- A value and what is behind it. -/
def valP (l : List Piece) : J Piece × List Piece :=
  if l.head? = some (.ch 34) then (.str (strP (l.drop 1)).1, (strP (l.drop 1)).2)
  else if l.head? = some (.ch 123) then (.obj (objP 20 (l.drop 1)).1, (objP 20 (l.drop 1)).2)
  else if l.head? = some (.ch 91) then (.arr (arrP 20 (l.drop 1)).1, (arrP 20 (l.drop 1)).2)
  else (.lit (litP l).1, (litP l).2)

/-- The members from here on. -/
def memsP : Nat → List Piece → List (Mem Piece)
  | 0, _ => []
  | n + 1, l =>
    if l.head? = some (.ch 34) then
      ⟨codesOf (strP (l.drop 1)).1, decide (((strP (l.drop 1)).2.drop 1).head? = some (.ch 32)),
        (valP (((strP (l.drop 1)).2.drop 1).dropWhile (· == .ch 32))).1⟩ ::
      memsP n (valP (((strP (l.drop 1)).2.drop 1).dropWhile (· == .ch 32))).2
    else if l.head? = some (.ch 44) then memsP n (l.drop 1)
    else []

/-- The members of a document. -/
def mems (d : Doc) : List (Mem Piece) := memsP 100 ((template d).drop 1)

set_option maxRecDepth 100000 in
theorem template_object : ∀ d ∈ docs, template d = objectP (mems d) := by decide +kernel

/-- Allowed values, with holes in strings and the number of seconds as a literal. -/
def validP : J Piece → Bool
  | .str s => s.all (fun c => match c with | .ch c => decide (32 ≤ c) | .hole _ => true)
  | .lit s => s == (codes "true").map .ch || s == (codes "false").map .ch || s == (codes "null").map .ch || s == [.hole 7] ||
      s == [.ch 48] || s == [.ch 49, .ch 48, .ch 48]
  | .obj ms => ms.all (fun m => m.1.all (fun c => decide (32 ≤ c)) && m.2.all (fun c => match c with | .ch c => decide (32 ≤ c) | .hole _ => true))
  | .arr xs => xs.all (fun s => s.all (fun c => match c with | .ch c => decide (32 ≤ c) | .hole _ => true))

set_option maxRecDepth 100000 in
theorem mems_valid : ∀ d ∈ docs, (∀ m ∈ mems d, m.key.all (fun c => decide (32 ≤ c)) = true ∧ validP m.val = true) ∧ ((mems d).map (·.key)).Nodup := by
  decide +kernel

theorem printable_inst (v : Nat → List Nat) (hv : Clean v) (s : List Piece)
    (h : s.all (fun c => match c with | .ch c => decide (32 ≤ c) | .hole _ => true) = true) : Printable (inst v s) := by
  induction s with
  | nil => intro c hc; cases hc
  | cons x s ih =>
    rw [List.all_cons, Bool.and_eq_true] at h
    cases x with
    | ch c =>
      intro k hk
      rcases List.mem_cons.mp hk with rfl | hk
      · exact of_decide_eq_true h.1
      · exact ih h.2 k hk
    | hole i =>
      intro k hk
      rcases List.mem_append.mp hk with hk | hk
      · exact (hv.1 i k hk).1
      · exact ih h.2 k hk

theorem valid_inst (v : Nat → List Nat) (hv : Clean v) (j : J Piece) (h : validP j = true) : Valid (instJ v j) := by
  cases j with
  | str s => exact printable_inst v hv s h
  | lit s =>
    show inst v s = _ ∨ inst v s = _ ∨ inst v s = _ ∨ ∃ n, inst v s = decimalText n
    simp only [validP, Bool.or_eq_true, beq_iff_eq] at h
    rcases h with ((((h | h) | h) | h) | h) | h
    · left; rw [h]; exact inst_chars v _
    · right; left; rw [h]; exact inst_chars v _
    · right; right; left; rw [h]; exact inst_chars v _
    · right; right; right
      obtain ⟨n, hn⟩ := hv.2
      exact ⟨n, by rw [h, ← hn]; simp [inst]⟩
    · right; right; right; exact ⟨0, by rw [h]; show [48] = _; decide +kernel⟩
    · right; right; right; exact ⟨100, by rw [h]; show [49, 48, 48] = _; decide +kernel⟩
  | obj ms =>
    intro m hm
    obtain ⟨x, hx, rfl⟩ := List.mem_map.mp hm
    have := List.all_eq_true.mp h x hx
    rw [Bool.and_eq_true] at this
    exact ⟨fun c hc => of_decide_eq_true (List.all_eq_true.mp this.1 c hc), printable_inst v hv _ this.2⟩
  | arr xs =>
    intro m hm
    obtain ⟨x, hx, rfl⟩ := List.mem_map.mp hm
    exact printable_inst v hv _ (List.all_eq_true.mp h x hx)

theorem content (d : Doc) (hd : d ∈ docs) (v : Nat → List Nat) (hv : Clean v) : Content (text d v) ((mems d).map (instM v)) := by
  refine ⟨?_, ?_, ?_⟩
  · unfold text
    rw [template_object d hd, inst_object v hv]
  · intro m hm
    obtain ⟨x, hx, rfl⟩ := List.mem_map.mp hm
    have := (mems_valid d hd).1 x hx
    exact ⟨fun c hc => of_decide_eq_true (List.all_eq_true.mp this.1 c hc), valid_inst v hv _ this.2⟩
  · rw [List.map_map]
    exact (mems_valid d hd).2

/-! ## Which documents there are -/

/-- The values of a meter are numbered from 1 to 40. -/
def Wf : Chan → Prop
  | .meter ids => ∀ i ∈ ids, 1 ≤ i ∧ i ≤ 40
  | _ => True

set_option maxRecDepth 100000 in
theorem meter_docs : ∀ i < 40, Doc.meter (i + 1) ∈ docs := by decide +kernel

set_option maxRecDepth 100000 in
theorem trigger_docs : ∀ i < 8, Doc.trigger i ∈ docs := by decide +kernel

theorem relayDoc_docs (f : Nat) : relayDoc f ∈ docs := by
  unfold relayDoc
  split
  · decide +kernel
  split
  · decide +kernel
  split
  · decide +kernel
  · decide +kernel

theorem shutterDoc_docs (f : Nat) : Doc.shutter (shutterClass f) (f == 940 || f == 900) ∈ docs := by
  unfold shutterClass
  by_cases h1 : f = 115
  · subst h1; decide +kernel
  by_cases h2 : f = 910
  · subst h2; decide +kernel
  by_cases h3 : f = 950
  · subst h3; decide +kernel
  by_cases h4 : f = 930
  · subst h4; decide +kernel
  by_cases h5 : f = 920
  · subst h5; decide +kernel
  rw [if_neg h1, if_neg h2, if_neg h3, if_neg h4, if_neg h5]
  generalize (f == 940 || f == 900) = b
  revert b
  decide +kernel

theorem binaryDoc_docs (f : Nat) : Doc.binary (binaryClass f) (openClosed f) ∈ docs := by
  by_cases h1 : f = 50
  · subst h1; decide +kernel
  by_cases h2 : f = 100
  · subst h2; decide +kernel
  by_cases h3 : f = 60
  · subst h3; decide +kernel
  by_cases h4 : f = 70
  · subst h4; decide +kernel
  by_cases h5 : f = 80
  · subst h5; decide +kernel
  by_cases h6 : f = 120
  · subst h6; decide +kernel
  by_cases h7 : f = 125
  · subst h7; decide +kernel
  by_cases h8 : f = 230
  · subst h8; decide +kernel
  have e1 : binaryClass f = .none := by
    unfold binaryClass
    rw [if_neg (by omega), if_neg (by omega), if_neg (by omega), if_neg (by omega)]
  have e2 : openClosed f = false := by
    unfold openClosed
    simp only [beq_eq_false_iff_ne, Bool.or_eq_false_iff, ne_eq]
    omega
  rw [e1, e2]
  decide +kernel

theorem docsOf_docs (c : Chan) (hc : Wf c) (d : Doc) (hd : d ∈ docsOf c) : d ∈ docs := by
  cases c with
  | relay f => rw [List.mem_singleton.mp hd]; exact relayDoc_docs f
  | shutter f => rw [List.mem_singleton.mp hd]; exact shutterDoc_docs f
  | thermometer => rw [List.mem_singleton.mp hd]; decide +kernel
  | climate =>
    have : ∀ d ∈ docsOf .climate, d ∈ docs := by decide +kernel
    exact this d hd
  | trigger caps =>
    obtain ⟨i, hi, rfl⟩ := List.mem_map.mp hd
    exact trigger_docs i (List.mem_range.mp (List.mem_filter.mp hi).1)
  | meter ids =>
    obtain ⟨i, hi, rfl⟩ := List.mem_map.mp hd
    have := hc i hi
    have e := meter_docs (i - 1) (by omega)
    rw [show i - 1 + 1 = i by omega] at e
    exact e
  | dimmer => rw [List.mem_singleton.mp hd]; decide +kernel
  | rgb => rw [List.mem_singleton.mp hd]; decide +kernel
  | rgbw =>
    have : ∀ d ∈ docsOf .rgbw, d ∈ docs := by decide +kernel
    exact this d hd
  | hvac b c =>
    rw [List.mem_singleton.mp hd]
    have : ∀ b c, Doc.hvac b c ∈ docs := by decide +kernel
    exact this b c
  | binary f => rw [List.mem_singleton.mp hd]; exact binaryDoc_docs f
  | other => cases hd

/-! ## Specification: topics and payloads -/

/-- The value of the member "~". -/
def baseOf (ms : List (Mem Nat)) : List Nat :=
  match (ms.find? (fun m => m.key == codes "~")).map Mem.val with
  | some (J.str b) => b
  | _ => []

/-- Home Assistant, MQTT discovery: "~" at the beginning of a topic stands for the value of the member "~". -/
def resolved (ms : List (Mem Nat)) (s : List Nat) : List Nat := if s.head? = some 126 then baseOf ms ++ s.drop 1 else s

/-- The member `key` names the topic `t`. -/
def Names (ms : List (Mem Nat)) (key t : List Nat) : Prop := ∃ m ∈ ms, m.key = key ∧ ∃ s, m.val = .str s ∧ t = resolved ms s

/-- The member `key` is the text `s`. -/
def Text (ms : List (Mem Nat)) (key s : List Nat) : Prop := ∃ m ∈ ms, m.key = key ∧ m.val = .str s

/-- Keys of topics home automation reads. -/
def stateKeys : List (List Nat) :=
  [codes "stat_t", codes "pos_t", codes "tilt_status_t", codes "bri_stat_t", codes "rgb_stat_t", codes "action_topic",
   codes "mode_stat_t", codes "temperature_state_topic", codes "temperature_high_state_topic", codes "temperature_low_state_topic"]

/-- Keys of topics home automation writes to. -/
def commandKeys : List (List Nat) :=
  [codes "cmd_t", codes "set_pos_t", codes "tilt_cmd_t", codes "bri_cmd_t", codes "rgb_cmd_t", codes "mode_command_topic",
   codes "power_command_topic", codes "temperature_command_topic", codes "temperature_high_command_topic",
   codes "temperature_low_command_topic"]

/-- The topic of a message about the state of channel `n`. -/
def stateTopic (pre : List Nat) (n : Nat) (what : String) : List Nat :=
  documented pre n (codes "state" ++ if txt what = [] then [] else [47] ++ txt what)

/-- A meter that measures everything. -/
def Complete (m : State.Meter) : Prop :=
  (m.totals.length = 4 ∧ ∀ x ∈ m.totals, x.isSome = true) ∧ m.phases.length = 3 ∧
    ∀ p ∈ m.phases, p.1 = true ∧ p.2.length = 12 ∧ ∀ x ∈ p.2, x.isSome = true

/-- A value a channel can have, without failed measurements. -/
def Fits : Chan → State.Reading → Prop
  | .relay f, r => if f = 20 ∨ f = 30 ∨ f = 90 ∨ f = 10 then ∃ on, r = .impulse on else ∃ on, r = .relay on
  | .shutter f, r => if f = 940 ∨ f = 900 then ∃ p t, r = .blind p t else ∃ p, r = .shutter p
  | .thermometer, r => ∃ t, r = .thermometer t ∧ t > -273
  | .climate, r => ∃ t h, r = .climate t h ∧ t > -273000 ∧ h ≥ 0
  | .trigger _, r => r = .other
  | .meter _, r => ∃ m, r = .meter m ∧ Complete m
  | .dimmer, r => ∃ b, r = .dimmer b
  | .rgb, r => ∃ cb red g b, r = .rgb cb red g b
  | .rgbw, r => ∃ w cb red g b, r = .rgbw w cb red g b
  | .hvac both cool, r => ∃ heating cooling weekly mode lo hi, r = .hvac both cool heating cooling weekly mode lo hi
  | .binary f, r => if openClosed f = true then ∃ on, r = .opening on else ∃ on, r = .binary on
  | .other, _ => False

/-- How MQTT commands see the channel. -/
def kindOf : Chan → Kind
  | .relay _ => .relay
  | .shutter _ => .shutter
  | .dimmer => .dimmer
  | .rgb => .rgb
  | .rgbw => .rgbw
  | .hvac _ cool => .hvac cool
  | _ => .other

/-! ## Lemmas -/

theorem baseOf_inst (v : Nat → List Nat) (l : List (Mem Piece)) (b : List Piece)
    (h : (l.find? (fun m => m.key == codes "~")).map Mem.val = some (.str b)) : baseOf (l.map (instM v)) = inst v b := by
  unfold baseOf
  rw [List.find?_map]
  have e : ((fun m : Mem Nat => m.key == codes "~") ∘ instM v) = (fun m : Mem Piece => m.key == codes "~") := rfl
  rw [e]
  cases hf : l.find? (fun m => m.key == codes "~") with
  | none => rw [hf] at h; cases h
  | some m =>
    rw [hf] at h
    have : m.val = .str b := by simpa using h
    simp [instM, this, instJ]

/-- Documents with the member "~". -/
def hasBase : Doc → Bool
  | .trigger _ => false
  | _ => true

/-- The topics behind ".../state" a document may name. -/
def topicsOf : Doc → List (List Nat)
  | .binary _ _ => [[]]
  | .impulse _ => [codes "on"]
  | .relay => [codes "on"]
  | .shutter _ true => [codes "shut", codes "tilt"]
  | .shutter _ false => [codes "shut"]
  | .thermometer => [codes "temperature"]
  | .humidity => [codes "humidity"]
  | .trigger _ => []
  | .meter id => [phasePart (phaseOf id) ++ (meterRow id).1]
  | .rgb s => [if s then codes "rgb/on" else codes "on", codes "color_brightness", codes "color"]
  | .dimmer s => [if s then codes "dimmer/on" else codes "on", codes "brightness"]
  | .hvac _ _ => [codes "action", codes "mode", codes "temperature_setpoint"]

/-- Documents whose topics are all right. -/
def sound (d : Doc) : Bool := d != .meter 3 && d != .meter 4 && d != .hvac true false && d != .hvac true true

set_option maxRecDepth 100000 in
theorem base_ok : ∀ d ∈ docs, hasBase d = true → ((mems d).find? (fun m => m.key == codes "~")).map Mem.val =
    some (.str ([.hole 0] ++ (codes "/channels/").map .ch ++ [.hole 1])) := by decide +kernel

/-- How a state topic looks in the document. -/
def stateText (w : List Nat) : List Nat := codes "~/state" ++ if w = [] then [] else [47] ++ w

set_option maxRecDepth 100000 in
theorem state_keys_ok : ∀ d ∈ docs, sound d = true → ∀ m ∈ mems d, m.key ∈ stateKeys →
    ∃ w ∈ topicsOf d, m.val = .str ((stateText w).map .ch) := by decide +kernel

set_option maxRecDepth 100000 in
theorem state_key_exists : ∀ d ∈ docs, hasBase d = true → ∃ m ∈ mems d, m.key ∈ stateKeys := by decide +kernel

theorem txt_append (a b : String) : txt (a ++ b) = txt a ++ txt b := by simp [txt]

theorem inst_resolved (v : Nat → List Nat) (d : Doc) (hd : d ∈ docs) (hb : hasBase d = true) (n : Nat) (hn : v 1 = decimalText n) (w : List Nat) :
    resolved ((mems d).map (instM v)) (126 :: 47 :: w) = documented (v 0) n w := by
  unfold resolved documented
  rw [baseOf_inst v _ _ (base_ok d hd hb), if_pos (show (126 :: 47 :: w).head? = some 126 from rfl), inst_append, inst_append, inst_chars]
  have : txt "/channels/" = codes "/channels/" := by decide +kernel
  rw [this, ← hn]
  simp [inst]

/-- The topics behind "~/" a document may tell to write to. -/
def commandsOf : Doc → List (List Nat)
  | .impulse _ => [codes "set/on"]
  | .relay => [codes "set/on"]
  | .shutter _ true => [codes "execute_action", codes "set/closing_percentage", codes "set/tilt"]
  | .shutter _ false => [codes "execute_action", codes "set/closing_percentage"]
  | .rgb s => [if s then codes "execute_action/rgb" else codes "execute_action", codes "set/color_brightness", codes "set/color"]
  | .dimmer s => [if s then codes "execute_action/dimmer" else codes "execute_action", codes "set/brightness"]
  | .hvac _ _ => [codes "execute_action", codes "set/temperature_setpoint"]
  | _ => []

set_option maxRecDepth 100000 in
theorem command_keys_ok : ∀ d ∈ docs, (∀ cool, d ≠ .hvac true cool) → ∀ m ∈ mems d, m.key ∈ commandKeys →
    ∃ w ∈ commandsOf d, m.val = .str ((codes "~/" ++ w).map .ch) := by decide +kernel

/-- Payloads in a document: key, key of the topic, payload, topic behind "~/", and what it has to do. -/
def offers : Doc → List (List Nat × List Nat × List Nat × List Nat × Cmd)
  | .impulse _ => [(codes "payload_open", codes "cmd_t", codes "true", codes "set/on", .bytes [(0, 1)])]
  | .relay => [(codes "pl_on", codes "cmd_t", codes "true", codes "set/on", .bytes [(0, 1)]),
      (codes "pl_off", codes "cmd_t", codes "false", codes "set/on", .bytes [(0, 0)])]
  | .shutter _ _ => [(codes "pl_open", codes "cmd_t", codes "REVEAL", codes "execute_action", .bytes [(0, 10), (1, -1)]),
      (codes "pl_cls", codes "cmd_t", codes "SHUT", codes "execute_action", .bytes [(0, 110), (1, -1)]),
      (codes "pl_stop", codes "cmd_t", codes "STOP", codes "execute_action", .bytes [(0, 0), (1, -1)])]
  | .rgb s => [(codes "pl_on", codes "cmd_t", codes "TURN_ON", if s then codes "execute_action/rgb" else codes "execute_action", .bytes [(6, 4)]),
      (codes "pl_off", codes "cmd_t", codes "TURN_OFF", if s then codes "execute_action/rgb" else codes "execute_action", .bytes [(6, 5)])]
  | .dimmer s => [(codes "pl_on", codes "cmd_t", codes "TURN_ON", if s then codes "execute_action/dimmer" else codes "execute_action", .bytes [(6, 1)]),
      (codes "pl_off", codes "cmd_t", codes "TURN_OFF", if s then codes "execute_action/dimmer" else codes "execute_action", .bytes [(6, 2)])]
  | .hvac _ _ => [(codes "payload_on", codes "power_command_topic", codes "turn_on", codes "execute_action", .mode 8),
      (codes "payload_off", codes "power_command_topic", codes "turn_off", codes "execute_action", .mode 1)]
  | _ => []

set_option maxRecDepth 100000 in
theorem offers_ok : ∀ d ∈ docs, ∀ x ∈ offers d, (⟨x.1, false, .str (x.2.2.1.map .ch)⟩ : Mem Piece) ∈ mems d ∧
    (⟨x.2.1, false, .str ((codes "~/" ++ x.2.2.2.1).map .ch)⟩ : Mem Piece) ∈ mems d := by decide +kernel

set_option maxRecDepth 100000 in
theorem avail_ok : ∀ d ∈ docs, hasBase d = true →
    (⟨codes "avty_t", false, .str ([.hole 0] ++ (codes "/state/connected").map .ch)⟩ : Mem Piece) ∈ mems d ∧
    (⟨codes "pl_avail", false, .str ((codes "true").map .ch)⟩ : Mem Piece) ∈ mems d ∧
    (⟨codes "pl_not_avail", false, .str ((codes "false").map .ch)⟩ : Mem Piece) ∈ mems d := by decide +kernel

/-- The modes of thermostats. -/
def modesOf (both cool : Bool) : List (List Nat) :=
  [codes "off", codes "auto"] ++ if both then [codes "heat", codes "cool", codes "heat_cool"] else if cool then [codes "cool"] else [codes "heat"]

set_option maxRecDepth 100000 in
theorem modes_ok : ∀ both cool, (⟨codes "modes", false, .arr ((modesOf both cool).map (·.map .ch))⟩ : Mem Piece) ∈ mems (.hvac both cool) ∧
    (⟨codes "mode_command_topic", false, .str ((codes "~/execute_action").map .ch)⟩ : Mem Piece) ∈ mems (.hvac both cool) := by decide +kernel

/-- Classes with which binary sensors are published. -/
def binaries : List (Cla × Bool) := [(.none, false), (.door, true), (.garage, true), (.window, true), (.moisture, false)]

set_option maxRecDepth 100000 in
theorem binary_words_ok : ∀ x ∈ binaries,
    if x.2 = true then (⟨codes "payload_on", false, .str ((codes "open").map .ch)⟩ : Mem Piece) ∈ mems (.binary x.1 x.2) ∧
      (⟨codes "payload_off", false, .str ((codes "closed").map .ch)⟩ : Mem Piece) ∈ mems (.binary x.1 x.2)
    else ∀ m ∈ mems (.binary x.1 x.2), m.key ≠ codes "payload_on" ∧ m.key ≠ codes "payload_off" := by decide +kernel

set_option maxRecDepth 100000 in
theorem trigger_ok : ∀ i < 8,
    (⟨codes "topic", false, .str ([.hole 0] ++ (codes "/channels/").map .ch ++ [.hole 1] ++ [.ch 47] ++ (triggerType i).map .ch)⟩ : Mem Piece) ∈ mems (.trigger i) ∧
    (⟨codes "payload", false, .str ((triggerType i).map .ch)⟩ : Mem Piece) ∈ mems (.trigger i) ∧
    (⟨codes "type", false, .str ((triggerType i).map .ch)⟩ : Mem Piece) ∈ mems (.trigger i) ∧
    (⟨codes "subtype", false, .str ((codes "button_").map .ch ++ [.hole 12])⟩ : Mem Piece) ∈ mems (.trigger i) := by decide +kernel

set_option maxRecDepth 100000 in
theorem wrong_ok :
    (⟨codes "stat_t", false, .str ((codes "~/state/total_forward_active_energy_balanced").map .ch)⟩ : Mem Piece) ∈ mems (.meter 3) ∧
    (⟨codes "stat_t", false, .str ((codes "~/state/total_reverse_active_energy_balanced").map .ch)⟩ : Mem Piece) ∈ mems (.meter 4) ∧
    ∀ cool, (⟨codes "temperature_high_state_topic", false, .str ((codes "~/state/temperature_setpoint_cool/").map .ch)⟩ : Mem Piece) ∈ mems (.hvac true cool) ∧
      (⟨codes "temperature_low_state_topic", false, .str ((codes "~/state/temperature_setpoint_heat/").map .ch)⟩ : Mem Piece) ∈ mems (.hvac true cool) ∧
      (⟨codes "temperature_high_command_topic", false, .str ((codes "~/set/temperature_setpoint_cool/").map .ch)⟩ : Mem Piece) ∈ mems (.hvac true cool) ∧
      (⟨codes "temperature_low_command_topic", false, .str ((codes "~/set/temperature_setpoint_heat/").map .ch)⟩ : Mem Piece) ∈ mems (.hvac true cool) := by
  decide +kernel

set_option maxRecDepth 100000 in
theorem starts : ∀ d ∈ docs, hasBase d = true → (template d).take 12 = (codes "{\"avty_t\":\"").map .ch ++ [.hole 0] := by decide +kernel

end Verif.Mqtt.Discovery
