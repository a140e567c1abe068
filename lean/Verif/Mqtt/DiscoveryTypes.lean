import Verif.Mqtt.DiscoveryProps

/-!
# Discovery documents: as what things are announced

Tables written down from the names of the functions in /repo/src/supla-common/proto.h (lines 427-520) and the words of home automation.
-/

namespace Verif.Mqtt.Discovery

open Verif.Mqtt Verif.Tools

/-- What is announced as what: gateway, door, gate, garage door, liquid, roller shutter, roof window, window. -/
def sensorWords : List (Chan × List Nat) :=
  [(.binary 50, codes "door"), (.binary 100, codes "door"), (.binary 60, codes "garage"), (.binary 70, codes "garage"), (.binary 80, codes "moisture"),
   (.binary 120, codes "window"), (.binary 125, codes "window"), (.binary 230, codes "window")]

/-- Buttons of a gate, a garage door, a door and a gateway. -/
def buttonWords : List (Chan × List Nat) :=
  [(.relay 20, codes "gate"), (.relay 30, codes "garage"), (.relay 90, codes "door"), (.relay 10, codes "door")]

/-- Roller shutter, roof window, facade blind, awning, projector screen, curtain, vertical blind, roller garage door. -/
def coverWords : List (Chan × List Nat) :=
  [(.shutter 110, codes "shutter"), (.shutter 115, codes "window"), (.shutter 900, codes "shutter"), (.shutter 910, codes "awning"),
   (.shutter 920, codes "shade"), (.shutter 930, codes "curtain"), (.shutter 940, codes "shutter"), (.shutter 950, codes "garage")]

set_option maxRecDepth 100000 in
theorem words_ok : ∀ p ∈ sensorWords ++ buttonWords ++ coverWords, ∀ d ∈ docsOf p.1, d ∈ docs ∧
    (⟨codes "dev_cla", false, .str (p.2.map .ch)⟩ : Mem Piece) ∈ mems d := by
  decide +kernel

/-- **C134.** Sensors, buttons and covers are announced with the class their function stands for. -/
theorem device_class (p : Chan × List Nat) (hp : p ∈ sensorWords ++ buttonWords ++ coverWords) (d : Doc) (hd : d ∈ docsOf p.1) (v : Nat → List Nat)
    (hv : Clean v) (ms : List (Mem Nat)) (hms : Content (text d v) ms) : Text ms (codes "dev_cla") p.2 := by
  obtain ⟨h1, h2⟩ := words_ok p hp d hd
  rw [content_unique _ _ _ hms (content _ h1 v hv)]
  exact text_of v d _ _ h2

example : (docsOf (.binary 60)).length = 1 := by decide

set_option maxRecDepth 100000 in
theorem none_ok : ∀ m ∈ mems (.binary .none false), m.key ≠ codes "dev_cla" := by decide +kernel

/-- **C134.** Any other binary sensor is announced without a class. -/
theorem no_class (f : Nat) (h : ∀ p ∈ sensorWords, p.1 ≠ .binary f) (d : Doc) (hd : d ∈ docsOf (.binary f)) (v : Nat → List Nat)
    (hv : Clean v) (ms : List (Mem Nat)) (hms : Content (text d v) ms) (s : List Nat) : ¬ Text ms (codes "dev_cla") s := by
  have hn : ∀ g ∈ [50, 100, 60, 70, 80, 120, 125, 230], f ≠ g := by
    intro g hg e
    have : ∀ g ∈ [50, 100, 60, 70, 80, 120, 125, 230], ∃ p ∈ sensorWords, p.1 = .binary g := by decide
    obtain ⟨p, hp, e'⟩ := this g hg
    exact h p hp (by rw [e', e])
  simp only [List.mem_cons, List.not_mem_nil, or_false, forall_eq_or_imp, forall_eq] at hn
  obtain ⟨a, b, c, e, g, i, j, k⟩ := hn
  have e1 : binaryClass f = .none := by
    unfold binaryClass
    rw [if_neg (by omega), if_neg (by omega), if_neg (by omega), if_neg (by omega)]
  have e2 : openClosed f = false := by
    unfold openClosed
    simp [a, b, c, e, i, j, k]
  have hd' : d = .binary .none false := by
    have : d ∈ [Doc.binary (binaryClass f) (openClosed f)] := hd
    rw [e1, e2] at this
    simpa using this
  subst hd'
  rw [content_unique _ _ _ hms (content _ (by decide +kernel) v hv)]
  rintro ⟨m, hm, hk, _⟩
  obtain ⟨x, hx, rfl⟩ := List.mem_map.mp hm
  exact none_ok x hx hk

example : ∀ p ∈ sensorWords, p.1 ≠ .binary 240 := by decide

/-- **C134.** Gates, garage doors, doors and gateways are announced as covers, power switches as switches, and all other relays as lights. -/
theorem relay_types (f : Nat) (id : List Nat) :
    (f ∈ [20, 30, 90, 10] → relayTopic f id = discoveryTopic (txt "cover") id) ∧
    (f = 130 → relayTopic f id = discoveryTopic (txt "switch") id) ∧
    (f ∉ [20, 30, 90, 10, 130] → relayTopic f id = discoveryTopic (txt "light") id) := by
  simp only [List.mem_cons, List.not_mem_nil, or_false, not_or]
  unfold relayTopic relayType
  refine ⟨fun h => ?_, fun h => ?_, fun h => ?_⟩
  · rw [if_pos (by omega)]
  · rw [if_neg (by omega), if_pos h]
  · rw [if_neg (by omega), if_neg (by omega)]

end Verif.Mqtt.Discovery
