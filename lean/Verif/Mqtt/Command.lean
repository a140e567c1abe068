import Verif.Mqtt.Dispatch

/-!
# MQTT: a command has the effect its payload says
-/

namespace Verif.Mqtt

open Verif.Tools

/-! ## Specification -/

/-- Lower case of a letter. -/
def lower (c : Nat) : Nat := if 65 ≤ c ∧ c ≤ 90 then c + 32 else c

/-- A payload reads as a word: the same letters, in either case. -/
def Reads (p : List Nat) (word : String) : Prop := p.map lower = txt word

instance (p : List Nat) (word : String) : Decidable (Reads p word) := by unfold Reads; infer_instance

/-- The documented commands that are words: the type of the channel, what is behind its topic, the word,
whether the channel is on, and the order given to the channel. For lights, byte 6 is the order: 1, 2, 3 turn
the dimmer on, off and over, 4, 5, 6 the colour; byte 0 of a relay is its state, of a shutter the order
(0 stop, 10 to 110 a position) with byte 1 left alone (-1); the modes of a thermostat are 8 on, 1 off,
9 schedule, 2 heat, 3 cool, 4 both. -/
def words : List (Kind × String × String × Bool × Cmd) :=
  [(.relay, "set/on", "1", false, .bytes [(0, 1)]), (.relay, "set/on", "yes", false, .bytes [(0, 1)]),
   (.relay, "set/on", "true", false, .bytes [(0, 1)]), (.relay, "set/on", "0", false, .bytes [(0, 0)]),
   (.relay, "set/on", "no", false, .bytes [(0, 0)]), (.relay, "set/on", "false", false, .bytes [(0, 0)]),
   (.relay, "set/on", "1", true, .bytes [(0, 1)]), (.relay, "set/on", "yes", true, .bytes [(0, 1)]),
   (.relay, "set/on", "true", true, .bytes [(0, 1)]), (.relay, "set/on", "0", true, .bytes [(0, 0)]),
   (.relay, "set/on", "no", true, .bytes [(0, 0)]), (.relay, "set/on", "false", true, .bytes [(0, 0)]),
   (.relay, "execute_action", "turn_on", false, .bytes [(0, 1)]), (.relay, "execute_action", "turn_off", false, .bytes [(0, 0)]),
   (.relay, "execute_action", "turn_on", true, .bytes [(0, 1)]), (.relay, "execute_action", "turn_off", true, .bytes [(0, 0)]),
   (.relay, "execute_action", "toggle", false, .bytes [(0, 1)]), (.relay, "execute_action", "toggle", true, .bytes [(0, 0)]),
   (.shutter, "execute_action", "stop", false, .bytes [(0, 0), (1, -1)]), (.shutter, "execute_action", "stop", true, .bytes [(0, 0), (1, -1)]),
   (.shutter, "execute_action", "reveal", false, .bytes [(0, 10), (1, -1)]), (.shutter, "execute_action", "reveal", true, .bytes [(0, 10), (1, -1)]),
   (.shutter, "execute_action", "shut", false, .bytes [(0, 110), (1, -1)]), (.shutter, "execute_action", "shut", true, .bytes [(0, 110), (1, -1)]),
   (.shutter, "execute_action", "calibrate", false, .recalibrate), (.shutter, "execute_action", "calibrate", true, .recalibrate),
   (.shutter, "execute_action", "recalibrate", false, .recalibrate), (.shutter, "execute_action", "recalibrate", true, .recalibrate),
   (.dimmer, "execute_action", "toggle", false, .bytes [(6, 3)]), (.dimmer, "execute_action", "toggle", true, .bytes [(6, 3)]),
   (.rgbw, "execute_action/rgb", "turn_on", false, .bytes [(6, 4)]), (.rgbw, "execute_action/rgb", "turn_on", true, .bytes [(6, 4)]),
   (.rgbw, "execute_action/rgb", "turn_off", false, .bytes [(6, 5)]), (.rgbw, "execute_action/rgb", "turn_off", true, .bytes [(6, 5)]),
   (.rgbw, "execute_action/rgb", "toggle", false, .bytes [(6, 6)]), (.rgbw, "execute_action/rgb", "toggle", true, .bytes [(6, 6)]),
   (.rgbw, "execute_action/dimmer", "turn_on", false, .bytes [(6, 1)]), (.rgbw, "execute_action/dimmer", "turn_on", true, .bytes [(6, 1)]),
   (.rgbw, "execute_action/dimmer", "turn_off", false, .bytes [(6, 2)]), (.rgbw, "execute_action/dimmer", "turn_off", true, .bytes [(6, 2)]),
   (.rgbw, "execute_action/dimmer", "toggle", false, .bytes [(6, 3)]), (.rgbw, "execute_action/dimmer", "toggle", true, .bytes [(6, 3)])]

/-- The words for thermostats, whose subfunction does not matter. -/
def hvacWords : List (String × Bool × Nat) :=
  [("turn_on", false, 8), ("turn_on", true, 8), ("turn_off", false, 1), ("turn_off", true, 1), ("off", false, 1), ("off", true, 1),
   ("toggle", false, 8), ("toggle", true, 1), ("auto", false, 9), ("auto", true, 9), ("heat", false, 2), ("heat", true, 2),
   ("cool", false, 3), ("cool", true, 3), ("heat_cool", false, 4), ("heat_cool", true, 4)]

/-- All words that are documented for something. -/
def vocabulary : List String :=
  ["turn_on", "turn_off", "toggle", "stop", "reveal", "shut", "calibrate", "recalibrate", "off", "auto", "heat", "cool", "heat_cool"]

/-! ## Comparing texts -/

theorem upper_lower (a b : Nat) : upper a = upper b ↔ lower a = lower b := by
  unfold upper lower
  repeat' split
  all_goals omega

theorem upper_zero (c : Nat) (h : c ≠ 0) : upper c ≠ upper 0 := by
  unfold upper
  repeat' split
  all_goals omega

/-- Comparing a payload with a word never reads behind either and says whether they are the same up to the
case of the letters. -/
theorem same_eq (p w : List Nat) (hp : 0 ∉ p) (hw : 0 ∉ w) : same p w = some (decide (p.map lower = w.map lower)) := by
  unfold same
  induction w generalizing p with
  | nil =>
    cases p with
    | nil => rfl
    | cons c p =>
      have : c ≠ 0 := by intro h; simp [h] at hp
      simp only [List.length_nil, List.cons_append, List.nil_append, sameLoop]
      rw [if_neg (upper_zero c this)]
      simp
  | cons b w ih =>
    have hb : b ≠ 0 := by intro h; simp [h] at hw
    cases p with
    | nil =>
      simp only [List.cons_append, List.nil_append, List.length_cons, sameLoop]
      rw [if_neg (fun h => upper_zero b hb h.symm)]
      simp
    | cons c p =>
      simp only [List.mem_cons, not_or] at hp hw
      simp only [List.cons_append, List.length_cons]
      rw [sameLoop]
      by_cases h : upper c = upper b
      · rw [if_pos h, ih p hp.2 hw.2]
        simp [(upper_lower c b).mp h]
      · rw [if_neg h]
        have : lower c ≠ lower b := fun e => h ((upper_lower c b).mpr e)
        simp [this]

/-- What a comparison with a word says depends on the payload in lower case only. -/
theorem is_eq (p : List Nat) (w : String) (hp : 0 ∉ p) (hw : 0 ∉ txt w) : is p w = decide (p.map lower = (txt w).map lower) := by
  unfold is
  rw [same_eq p _ hp hw]
  simp

theorem is_congr (p q : List Nat) (w : String) (hp : 0 ∉ p) (hq : 0 ∉ q) (hw : 0 ∉ txt w) (h : p.map lower = q.map lower) :
    is p w = is q w := by
  rw [is_eq p w hp hw, is_eq q w hq hw, h]

theorem reads_congr (p : List Nat) (word : String) (hl : (txt word).map lower = txt word) (h : Reads p word) :
    p.map lower = (txt word).map lower := by
  rw [hl]; exact h

/-- The parts of topics whose payload is a word. -/
def wordParts : List String := ["set/on", "execute_action", "execute_action/rgb", "execute_action/dimmer"]

theorem request_congr (k : Kind) (on : Bool) (part : String) (p q : List Nat) (hpart : part ∈ wordParts) (hp : 0 ∉ p) (hq : 0 ∉ q)
    (h : p.map lower = q.map lower) : request k on (txt part) p = request k on (txt part) q := by
  have e : ∀ w, 0 ∉ txt w → is p w = is q w := fun w hw => is_congr p q w hp hq hw h
  have e1 := e "1" (by decide +kernel)
  have e2 := e "yes" (by decide +kernel)
  have e3 := e "true" (by decide +kernel)
  have e4 := e "turn_on" (by decide +kernel)
  have e5 := e "turn_off" (by decide +kernel)
  have e6 := e "toggle" (by decide +kernel)
  have e7 := e "stop" (by decide +kernel)
  have e8 := e "reveal" (by decide +kernel)
  have e9 := e "shut" (by decide +kernel)
  have e10 := e "calibrate" (by decide +kernel)
  have e11 := e "recalibrate" (by decide +kernel)
  have e12 := e "off" (by decide +kernel)
  have e13 := e "auto" (by decide +kernel)
  have e14 := e "heat" (by decide +kernel)
  have e15 := e "cool" (by decide +kernel)
  have e16 := e "heat_cool" (by decide +kernel)
  have e17 : payloadOn p = payloadOn q := by simp only [payloadOn, e1, e2, e3]
  have n1 : txt part ≠ txt "set/closing_percentage" := by revert part; decide +kernel
  have n2 : txt part ≠ txt "set/tilt" := by revert part; decide +kernel
  have n3 : txt part ≠ txt "set/color_brightness" := by revert part; decide +kernel
  have n4 : txt part ≠ txt "set/brightness" := by revert part; decide +kernel
  have n5 : txt part ≠ txt "set/color" := by revert part; decide +kernel
  have n6 : txt part ≠ txt "set/temperature_setpoint_heat" := by revert part; decide +kernel
  have n7 : txt part ≠ txt "set/temperature_setpoint_cool" := by revert part; decide +kernel
  have n8 : txt part ≠ txt "set/temperature_setpoint" := by revert part; decide +kernel
  cases k <;>
    simp only [request, relayRequest, shutterRequest, dimmerRequest, rgbwRequest, hvacRequest, action, dimmerAction, hvacAction,
      e17, e4, e5, e6, e7, e8, e9, e10, e11, e12, e13, e14, e15, e16, n1, n2, n3, n4, n5, n6, n7, n8, if_false]

/-! ## Theorems -/

/-- **C68.** Every documented word, in upper or lower case or mixed, gives its channel exactly the documented
order, and only one. -/
theorem words_exact (row : Kind × String × String × Bool × Cmd) (hr : row ∈ words) (p : List Nat) (hz : 0 ∉ p)
    (h : Reads p row.2.2.1) : request row.1 row.2.2.2.1 (txt row.2.1) p = some [row.2.2.2.2] := by
  have k1 : ∀ row ∈ words, row.2.1 ∈ wordParts ∧ 0 ∉ txt row.2.2.1 ∧ (txt row.2.2.1).map lower = txt row.2.2.1 ∧
      request row.1 row.2.2.2.1 (txt row.2.1) (txt row.2.2.1) = some [row.2.2.2.2] := by decide +kernel
  obtain ⟨h1, h2, h3, h4⟩ := k1 row hr
  rw [request_congr _ _ _ p _ h1 hz h2 (reads_congr p _ h3 h), h4]

example : Reads (txt "Turn_ON") "turn_on" := by decide +kernel

/-- **C68.** The same for thermostats. -/
theorem hvac_words_exact (row : String × Bool × Nat) (hr : row ∈ hvacWords) (cool : Bool) (p : List Nat) (hz : 0 ∉ p) (h : Reads p row.1) :
    request (.hvac cool) row.2.1 (txt "execute_action") p = some [.mode row.2.2] := by
  have k1 : ∀ cool, ∀ row ∈ hvacWords, 0 ∉ txt row.1 ∧ (txt row.1).map lower = txt row.1 ∧
      request (.hvac cool) row.2.1 (txt "execute_action") (txt row.1) = some [.mode row.2.2] := by decide +kernel
  obtain ⟨h2, h3, h4⟩ := k1 cool row hr
  rw [request_congr _ _ _ p _ (by decide) hz h2 (reads_congr p _ h3 h), h4]

/-- **C68.** An action that is none of the documented words is ignored, for every type of channel. -/
theorem unknown_action_ignored (k : Kind) (on : Bool) (part : String) (hpart : part ∈ ["execute_action", "execute_action/rgb", "execute_action/dimmer"])
    (p : List Nat) (hz : 0 ∉ p) (h : ∀ w ∈ vocabulary, ¬ Reads p w) : request k on (txt part) p = some [] := by
  have e : ∀ w, w ∈ vocabulary → is p w = false := by
    intro w hw
    have k1 : ∀ w ∈ vocabulary, 0 ∉ txt w ∧ (txt w).map lower = txt w := by decide +kernel
    obtain ⟨h1, h2⟩ := k1 w hw
    rw [is_eq p w hz h1, h2]
    simpa [Reads] using h w hw
  have e4 := e "turn_on" (by decide)
  have e5 := e "turn_off" (by decide)
  have e6 := e "toggle" (by decide)
  have e7 := e "stop" (by decide)
  have e8 := e "reveal" (by decide)
  have e9 := e "shut" (by decide)
  have e10 := e "calibrate" (by decide)
  have e11 := e "recalibrate" (by decide)
  have e12 := e "off" (by decide)
  have e13 := e "auto" (by decide)
  have e14 := e "heat" (by decide)
  have e15 := e "cool" (by decide)
  have e16 := e "heat_cool" (by decide)
  have n0 : txt part ≠ txt "set/on" := by revert part; decide +kernel
  have n1 : txt part ≠ txt "set/closing_percentage" := by revert part; decide +kernel
  have n2 : txt part ≠ txt "set/tilt" := by revert part; decide +kernel
  have n3 : txt part ≠ txt "set/color_brightness" := by revert part; decide +kernel
  have n4 : txt part ≠ txt "set/brightness" := by revert part; decide +kernel
  have n5 : txt part ≠ txt "set/color" := by revert part; decide +kernel
  have n6 : txt part ≠ txt "set/temperature_setpoint_heat" := by revert part; decide +kernel
  have n7 : txt part ≠ txt "set/temperature_setpoint_cool" := by revert part; decide +kernel
  have n8 : txt part ≠ txt "set/temperature_setpoint" := by revert part; decide +kernel
  cases k <;>
    simp [request, relayRequest, shutterRequest, dimmerRequest, rgbwRequest, hvacRequest, action, dimmerAction, hvacAction,
      e4, e5, e6, e7, e8, e9, e10, e11, e12, e13, e14, e15, e16, n0, n1, n2, n3, n4, n5, n6, n7, n8]

example : ∀ w ∈ vocabulary, ¬ Reads (txt "turn_onn") w := by decide +kernel

/-- **C68.** What a message for a part the device has not subscribed to does: nothing, except for the parts
of the other light types that share the handler. -/
theorem other_part_ignored (k : Kind) (on : Bool) (part p : List Nat) (h : part ∉ subscriptions k) (hrgb : k ≠ .rgb) :
    request k on part p = some [] := by
  cases k with
  | rgb => exact absurd rfl hrgb
  | other => rfl
  | relay =>
    simp only [subscriptions, List.mem_cons, List.not_mem_nil, or_false, not_or] at h
    simp [request, relayRequest, h]
  | shutter =>
    simp only [subscriptions, List.mem_cons, List.not_mem_nil, or_false, not_or] at h
    simp [request, shutterRequest, h]
  | dimmer =>
    simp only [subscriptions, List.mem_cons, List.not_mem_nil, or_false, not_or] at h
    simp [request, dimmerRequest, h]
  | rgbw =>
    simp only [subscriptions, List.mem_cons, List.not_mem_nil, or_false, not_or] at h
    simp [request, rgbwRequest, h]
  | hvac c =>
    simp only [subscriptions, List.mem_cons, List.not_mem_nil, or_false, not_or] at h
    simp [request, hvacRequest, h]

example : txt "state" ∉ subscriptions .relay := by decide +kernel

/-! ## Numbers -/

theorem text_read (n : Nat) (h : n < 2 ^ 31) : stringToInt (decimalText n) = .val n := by
  obtain ⟨h1, h2⟩ := decimal_text n
  rw [(int_digits _ h2 (by omega)).1, h1]

/-- The documented commands that are whole numbers: type, part, and the order for the number `n`. -/
def numbers (n : Int) : List (Kind × String × Cmd) :=
  [(.shutter, "set/closing_percentage", .bytes [(0, n + 10), (1, -1)]), (.shutter, "set/tilt", .bytes [(0, -1), (1, n)]),
   (.dimmer, "set/brightness", .bytes [(0, n), (6, 10)]), (.rgb, "set/color_brightness", .bytes [(1, n), (6, 11)]),
   (.rgbw, "set/brightness", .bytes [(0, n), (6, 10)]), (.rgbw, "set/color_brightness", .bytes [(1, n), (6, 11)])]

theorem number_request (k : Kind) (part : String) (on : Bool) (p : List Nat) (n : Int) (h : stringToInt p = .val n) :
    (k = .shutter → part = "set/closing_percentage" → request k on (txt part) p = some [.bytes [(0, closing n), (1, -1)]]) ∧
    (k = .shutter → part = "set/tilt" → request k on (txt part) p = some [.bytes [(0, -1), (1, tilting n)]]) ∧
    (k = .dimmer ∨ k = .rgbw → part = "set/brightness" → request k on (txt part) p = some (brightness 0 10 n)) ∧
    (k = .rgb ∨ k = .rgbw → part = "set/color_brightness" → request k on (txt part) p = some (brightness 1 11 n)) := by
  refine ⟨?_, ?_, ?_, ?_⟩
  · rintro rfl rfl
    simp only [request, shutterRequest, h, withInt]
    rfl
  · rintro rfl rfl
    simp only [request, shutterRequest, h, withInt]
    rw [if_neg (by decide +kernel)]
    rfl
  · rintro (rfl | rfl) rfl
    · simp only [request, dimmerRequest, h, withInt]
      rfl
    · simp only [request, rgbwRequest, h, withInt]
      rw [if_neg (by decide +kernel)]
      rfl
  · rintro (rfl | rfl) rfl
    · simp only [request, rgbwRequest, h, withInt]
      rfl
    · simp only [request, rgbwRequest, h, withInt]
      rfl

/-- **C68.** A number from 0 to 100 gives exactly the documented order. -/
theorem numbers_exact (n : Nat) (hn : n ≤ 100) (on : Bool) (row : Kind × String × Cmd) (hr : row ∈ numbers n) :
    request row.1 on (txt row.2.1) (decimalText n) = some [row.2.2] := by
  have hi := text_read n (by omega)
  have hc : closing n = n + 10 := by unfold closing; rw [if_pos (by omega)]
  have ht : tilting n = n := by unfold tilting; rw [if_pos (by omega)]
  have hb : ∀ i c, brightness i c n = [.bytes [(i, n), (6, c)]] := by intro i c; unfold brightness; rw [if_pos (by omega)]
  simp only [numbers, List.mem_cons, List.not_mem_nil, or_false] at hr
  rcases hr with rfl | rfl | rfl | rfl | rfl | rfl
  · rw [(number_request .shutter "set/closing_percentage" on _ n hi).1 rfl rfl, hc]
  · rw [(number_request .shutter "set/tilt" on _ n hi).2.1 rfl rfl, ht]
  · rw [(number_request .dimmer "set/brightness" on _ n hi).2.2.1 (Or.inl rfl) rfl, hb]
  · rw [(number_request .rgb "set/color_brightness" on _ n hi).2.2.2 (Or.inl rfl) rfl, hb]
  · rw [(number_request .rgbw "set/brightness" on _ n hi).2.2.1 (Or.inr rfl) rfl, hb]
  · rw [(number_request .rgbw "set/color_brightness" on _ n hi).2.2.2 (Or.inr rfl) rfl, hb]

example : request .dimmer false (txt "set/brightness") (txt "42") = some [.bytes [(0, 42), (6, 10)]] := by decide +kernel

/-- **C68.** A number outside 0 to 100 changes nothing: lights get no order, shutters one that leaves position
and tilt alone. -/
theorem numbers_outside (p : List Nat) (n : Int) (hp : stringToInt p = .val n) (hn : n < 0 ∨ 100 < n) (on : Bool)
    (row : Kind × String × Cmd) (hr : row ∈ numbers n) :
    request row.1 on (txt row.2.1) p = some [] ∨ request row.1 on (txt row.2.1) p = some [.bytes [(0, -1), (1, -1)]] := by
  have hc : closing n = -1 := by unfold closing; rw [if_neg (by omega)]
  have ht : tilting n = -1 := by unfold tilting; rw [if_neg (by omega)]
  have hb : ∀ i c, brightness i c n = [] := by intro i c; unfold brightness; rw [if_neg (by omega)]
  simp only [numbers, List.mem_cons, List.not_mem_nil, or_false] at hr
  rcases hr with rfl | rfl | rfl | rfl | rfl | rfl
  · right; rw [(number_request .shutter "set/closing_percentage" on _ n hp).1 rfl rfl, hc]
  · right; rw [(number_request .shutter "set/tilt" on _ n hp).2.1 rfl rfl, ht]
  · left; rw [(number_request .dimmer "set/brightness" on _ n hp).2.2.1 (Or.inl rfl) rfl, hb]
  · left; rw [(number_request .rgb "set/color_brightness" on _ n hp).2.2.2 (Or.inl rfl) rfl, hb]
  · left; rw [(number_request .rgbw "set/brightness" on _ n hp).2.2.1 (Or.inr rfl) rfl, hb]
  · left; rw [(number_request .rgbw "set/color_brightness" on _ n hp).2.2.2 (Or.inr rfl) rfl, hb]

example : stringToInt (txt "101") = .val 101 ∧ stringToInt (txt "-5") = .val (-5) := by decide +kernel

/-! ## Temperatures -/

/-- The three set point topics of a thermostat and the order for a temperature in hundredths of a degree. -/
def setpoints (cool : Bool) (t : Int) : List (String × Cmd) :=
  [("set/temperature_setpoint_heat", .heat t), ("set/temperature_setpoint_cool", .cool t),
   ("set/temperature_setpoint", if cool then .cool t else .heat t)]

theorem setpoint_request (cool on : Bool) (p : List Nat) (t : Int) (h : floatStringToInt 2 p = .val t) (row : String × Cmd)
    (hr : row ∈ setpoints cool t) :
    request (.hvac cool) on (txt row.1) p = some (if t < -32768 ∨ t > 32767 then [] else [row.2]) := by
  simp only [setpoints, List.mem_cons, List.not_mem_nil, or_false] at hr
  rcases hr with rfl | rfl | rfl
  · simp only [request, hvacRequest, h, withInt, setpoint]
    rfl
  · simp only [request, hvacRequest, h, withInt, setpoint]
    rw [if_neg (by decide +kernel)]
    rfl
  · simp only [request, hvacRequest, h, withInt, setpoint]
    rw [if_neg (by decide +kernel), if_neg (by decide +kernel)]
    cases cool <;> rfl

/-- **C68.** A temperature with digits, a point or comma and further digits, below 327.68 degrees, sets the
addressed set point (heating or cooling, or the one of the subfunction) to that temperature, cut off to
hundredths; with a minus sign to the negative one. -/
theorem temperature_exact (cool on : Bool) (i f : List Nat) (sep : Nat) (hi : Digits i) (hf : Digits f) (hs : sep = 46 ∨ sep = 44)
    (hb : decimal (i ++ f) * 100 / 10 ^ f.length ≤ 32767) :
    (∀ row ∈ setpoints cool (decimal (i ++ f) * 100 / 10 ^ f.length : Nat), request (.hvac cool) on (txt row.1) (i ++ sep :: f) = some [row.2]) ∧
    (∀ row ∈ setpoints cool (-((decimal (i ++ f) * 100 / 10 ^ f.length : Nat) : Int)),
      request (.hvac cool) on (txt row.1) (45 :: i ++ sep :: f) = some [row.2]) := by
  obtain ⟨h1, h2⟩ := float_text 2 sep i f hi hf hs (by rw [show (10 : Nat) ^ 2 = 100 from rfl]; omega)
  rw [show (10 : Nat) ^ 2 = 100 from rfl] at h1 h2
  generalize decimal (i ++ f) * 100 / 10 ^ f.length = t at h1 h2 hb ⊢
  constructor
  · intro row hr
    rw [setpoint_request cool on _ _ h1 row hr, if_neg (by omega)]
  · intro row hr
    rw [setpoint_request cool on _ _ h2 row hr, if_neg (by omega)]

example : request (.hvac true) false (txt "set/temperature_setpoint") (txt "21.5") = some [.cool 2150] ∧
    request (.hvac false) false (txt "set/temperature_setpoint") (txt "-3,25") = some [.heat (-325)] := by decide +kernel

/-- **C68.** So does a temperature in whole degrees. -/
theorem temperature_whole (cool on : Bool) (i : List Nat) (hi : Digits i) (hb : decimal i * 100 ≤ 32767) :
    (∀ row ∈ setpoints cool (decimal i * 100 : Nat), request (.hvac cool) on (txt row.1) i = some [row.2]) ∧
    (∀ row ∈ setpoints cool (-((decimal i * 100 : Nat) : Int)), request (.hvac cool) on (txt row.1) (45 :: i) = some [row.2]) := by
  obtain ⟨h1, h2⟩ := float_whole 2 i hi (by omega)
  constructor
  · intro row hr
    rw [setpoint_request cool on _ _ h1 row hr, if_neg]
    simp only [show (10 : Nat) ^ 2 = 100 by rfl]
    omega
  · intro row hr
    rw [setpoint_request cool on _ _ h2 row hr, if_neg]
    simp only [show (10 : Nat) ^ 2 = 100 by rfl]
    omega

/-- **C68.** A temperature that does not fit gives no order. -/
theorem temperature_outside (cool on : Bool) (p : List Nat) (t : Int) (h : floatStringToInt 2 p = .val t) (ht : t < -32768 ∨ t > 32767)
    (row : String × Cmd) (hr : row ∈ setpoints cool t) : request (.hvac cool) on (txt row.1) p = some [] := by
  rw [setpoint_request cool on p t h row hr, if_pos ht]

example : floatStringToInt 2 (txt "400") = .val 40000 := by decide +kernel

/-! ## Colours -/

theorem digitsLoop_text (s rest : List Nat) (h : Digits s) (hr : ∀ c r, rest = c :: r → ¬ (48 ≤ c ∧ c ≤ 57)) (n : Nat) :
    digitsLoop n (s ++ rest) = (n * 10 ^ s.length + decimal s, rest) := by
  induction s generalizing n with
  | nil =>
    cases rest with
    | nil => simp [digitsLoop, decimal]
    | cons c r =>
      simp only [List.nil_append, digitsLoop, decimal, List.length_nil]
      rw [if_neg (hr c r rfl)]
      simp
  | cons c s ih =>
    simp only [List.cons_append, digitsLoop]
    rw [if_pos (h c (by simp)), ih (fun x hx => h x (by simp [hx]))]
    simp only [decimal, List.length_cons, Nat.pow_succ, Nat.add_mul, Nat.mul_assoc, Nat.add_assoc, Nat.mul_comm 10]

theorem text_ne_nil (n : Nat) : decimalText n ≠ [] := by
  intro h
  have := Nat.length_toDigits_pos (b := 10) (n := n)
  rw [decimalText, List.map_eq_nil_iff] at h
  rw [h] at this; simp at this

theorem strtol_text (n : Nat) (rest : List Nat) (hr : ∀ c r, rest = c :: r → ¬ (48 ≤ c ∧ c ≤ 57)) :
    strtol (decimalText n ++ rest) = ((n : Int), rest) := by
  obtain ⟨h1, h2⟩ := decimal_text n
  have h3 := digitsLoop_text (decimalText n) rest h2 hr 0
  rw [h1] at h3
  obtain ⟨c, s, hs⟩ := List.exists_cons_of_ne_nil (text_ne_nil n)
  have hc := h2 c (by rw [hs]; simp)
  rw [hs] at h3 ⊢
  rw [List.cons_append] at h3 ⊢
  unfold strtol
  rw [List.dropWhile_cons_of_neg (by simp [isSpace]; omega)]
  dsimp only
  rw [if_neg (by omega), if_neg (by omega)]
  unfold strtolDigits
  dsimp only
  rw [if_pos hc, h3]
  simp

/-- **C68.** "r,g,b" with three numbers up to 255 sets exactly that colour and does not switch the light on. -/
theorem colour_exact (k : Kind) (hk : k = .rgb ∨ k = .rgbw) (on : Bool) (r g b : Nat) (hr : r ≤ 255) (hg : g ≤ 255) (hb : b ≤ 255) :
    request k on (txt "set/color") (decimalText r ++ [44] ++ decimalText g ++ [44] ++ decimalText b)
      = some [.bytes [(2, b), (3, g), (4, r), (6, 12)]] := by
  have e1 := strtol_text r (44 :: (decimalText g ++ 44 :: decimalText b)) (by intro c s h; injection h with h _; omega)
  have e2 := strtol_text g (44 :: decimalText b) (by intro c s h; injection h with h _; omega)
  have e3 := strtol_text b [] (by intro c s h; cases h)
  rw [List.append_nil] at e3
  have hc : stringToColor (decimalText r ++ [44] ++ decimalText g ++ [44] ++ decimalText b) = some ((r : Int), (g : Int), (b : Int)) := by
    simp only [List.append_assoc, List.nil_append, List.cons_append]
    unfold stringToColor
    simp only [e1, afterComma, if_true, Option.bind_some, e2, e3]
    rw [if_pos]
    simp [isByte]; omega
  have : ∀ p, request k on (txt "set/color") p = some (colour (stringToColor p)) := by
    intro p
    rcases hk with rfl | rfl
    · simp only [request, rgbwRequest]
      rw [if_neg (by decide +kernel), if_neg (by decide +kernel), if_neg (by decide +kernel), if_neg (by decide +kernel), if_pos trivial]
    · simp only [request, rgbwRequest]
      rw [if_neg (by decide +kernel), if_neg (by decide +kernel), if_neg (by decide +kernel), if_neg (by decide +kernel), if_pos trivial]
  rw [this, hc]
  rfl

example : request .rgb false (txt "set/color") (txt "255,16,0") = some [.bytes [(2, 0), (3, 16), (4, 255), (6, 12)]] := by decide +kernel

/-! ## From topic to channel -/

/-- **C68.** A message under a topic the device has subscribed to for a channel gives exactly the orders of
the payload to exactly that channel. -/
theorem end_to_end (kinds : Int → Option Kind) (on : Int → Bool) (custom host : List Nat) (n : Nat) (k : Kind) (part p : List Nat)
    (hc : custom.length ≤ 48) (hh : host.length ≤ 31) (hn : n < 256) (hk : kinds n = some k) (hp : part ∈ subscriptions k) :
    processData kinds on (devicePrefix custom host) (full (devicePrefix custom host) (slash (channelTopic n) part)) p
      = (request k (on n) part p).map (·.map (fun c => ((n : Int), c))) := by
  unfold processData
  rw [subscribed_reaches kinds custom host n k part hc hh hn hk hp]
  dsimp only
  rw [hk]
  rfl

example : processData (fun n => if n = 3 then some .relay else none) (fun _ => true) (txt "p") (txt "p/channels/3/execute_action") (txt "TOGGLE")
    = some [(3, .bytes [(0, 0)])] := by decide +kernel

/-! ## Where commands do something else -/

/-- The full claim: everything a channel has subscribed to is understood for some payload. -/
def SubscribedUnderstood : Prop :=
  ∀ k, ∀ part ∈ subscriptions k, ∃ p on, request k on part p ≠ some []

/-- **Finding.** A colour light subscribes to `execute_action` but its messages go to the handler for lights
with dimmer, which knows only `execute_action/rgb`: it can not be switched on or off. -/
theorem subscribed_understood_violation : ¬ SubscribedUnderstood := by
  intro h
  obtain ⟨p, on, hp⟩ := h .rgb (txt "execute_action") (by decide +kernel)
  apply hp
  simp only [request, rgbwRequest]
  rw [if_neg (by decide +kernel), if_neg (by decide +kernel), if_neg (by decide +kernel), if_neg (by decide +kernel), if_neg (by decide +kernel)]

/-- All other subscriptions are. -/
theorem subscribed_understood_partial (k : Kind) (part : List Nat) (h : part ∈ subscriptions k) (hk : k = .rgb → part ≠ txt "execute_action") :
    ∃ p on, request k on part p ≠ some [] := by
  have key : ∀ k, k = .relay ∨ k = .shutter ∨ k = .dimmer ∨ k = .rgb ∨ k = .rgbw ∨ k = .hvac false ∨ k = .hvac true →
      ∀ part ∈ subscriptions k, (k = .rgb → part ≠ txt "execute_action") →
        request k false part (txt "turn_on") ≠ some [] ∨ request k false part (txt "stop") ≠ some [] ∨ request k false part (txt "1,2,3") ≠ some [] := by
    rintro k (rfl | rfl | rfl | rfl | rfl | rfl | rfl) <;> decide +kernel
  cases hk' : k with
  | other => rw [hk'] at h; cases h
  | _ =>
    rw [hk'] at h hk
    rcases key _ (by first | exact Or.inl rfl | exact Or.inr (Or.inl rfl) | exact Or.inr (Or.inr (Or.inl rfl)) | exact Or.inr (Or.inr (Or.inr (Or.inl rfl))) | exact Or.inr (Or.inr (Or.inr (Or.inr (Or.inl rfl)))) | (rename_i c; cases c <;> simp)) part h hk with h1 | h1 | h1
    · exact ⟨_, _, h1⟩
    · exact ⟨_, _, h1⟩
    · exact ⟨_, _, h1⟩

/-- The full claim: a message gives at most one order. -/
def AtMostOnce : Prop := ∀ k on part p cmds, request k on part p = some cmds → cmds.length ≤ 1

/-- **Finding.** `turn_on` and `turn_off` reach a dimmer twice. -/
theorem at_most_once_violation : ¬ AtMostOnce := by
  intro h
  have := h .dimmer false (txt "execute_action") (txt "turn_on") _ rfl
  revert this; decide +kernel

/-- All other types get one order at most, and a dimmer the same order twice. -/
theorem at_most_once_partial (k : Kind) (on : Bool) (part p : List Nat) (cmds : List Cmd) (h : request k on part p = some cmds) :
    cmds.length ≤ 1 ∨ (k = .dimmer ∧ ∃ c, cmds = [c, c]) := by
  have hw : ∀ (r : Res) (f : Int → List Cmd) (cmds : List Cmd), (∀ n, (f n).length ≤ 1) → withInt r f = some cmds → cmds.length ≤ 1 := by
    intro r f cmds hf hw
    unfold withInt at hw
    split at hw
    · cases hw
    · injection hw with hw; rw [← hw]; exact hf _
  have hb : ∀ i c n, (brightness i c n).length ≤ 1 := by intro i c n; unfold brightness; split <;> simp
  have hs : ∀ f n, (setpoint f n).length ≤ 1 := by intro f n; unfold setpoint; split <;> simp
  cases k with
  | other => injection h with h; rw [← h]; simp
  | relay =>
    left
    simp only [request, relayRequest] at h
    injection h with h; rw [← h]
    repeat' split
    all_goals simp
  | shutter =>
    left
    simp only [request, shutterRequest] at h
    repeat' split at h
    all_goals first
      | exact hw _ _ _ (by simp) h
      | (injection h with h; rw [← h]; simp)
  | dimmer =>
    simp only [request, dimmerRequest, dimmerAction] at h
    repeat' split at h
    all_goals first
      | exact Or.inl (hw _ _ _ (hb _ _) h)
      | (injection h with h; rw [← h]; simp)
  | rgb =>
    left
    simp only [request, rgbwRequest, action, colour] at h
    repeat' split at h
    all_goals first
      | exact hw _ _ _ (hb _ _) h
      | (injection h with h; rw [← h]; first | simp | (split <;> simp))
  | rgbw =>
    left
    simp only [request, rgbwRequest, action, colour] at h
    repeat' split at h
    all_goals first
      | exact hw _ _ _ (hb _ _) h
      | (injection h with h; rw [← h]; first | simp | (split <;> simp))
  | hvac c =>
    left
    have ha : (hvacAction on p).length ≤ 1 := by
      unfold hvacAction
      repeat' split
      all_goals simp
    simp only [request, hvacRequest] at h
    repeat' split at h
    all_goals first
      | exact hw _ _ _ (hs _) h
      | (injection h with h; rw [← h]; first | exact ha | simp)

/-- The full claim: a payload that is no number gives a light or shutter no order. -/
def GarbageIgnored : Prop :=
  ∀ (p : List Nat) (c : Nat), c ∈ p → ¬ (48 ≤ c ∧ c ≤ 57) → c ≠ 45 →
    request .dimmer false (txt "set/brightness") p = some [] ∧
    request .shutter false (txt "set/closing_percentage") p = some [.bytes [(0, -1), (1, -1)]]

/-- **Finding.** Text that is no number is read as 0: "50%" turns the light off and opens the shutter. -/
theorem garbage_ignored_violation : ¬ GarbageIgnored := by
  intro h
  have := h (txt "50%") 37 (by decide +kernel) (by decide) (by decide)
  revert this; decide +kernel

/-- **Finding.** So does the set point: "off" for the temperature sets zero degrees. -/
theorem garbage_setpoint_violation : ¬ ∀ on, request (.hvac false) on (txt "set/temperature_setpoint") (txt "off") = some [] := by
  intro h
  have := h false
  revert this; decide +kernel

/-- **Finding.** Every payload that is not one of the three words for on turns a relay off, "on" among them. -/
theorem set_on_violation : ¬ ∀ on p, Reads p "on" → request .relay on (txt "set/on") p = some [.bytes [(0, 1)]] := by
  intro h
  have := h false (txt "ON") (by decide +kernel)
  revert this; decide +kernel

end Verif.Mqtt
