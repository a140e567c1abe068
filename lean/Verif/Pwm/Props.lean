
/-!
# Lights on PWM outputs: the right duty on the right pin

Models `setRGBWValueOnDevice` and `onInit` of `RGBWLeds` (/repo/src/supla/control/rgbw_leds.cpp, W, lines 41-131), `RGBLeds`
(rgb_leds.cpp, B, lines 37-120), `DimmerLeds` (dimmer_leds.cpp, M, lines 34-95), and the PCA9685 output expander
(EXT_PCA9685.h lines 59-64).  What a light wants to show comes from `RGBWBase` (`Verif.Rgbw`), as values from 0 to 1023.
Pin numbers are below 256, so that `uint8_t` loses nothing.
-/

namespace Verif.Pwm

/-- The platforms the sources distinguish; the ESP32 with the Arduino core 2.x and 3.x. -/
inductive Board | avr | esp8266 | esp32v2 | esp32v3
deriving DecidableEq, Repr

/-- The three classes. -/
inductive Kind | rgbw | rgb | dimmer
deriving DecidableEq, Repr

/-- An output line. -/
inductive Line | native (p : Nat) | expander (p : Nat)
deriving DecidableEq, Repr

/-- A light: its class, whether it was given an expander (`io`), and its pin members in order. -/
structure Leds where
  kind : Kind
  io : Bool
  pins : List Nat
deriving DecidableEq, Repr

/-- `onInit`: W lines 79-117, B lines 71-108, M lines 62-85, on the ESP32 with core 2.x.  `h` lists the pins attached to the PWM
channels in order; the counter (rgbw_base.cpp line 35) is its length.  On the other boards the members stay. -/
def start (b : Board) (h : List Nat) (e : Leds) : List Nat × Leds :=
  if b = .esp32v2 ∧ (e.io = false ∨ e.kind = .rgbw) then
    (h ++ e.pins, { e with pins := List.range' h.length e.pins.length })
  else (h, e)

/-- The native pins that `onInit` turns into outputs: W lines 84-87, 96-115, 120-123; B lines 75-77, 82-84, 91-105,
110-112; M lines 65, 71, 78, 87. -/
def claimed (e : Leds) : List Nat := if e.io = false ∨ e.kind = .rgbw then e.pins else []

/-- All lights of a device are initialised one after another. -/
def startAll (b : Board) : List Nat → List Leds → List Nat × List Leds
  | h, [] => (h, [])
  | h, e :: l => ((startAll b (start b h e).1 l).1, (start b h e).2 :: (startAll b (start b h e).1 l).2)

/-- Where a write goes: W lines 58-76, B lines 53-68, M lines 50-59.  `ledcWrite` of core 2.x takes a channel, of which there
are 16. -/
def target (b : Board) (h : List Nat) (io : Bool) (pin : Nat) : Option Line :=
  if io then some (.expander pin)
  else if b = .esp32v2 then (if pin < 16 then (h[pin]?).map .native else none)
  else some (.native pin)

/-- `map(x, 0, 1023, 0, top)` of the Arduino library for `x` from 0 to 1023. -/
def scale (top x : Nat) : Nat := x * top / 1023

/-- The number written: W lines 51-56, B lines 47-51, M lines 46-48, then EXT_PCA9685.h line 61 for an expander. -/
def duty (b : Board) (io : Bool) (x : Nat) : Nat :=
  if io then scale 4095 (if b = .avr then scale 255 x else x) else if b = .avr then scale 255 x else x

/-- A colour component with its brightness, W lines 46-48 and B lines 43-45; `uint32_t`. -/
def mix (c cb : Nat) : Nat := c * cb % 2 ^ 32 / 1023

/-- What light `j` of the device writes when it shows `vals`. -/
def shown (b : Board) (lights : List Leds) (j : Nat) (vals : List Nat) : List (Option Line × Nat) :=
  match (startAll b [] lights).2[j]? with
  | none => []
  | some e => (e.pins.zip vals).map fun p => (target b (startAll b [] lights).1 e.io p.1, duty b e.io p.2)

/-! ## Specification -/

/-- The number that stands for "fully on": `analogWrite` on AVR, `analogWriteRange(1024)` (W line 126), 10 bits of `ledc`
(the core turns 1023 into fully on), 12 bits of the PCA9685. -/
def full (b : Board) (io : Bool) : Nat :=
  if io then 4095 else match b with | .avr => 255 | .esp8266 => 1024 | .esp32v2 => 1023 | .esp32v3 => 1023

/-- The lines that belong to a light. -/
def own (e : Leds) : List Line := e.pins.map (if e.io then .expander else .native)

/-- The number of PWM channels a device needs on an ESP32. -/
def channels : List Leds → Nat
  | [] => 0
  | e :: l => (if e.io then 0 else e.pins.length) + channels l

/-- The case in which the expander is left out of account: `RGBWLeds` with an expander on an ESP32 with core 2.x. -/
def Sound (b : Board) (e : Leds) : Prop := b = .esp32v2 → e.kind = .rgbw → e.io = false

/-! ## Pins -/

theorem start_io (b : Board) (h : List Nat) (e : Leds) : (start b h e).2.io = e.io := by
  unfold start; split <;> rfl

/-- What one light becomes, and where its pins are in the list of channels. -/
structure Placed (b : Board) (fin : List Nat) (e e' : Leds) : Prop where
  io : e'.io = e.io
  pins : (e'.pins = e.pins ∧ (b = .esp32v2 → e.io = true)) ∨
    (b = .esp32v2 ∧ e.io = false ∧ ∃ a c, fin = a ++ e.pins ++ c ∧ e'.pins = List.range' a.length e.pins.length)

theorem startAll_grows (b : Board) (l : List Leds) : ∀ h, ∃ c, (startAll b h l).1 = h ++ c := by
  induction l with
  | nil => intro h; exact ⟨[], (List.append_nil h).symm⟩
  | cons e l ih =>
    intro h
    obtain ⟨c, hc⟩ := ih (start b h e).1
    show ∃ c, (startAll b (start b h e).1 l).1 = h ++ c
    rw [hc]
    unfold start
    split
    · exact ⟨e.pins ++ c, by simp⟩
    · exact ⟨c, rfl⟩

theorem startAll_placed (b : Board) (l : List Leds) : ∀ (h : List Nat) (j : Nat) (e : Leds), (∀ x ∈ l, Sound b x) → l[j]? = some e →
    ∃ e', (startAll b h l).2[j]? = some e' ∧ Placed b (startAll b h l).1 e e' := by
  induction l with
  | nil => intro h j e _ hj; simp at hj
  | cons x l ih =>
    intro h j e hs hj
    cases j with
    | zero =>
      have hx : x = e := by simpa using hj
      subst hx
      refine ⟨(start b h x).2, rfl, start_io b h x, ?_⟩
      obtain ⟨c, hc⟩ := startAll_grows b l (start b h x).1
      show _ ∨ (_ ∧ _ ∧ ∃ a c, (startAll b (start b h x).1 l).1 = _ ∧ _)
      rw [hc]
      unfold start
      by_cases hb : b = .esp32v2
      · by_cases hi : x.io = false
        · right
          rw [if_pos ⟨hb, .inl hi⟩]
          exact ⟨hb, hi, h, c, rfl, rfl⟩
        · left
          have hk : ¬ x.kind = .rgbw := fun hk => hi (hs x (List.mem_cons_self ..) hb hk)
          rw [if_neg (fun w => w.2.elim hi hk)]
          exact ⟨rfl, fun _ => by simpa using hi⟩
      · left
        rw [if_neg (fun w => hb w.1)]
        exact ⟨rfl, fun w => absurd w hb⟩
    | succ j =>
      have := ih (start b h x).1 j e (fun y hy => hs y (List.mem_cons_of_mem _ hy)) (by simpa using hj)
      simpa [startAll] using this

theorem channels_length (b : Board) (l : List Leds) : ∀ h, (∀ x ∈ l, Sound b x) →
    (startAll b h l).1.length ≤ h.length + channels l := by
  induction l with
  | nil => intro h _; exact Nat.le_refl _
  | cons e l ih =>
    intro h hs
    have := ih (start b h e).1 (fun y hy => hs y (List.mem_cons_of_mem _ hy))
    have h2 : (start b h e).1.length ≤ h.length + (if e.io then 0 else e.pins.length) := by
      unfold start
      split
      · rename_i hc
        have hi : e.io = false := hc.2.elim id (fun hk => hs e (List.mem_cons_self ..) hc.1 hk)
        rw [hi]
        simp
      · exact Nat.le_add_right _ _
    show (startAll b (start b h e).1 l).1.length ≤ h.length + ((if e.io then 0 else e.pins.length) + channels l)
    omega

theorem through_channels (a ps c vals : List Nat) (hlen : a.length + ps.length ≤ 16) :
    ((List.range' a.length ps.length).zip vals).map (fun p => (target .esp32v2 (a ++ ps ++ c) false p.1, duty .esp32v2 false p.2)) =
      (ps.zip vals).map (fun p => (some (Line.native p.1), duty .esp32v2 false p.2)) := by
  induction ps generalizing a vals with
  | nil => rfl
  | cons p ps ih =>
    cases vals with
    | nil => simp
    | cons v vals =>
      have hl : a.length + (ps.length + 1) ≤ 16 := hlen
      have e1 : List.range' a.length (p :: ps).length = a.length :: List.range' (a ++ [p]).length ps.length := by
        rw [List.length_cons, List.range'_succ, List.length_append]; rfl
      rw [e1, List.zip_cons_cons, List.map_cons, List.zip_cons_cons, List.map_cons]
      have e2 : target .esp32v2 (a ++ p :: ps ++ c) false a.length = some (Line.native p) := by
        unfold target
        rw [if_neg Bool.false_ne_true, if_pos rfl, if_pos (by omega)]
        simp
      have e3 := ih (a ++ [p]) vals (by rw [List.length_append, List.length_singleton]; omega)
      have e4 : a ++ [p] ++ ps ++ c = a ++ p :: ps ++ c := by simp
      rw [e4] at e3
      rw [e2, e3]

/-- **C113 (own pins).** On every device, whatever other lights it has and in whatever order they are set up: a light writes each
of its values to its own pin and to no other line, provided an ESP32 with core 2.x needs no more than its 16 channels and
no `RGBWLeds` on such an ESP32 uses an expander. -/
theorem own_pins_partial (b : Board) (lights : List Leds) (j : Nat) (e : Leds) (vals : List Nat) (hj : lights[j]? = some e)
    (hs : ∀ x ∈ lights, Sound b x) (hc : b = .esp32v2 → channels lights ≤ 16) :
    shown b lights j vals = ((own e).zip vals).map fun p => (some p.1, duty b e.io p.2) := by
  obtain ⟨e', he, hp⟩ := startAll_placed b lights [] j e hs hj
  unfold shown
  rw [he]
  have hz : ((own e).zip vals).map (fun p => (some p.1, duty b e.io p.2)) =
      (e.pins.zip vals).map fun p => (some ((if e.io then Line.expander else Line.native) p.1), duty b e.io p.2) := by
    unfold own
    rw [List.zip_map_left, List.map_map]
    rfl
  rw [hz]
  dsimp only
  rw [hp.io]
  rcases hp.pins with ⟨h1, h2⟩ | ⟨hb, hi, a, c, h1, h2⟩
  · rw [h1]
    apply List.map_congr_left
    intro p _
    unfold target
    cases hio : e.io with
    | true => simp
    | false =>
      have hb : ¬ b = .esp32v2 := fun w => by rw [h2 w] at hio; cases hio
      simp [hb]
  · have hl := channels_length b lights [] hs
    have hcc := hc hb
    rw [h1] at hl ⊢
    rw [h2, hi]
    subst hb
    have : a.length + e.pins.length ≤ 16 := by
      simp only [List.length_append, List.length_nil] at hl
      omega
    rw [through_channels a e.pins c vals this]
    rfl

/-- A dimmer, a strip and a light on an expander. -/
example : shown .esp32v2 [⟨.dimmer, false, [4]⟩, ⟨.rgb, false, [12, 13, 14]⟩, ⟨.rgb, true, [0, 1, 2]⟩] 1 [1023, 0, 5] =
      [(some (.native 12), 1023), (some (.native 13), 0), (some (.native 14), 5)] ∧
    shown .esp32v2 [⟨.dimmer, false, [4]⟩, ⟨.rgb, false, [12, 13, 14]⟩, ⟨.rgb, true, [0, 1, 2]⟩] 2 [1023, 0, 5] =
      [(some (.expander 0), 4095), (some (.expander 1), 0), (some (.expander 2), 20)] := by decide

/-- The full claims about pins. -/
def OwnPins : Prop :=
  ∀ (b : Board) (lights : List Leds) (j : Nat) (e : Leds) (vals : List Nat), lights[j]? = some e →
    shown b lights j vals = ((own e).zip vals).map fun p => (some p.1, duty b e.io p.2)

/-- See `OwnPins`: a light on an expander takes no pin of the board. -/
def LeavesNative : Prop := ∀ e : Leds, e.io = true → claimed e = []

/-- **C113 (violation).** An `RGBWLeds` on an expander, on an ESP32 with core 2.x, writes to the wrong outputs of the expander: it
has replaced its pins by PWM channels.  On every board it also turns the pins of the board with the same numbers into outputs
(on the ESP32 1 and 3 are the serial port). -/
theorem rgbw_expander_violation : ¬ OwnPins ∧ ¬ LeavesNative ∧
    shown .esp32v2 [⟨.dimmer, false, [4]⟩, ⟨.rgbw, true, [8, 9, 10, 11]⟩] 1 [1023, 0, 0, 0] =
      [(some (.expander 1), 4095), (some (.expander 2), 0), (some (.expander 3), 0), (some (.expander 4), 0)] := by
  refine ⟨fun h => ?_, fun h => ?_, by decide⟩
  · have := h .esp32v2 [⟨.rgbw, true, [8, 9, 10, 11]⟩] 0 _ [1023, 0, 0, 0] rfl
    revert this
    decide
  · have := h ⟨.rgbw, true, [1, 2, 3, 4]⟩ rfl
    revert this
    decide

/-- **C113 (violation).** The seventeenth PWM output of an ESP32 with core 2.x stays dark. -/
theorem channels_violation :
    shown .esp32v2 [⟨.rgbw, false, [1, 2, 3, 4]⟩, ⟨.rgbw, false, [5, 6, 7, 8]⟩, ⟨.rgbw, false, [9, 10, 11, 12]⟩,
      ⟨.rgbw, false, [13, 14, 15, 16]⟩, ⟨.dimmer, false, [17]⟩] 4 [1023] = [(none, 1023)] := by decide

/-! ## Duty -/

/-- **C113 (duty).** The duty written is the value asked for, to less than one step of the output. -/
theorem duty_close_partial (b : Board) (io : Bool) (x : Nat) (h : x ≤ 1023) (hb : ¬ (b = .avr ∧ io = true)) :
    duty b io x * 1023 ≤ x * full b io ∧ x * full b io ≤ duty b io x * 1023 + 1023 ∧ duty b io x ≤ full b io := by
  unfold duty full scale
  cases io with
  | true =>
    have hb' : b ≠ .avr := fun w => hb ⟨w, rfl⟩
    rw [if_pos rfl, if_neg hb', if_pos rfl]
    refine ⟨?_, ?_, ?_⟩ <;> omega
  | false =>
    rw [if_neg Bool.false_ne_true, if_neg Bool.false_ne_true]
    cases b with
    | avr => rw [if_pos rfl]; refine ⟨?_, ?_, ?_⟩ <;> dsimp only <;> omega
    | esp8266 => rw [if_neg (by decide)]; refine ⟨?_, ?_, ?_⟩ <;> dsimp only <;> omega
    | esp32v2 => rw [if_neg (by decide)]; refine ⟨?_, ?_, ?_⟩ <;> dsimp only <;> omega
    | esp32v3 => rw [if_neg (by decide)]; refine ⟨?_, ?_, ?_⟩ <;> dsimp only <;> omega

/-- **C113 (colour).** A colour component with its brightness is their product, to less than one step of 1023; no step is lost at
either end. -/
theorem mix_close (c cb : Nat) (hc : c ≤ 1023) (hb : cb ≤ 1023) :
    mix c cb * 1023 ≤ c * cb ∧ c * cb < mix c cb * 1023 + 1023 ∧ mix c cb ≤ 1023 ∧ mix c 0 = 0 ∧ mix 0 cb = 0 ∧
    mix c 1023 = c ∧ mix 1023 cb = cb := by
  have h : c * cb ≤ 1023 * 1023 := Nat.mul_le_mul hc hb
  have e : mix c cb = c * cb / 1023 := by unfold mix; rw [Nat.mod_eq_of_lt (by omega)]
  rw [e]
  generalize c * cb = p at h ⊢
  refine ⟨by omega, by omega, by omega, ?_, ?_, ?_, ?_⟩
  · unfold mix; simp
  · unfold mix; simp
  · unfold mix; omega
  · unfold mix; omega

/-- **C113 (brighter is brighter).** A larger value never gives a smaller duty, and 0 is off. -/
theorem duty_mono (b : Board) (io : Bool) (x y : Nat) (h : x ≤ y) : duty b io x ≤ duty b io y ∧ duty b io 0 = 0 := by
  have hs : ∀ t x y : Nat, x ≤ y → scale t x ≤ scale t y := fun t x y h => Nat.div_le_div_right (Nat.mul_le_mul_right _ h)
  have hz : ∀ t, scale t 0 = 0 := fun t => by unfold scale; simp
  unfold duty
  refine ⟨?_, ?_⟩
  · split
    · split
      · exact hs _ _ _ (hs _ _ _ h)
      · exact hs _ _ _ h
    · split
      · exact hs _ _ _ h
      · exact h
  · split
    · split
      · rw [hz, hz]
      · exact hz _
    · split
      · exact hz _
      · rfl

/-- **C113 (on is on).** Except on AVR boards, every value above 0 gives light. -/
theorem on_is_on_partial (b : Board) (io : Bool) (x : Nat) (h : 0 < x) (hb : b ≠ .avr) : 0 < duty b io x := by
  unfold duty scale
  rw [if_neg hb]
  split <;> omega

/-- The full claims about the duty. -/
def Close : Prop :=
  ∀ (b : Board) (io : Bool) (x : Nat), x ≤ 1023 → x * full b io ≤ duty b io x * 1023 + 1023

/-- See `Close`: on is on, and the highest value is fully on. -/
def OnIsOn : Prop := ∀ (b : Board) (io : Bool) (x : Nat), 0 < x → 0 < duty b io x

/-- See `Close`. -/
def FullIsFull : Prop := ∀ (b : Board) (io : Bool), duty b io 1023 = full b io

/-- **C113 (violation).** On an AVR board the values 1 to 4 are dark, and with an expander the brightest light gets a quarter of
the duty, because the value is scaled to 255 first; on an ESP8266 the brightest light is not fully on. -/
theorem duty_violation : ¬ Close ∧ ¬ OnIsOn ∧ ¬ FullIsFull ∧ (∀ x, x ≤ 1023 → duty .avr true x * 4 ≤ 4095) := by
  refine ⟨fun h => ?_, fun h => ?_, fun h => ?_, fun x hx => ?_⟩
  · have := h .avr true 1023 (by decide); revert this; decide
  · have := h .avr false 4 (by decide); revert this; decide
  · have := h .esp8266 false; revert this; decide
  · unfold duty scale
    rw [if_pos rfl, if_pos rfl]
    omega

/-- On an ESP32, on AVR pins and on an expander of an ESP the highest value is fully on. -/
theorem full_is_full_partial (b : Board) (io : Bool) (h1 : ¬ (b = .avr ∧ io = true)) (h2 : ¬ (b = .esp8266 ∧ io = false)) :
    duty b io 1023 = full b io := by
  cases b <;> cases io <;> first | rfl | exact absurd ⟨rfl, rfl⟩ h1 | exact absurd ⟨rfl, rfl⟩ h2

end Verif.Pwm
