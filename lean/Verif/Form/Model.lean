import Verif.Form.Spec

/-!
# Settings on the configuration page: numbers, lists and switches

Cited as S: `/repo/src/supla/network/web_sender.cpp`; the other files are in
`/repo/src/supla/network/html/`: CC `channel_correction.cpp`, BH `button_hold_time_parameters.cpp`,
BM `button_multiclick_parameters.cpp`, SB `screen_brightness_parameters.cpp`, SD
`screen_delay_parameters.cpp`, VO `volume_parameters.cpp`, SL `status_led_parameters.cpp`, PL
`power_status_led_parameters.cpp`, DU `disable_user_interface_parameter.cpp`, EP `em_phase_led.cpp`, CP
`custom_parameter.cpp`, SI `select_input_parameter.cpp`.

Each page element is given by its controls and by the handler of what comes back. The text around the
controls is left out (the text of such a page is modelled in `Verif.Html`), and so are the keys: the
fields of an element are told apart by constructors, where the code compares strings. What is stored is
`none` if it was never stored. A signed overflow is `none` as a result.
-/

namespace Verif.Form
open Verif.Tools

/-! ## Printing numbers -/

/-- The last `n` decimal digits of a number. -/
def lastDigits : Nat → Nat → List Nat
  | 0, _ => []
  | n + 1, m => lastDigits n (m / 10) ++ [48 + m % 10]

/-- `%.*f`. -/
def fixedText (P : Printf) (p : Nat) (x : Rat) : List Nat :=
  let m := P.units p (if x < 0 then -x else x)
  (if x < 0 then [45] else []) ++ decimalText (m / 10 ^ p) ++ (if p = 0 then [] else 46 :: lastDigits p m)

/-- `send(int, int)`, S lines 39-46: the decimal places that are printed. -/
def printPlaces (n : Int) (p : Nat) : Nat := p - ((List.range p).filter (fun i => decide (n % 10 ^ (i + 1) = 0))).length

/-- `send(int, int)`, S lines 34-51. The converted number and the quotient are `float`s. -/
def sendFixed (P : Printf) (F : Single) (n : Int) (p : Nat) : List Nat :=
  fixedText P (printPlaces n p) (F.rnd (F.rnd n / 10 ^ p))

/-- `%.1f` of hundredths, as in DU lines 101 and 128 and EP. The quotient is a `double`: its error is too
small to matter except in the middle between two results, where `Printf` says nothing anyway, so it is
exact here. -/
def tenths (P : Printf) (t : Int) : List Nat := fixedText P 1 ((t : Rat) / 100)

/-- A computation with `int32_t`. -/
def ofRes : Res → Option Int
  | .ub => none
  | .val n => some n

/-- The fields that come back, one after another. -/
def handleAll {κ σ : Type} (handle : κ → List Nat → σ → Option σ) (s : σ) (fs : List (κ × List Nat)) : Option σ :=
  fs.foldlM (fun s f => handle f.1 f.2 s) s

/-- Limits. -/
def clampTo (lo hi v : Int) : Int := if v < lo then lo else if v > hi then hi else v

/-! ## One number -/

/-- What is stored, and whether something was noted to be sent to the server. -/
structure One where
  v : Option Int
  changed : Bool
deriving DecidableEq, Repr

/-- `ChannelCorrection::send`, CC lines 53-79. -/
def correctionForm (P : Printf) (F : Single) (s : One) : List (Field Unit) :=
  [⟨(), false, .number (sendFixed P F (s.v.getD 0) 1)⟩]

/-- `ChannelCorrection::handleResponse`, CC lines 81-100. -/
def correctionTake (_ : Unit) (t : List Nat) (s : One) : Option One :=
  (ofRes (floatStringToInt 1 t)).map fun n =>
    if -500 ≤ n ∧ n ≤ 500 then (if s.v.getD 0 ≠ n then ⟨some n, true⟩ else s) else s

/-- `send`, BH lines 35-53 with 700 and BM lines 40-58 with 300 as the default. -/
def buttonForm (P : Printf) (F : Single) (dflt : Int) (s : One) : List (Field Unit) :=
  [⟨(), false, .number (sendFixed P F (s.v.getD dflt) 3)⟩]

/-- `handleResponse`, BH lines 55-66 and BM lines 60-71; the number is converted to `uint32_t`. -/
def buttonTake (_ : Unit) (t : List Nat) (s : One) : Option One :=
  (ofRes (floatStringToInt 3 t)).map fun n =>
    if 200 ≤ n % 2 ^ 32 ∧ n % 2 ^ 32 ≤ 10000 then { s with v := some (n % 2 ^ 32) } else s

/-- `ScreenDelayParameters::send`, SD lines 39-64. -/
def delayForm (P : Printf) (F : Single) (s : One) : List (Field Unit) :=
  [⟨(), false, .number (sendFixed P F (clampTo 0 65535 (s.v.getD 0)) 0)⟩]

/-- `ScreenDelayParameters::handleResponse`, SD lines 66-96. -/
def delayTake (_ : Unit) (t : List Nat) (s : One) : Option One :=
  (ofRes (stringToInt t)).map fun n =>
    if clampTo 0 65535 n ≠ clampTo 0 65535 (s.v.getD 0) then ⟨some (clampTo 0 65535 n), true⟩ else s

/-- `VolumeParameters::send`, VO lines 39-62; the stored value is a `uint8_t`. -/
def volumeForm (P : Printf) (F : Single) (s : One) : List (Field Unit) :=
  [⟨(), false, .slider 0 100 1 (sendFixed P F (clampTo 0 100 (s.v.getD 0)) 0)⟩]

/-- `VolumeParameters::handleResponse`, VO lines 64-92. -/
def volumeTake (_ : Unit) (t : List Nat) (s : One) : Option One :=
  (ofRes (stringToInt t)).map fun n =>
    if clampTo 0 100 n ≠ clampTo 0 100 (s.v.getD 0) then ⟨some (clampTo 0 100 n), true⟩ else s

/-- `CustomParameter::send`, CP lines 61-78; `held` is the value in memory when nothing is stored. -/
def customForm (held : Int) (s : One) : List (Field Unit) := [⟨(), false, .number (wholeText (s.v.getD held))⟩]

/-- `CustomParameter::handleResponse`, CP lines 80-87. -/
def customTake (_ : Unit) (t : List Nat) (s : One) : Option One :=
  (ofRes (stringToInt t)).map fun n => { s with v := some n }

/-! ## Lists -/

/-- An option of a list of numbers. -/
def option (n : Int) (sel : Bool) : List Nat × Bool := (wholeText n, sel)

/-- The status LED (`top` is 2, SL lines 40-71) and the power LED (`top` is 1, PL lines 39-66): `send`. -/
def ledForm (top : Nat) (s : One) : List (Field Unit) :=
  [⟨(), false, .list ((List.range (top + 1)).map (fun (n : Nat) => option n (decide (s.v.getD 0 = n))))⟩]

/-- `handleResponse`, SL lines 73-102 and PL lines 68-94. -/
def ledTake (top : Nat) (_ : Unit) (t : List Nat) (s : One) : Option One :=
  let led : Int := stringToUInt t
  some (if s.v.getD (-1) ≠ led then ⟨some (if led ≤ top then led else 0), true⟩ else s)

/-- `SelectInputParameter::send`, SI lines 108-151: the registered names with their numbers. -/
def selectForm (names : List (List Nat × Int)) (s : One) : List (Field Unit) :=
  [⟨(), false, .list (names.map (fun x => (x.1, decide (s.v.getD 0 = x.2))))⟩]

/-- `SelectInputParameter::handleResponse`, SI lines 153-192: the first name that is the same. -/
def selectTake (names : List (List Nat × Int)) (_ : Unit) (t : List Nat) (s : One) : Option One :=
  match names.find? (fun x => x.1 == t) with
  | some x => some (if s.v.getD 0 ≠ x.2 then { s with v := some x.2 } else s)
  | none => some s

/-! ## Brightness of the screen -/

/-- The stored brightness (-1 is automatic), the stored adjustment, `checkboxFound`. -/
structure Screen where
  bright : Option Int
  adjust : Option Int
  found : Bool
  changed : Bool
deriving DecidableEq, Repr

/-- The fields, SB. -/
inductive ScreenKey | auto | bright | adjust
deriving DecidableEq, Repr

/-- The brightness that is shown, SB lines 38-47. -/
def Screen.level (s : Screen) : Int :=
  if s.bright.getD (-1) = -1 then 100 else if s.bright.getD (-1) ≤ 0 then 1 else if s.bright.getD (-1) > 100 then 100 else s.bright.getD (-1)

/-- `ScreenBrightnessParameters::send`, SB lines 39-141. -/
def screenForm (P : Printf) (F : Single) (s : Screen) : List (Field ScreenKey) :=
  [⟨.auto, false, .box (decide (s.bright.getD (-1) = -1))⟩,
   ⟨.adjust, false, .slider (-100) 100 10 (sendFixed P F (clampTo (-100) 100 (s.adjust.getD 0)) 0)⟩,
   ⟨.bright, false, .slider 1 100 1 (sendFixed P F s.level 0)⟩]

/-- `ScreenBrightnessParameters::handleResponse`, SB lines 143-210. -/
def screenTake (k : ScreenKey) (t : List Nat) (s : Screen) : Option Screen :=
  match k with
  | .auto => some (if s.bright.getD (-1) ≠ -1 then { s with found := true, bright := some (-1), changed := true } else { s with found := true })
  | .bright =>
    if s.found then some s
    else (ofRes (stringToInt t)).map fun n =>
      if s.bright.getD (-1) ≠ clampTo 1 100 n then { s with bright := some (clampTo 1 100 n), changed := true } else s
  | .adjust =>
    if !s.found then some s
    else (ofRes (stringToInt t)).map fun n =>
      if s.adjust.getD 0 ≠ clampTo (-100) 100 n then { s with adjust := some (clampTo (-100) 100 n), changed := true } else s

/-- `onProcessingEnd`, SB lines 212-214. -/
def Screen.done (s : Screen) : Screen := { s with found := false }

/-! ## Restriction of the local interface -/

/-- What is stored: the restriction and the two temperatures in hundredths. -/
structure Local where
  mode : Option Int
  lo : Option Int
  hi : Option Int
  changed : Bool
deriving DecidableEq, Repr

/-- The fields, DU. -/
inductive LocalKey | mode | lo | hi
deriving DecidableEq, Repr

/-- `DisableUserInterfaceParameter::send`, DU lines 40-136. -/
def localForm (P : Printf) (s : Local) : List (Field LocalKey) :=
  [⟨.mode, false, .list [option 0 (decide (s.mode.getD 0 = 0)), option 1 (decide (s.mode.getD 0 = 1)), option 2 (decide (s.mode.getD 0 = 2))]⟩,
   ⟨.lo, false, .number (tenths P (clampTo (-32768) 32767 (s.lo.getD 0)))⟩,
   ⟨.hi, false, .number (tenths P (clampTo (-32768) 32767 (s.hi.getD 0)))⟩]

/-- `DisableUserInterfaceParameter::handleResponse`, DU lines 138-191; the restriction is a `uint8_t`. -/
def localTake (k : LocalKey) (t : List Nat) (s : Local) : Option Local :=
  match k with
  | .mode =>
    let n : Int := (stringToUInt t % 256 : Nat)
    let n := if n > 2 then 2 else n
    some (if n ≠ s.mode.getD 0 then { s with mode := some n, changed := true } else s)
  | .lo => (ofRes (floatStringToInt 2 t)).map fun n =>
      if clampTo (-32768) 32767 n ≠ s.lo.getD 0 then { s with lo := some (clampTo (-32768) 32767 n), changed := true } else s
  | .hi => (ofRes (floatStringToInt 2 t)).map fun n =>
      if clampTo (-32768) 32767 n ≠ s.hi.getD 0 then { s with hi := some (clampTo (-32768) 32767 n), changed := true } else s

/-! ## Phase LED of a meter -/

/-- The fields, EP; also used for what is stored. -/
inductive PhaseKey | type | voltLow | voltHigh | powLow | powHigh
deriving DecidableEq, Repr

/-- What is stored. -/
structure Phase where
  v : PhaseKey → Option Int
  changed : Bool

/-- `EmPhaseLedParameters::send`, EP lines 40-196. `held` is what the meter returns; the type shown is the meter's, the
levels are the stored ones or the meter's. `offered` are the supported types. -/
def phaseForm (P : Printf) (held : PhaseKey → Int) (offered : Int → Bool) (s : Phase) : List (Field PhaseKey) :=
  [⟨.type, false, .list (((List.range 5).filter (fun (n : Nat) => offered n)).map (fun (n : Nat) => option n (decide (held .type = n))))⟩,
   ⟨.voltLow, false, .number (tenths P ((s.v .voltLow).getD (held .voltLow)))⟩,
   ⟨.voltHigh, false, .number (tenths P ((s.v .voltHigh).getD (held .voltHigh)))⟩,
   ⟨.powLow, false, .number (tenths P ((s.v .powLow).getD (held .powLow)))⟩,
   ⟨.powHigh, false, .number (tenths P ((s.v .powHigh).getD (held .powHigh)))⟩]

/-- A stored number is replaced if it is another one. -/
def Phase.put (held : PhaseKey → Int) (s : Phase) (k : PhaseKey) (n new : Int) : Phase :=
  if (s.v k).getD (held k) ≠ n then ⟨fun j => if j = k then some new else s.v j, true⟩ else s

/-- `EmPhaseLedParameters::handleResponse`, EP lines 198-275. The type is an `int`; a text that
stands for a number from 2^31 on, which no page offers, is treated like any other one above 4 here. -/
def phaseTake (held : PhaseKey → Int) (k : PhaseKey) (t : List Nat) (s : Phase) : Option Phase :=
  match k with
  | .type =>
    let n : Int := stringToUInt t
    some (s.put held .type n (if n > 4 then 1 else n))
  | k => (ofRes (floatStringToInt 2 t)).map fun n => s.put held k n n

end Verif.Form
