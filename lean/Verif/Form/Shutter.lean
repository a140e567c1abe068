import Verif.Form.Props
import Verif.Shutter.Model

/-!
# The page of a roller shutter

`/repo/src/supla/network/html/roller_shutter_parameters.cpp` (RP below) over the roller shutter of
`Verif.Shutter.Model`. `RollerShutterInterface` is RSI as there.
-/

namespace Verif.Form
open Verif.Tools
open Verif.Shutter (RS)

/-- A roller shutter with the function of its channel. -/
structure Blind where
  rs : RS
  fn : Nat
deriving DecidableEq, Repr

/-- The fields. -/
inductive BlindKey | fn | motor | buttons | margin | opening | closing
deriving DecidableEq, Repr

/-- The functions in the order of the page, RP lines 84-140 (numbers of `proto.h` 442-493). -/
def blindFns : List Nat := [110, 115, 910, 950, 930, 920, 900, 940]

/-- A choice of NO (0) and YES (1), RP lines 146-180. -/
def yesNo (v : Nat) : Control := .list [option 0 (decide (v ≠ 2)), option 1 (decide (v = 2))]

/-- `RollerShutterParameters::send`, RP lines 47-237. `sup` is `isFunctionSupported` (RSI lines 60-95). -/
def blindForm (P : Printf) (F : Single) (sup : Nat → Bool) (s : Blind) : List (Field BlindKey) :=
  [⟨.fn, false, .list ((blindFns.filter sup).map (fun (n : Nat) => option n (decide (s.fn = n))))⟩] ++
  (if s.rs.motor ≠ 0 then [⟨.motor, false, yesNo s.rs.motor⟩] else []) ++
  (if s.rs.buttons ≠ 0 then [⟨.buttons, false, yesNo s.rs.buttons⟩] else []) ++
  [⟨.margin, false, .number (wholeText s.rs.margin)⟩,
   ⟨.opening, false, .number (sendFixed P F (s.rs.opening / 100 : Nat) 1)⟩,
   ⟨.closing, false, .number (sendFixed P F (s.rs.closing / 100 : Nat) 1)⟩]

/-- `floatStringToInt(value, 1) * 100` converted to `uint32_t`, RP lines 286 and 294. -/
def timeOf (t : List Nat) : Option Nat :=
  (ofRes (floatStringToInt 1 t)).bind fun n =>
    if -2147483648 ≤ n * 100 ∧ n * 100 ≤ 2147483647 then some (n * 100 % 2 ^ 32).toNat else none

/-- `setRsConfigMotorUpsideDownValue`, RSI lines 799-804. -/
def setMotor (v : Nat) (s : RS) : RS := if s.motor ≠ 0 ∧ v > 0 ∧ v < 3 then { s with motor := v } else s
/-- `setRsConfigButtonsUpsideDownValue`, RSI lines 806-811. -/
def setButtons (v : Nat) (s : RS) : RS := if s.buttons ≠ 0 ∧ v > 0 ∧ v < 3 then { s with buttons := v } else s
/-- `setRsConfigTimeMarginValue`, RSI lines 813-818. -/
def setMargin (v : Int) (s : RS) : RS := if v ≥ -1 ∧ v ≤ 100 then { s with margin := v } else s

/-- `RollerShutterParameters::handleResponse`, RP lines 239-303. -/
def blindTake (sup : Nat → Bool) (k : BlindKey) (t : List Nat) (s : Blind) : Option Blind :=
  match k with
  | .fn => some (if sup (stringToUInt t) then { s with fn := stringToUInt t } else s)
  | .motor => some { s with rs := setMotor (if stringToUInt t = 1 then 2 else 1) s.rs }
  | .buttons => some { s with rs := setButtons (if stringToUInt t = 1 then 2 else 1) s.rs }
  | .margin => some { s with rs := setMargin (Shutter.toInt8 (stringToUInt t)) s.rs }
  | .opening => (timeOf t).map fun n => { s with rs := Shutter.setTimes s.rs.closing n s.rs }
  | .closing => (timeOf t).map fun n => { s with rs := Shutter.setTimes n s.rs.opening s.rs }

/-- Saving the page untouched. -/
def blindSave (P : Printf) (F : Single) (sup : Nat → Bool) (s : Blind) : Option Blind :=
  handleAll (blindTake sup) s (submitted (blindForm P F sup s))

/-- Settings that can be made: a supported function, "upside down" settings not available, no or yes,
a time margin from -1 (default) to 101, times within the limits of the page (300 s). -/
def Blind.sound (sup : Nat → Bool) (s : Blind) : Prop :=
  (s.fn ∈ blindFns ∧ sup s.fn = true) ∧ s.rs.motor ≤ 2 ∧ s.rs.buttons ≤ 2 ∧ (-1 ≤ s.rs.margin ∧ s.rs.margin ≤ 101) ∧
  s.rs.opening ≤ 300000 ∧ s.rs.closing ≤ 300000

/-- The claim: nothing changes, neither settings nor position. -/
def BlindUntouched (P : Printf) (F : Single) : Prop := ∀ sup s, s.sound sup → blindSave P F sup s = some s

theorem blind_fn_shown (sup : Nat → Bool) (n : Nat) (h1 : n ∈ blindFns) (h2 : sup n = true) :
    shown ((blindFns.filter sup).map (fun (m : Nat) => option m (decide (n = m)))) = some (wholeText n) := by
  have := shown_number ((blindFns.filter sup).map (fun (m : Nat) => (m : Int))) n
    (List.mem_map.mpr ⟨n, List.mem_filter.mpr ⟨h1, h2⟩, rfl⟩)
  rw [List.map_map] at this
  rw [← this]
  congr 1
  apply List.map_congr_left
  intro m _
  show option m (decide (n = m)) = option m (decide ((n : Int) = m))
  congr 1
  simp

theorem fn_small (n : Nat) (h : n ∈ blindFns) : n < 2 ^ 32 := by
  simp only [blindFns, List.mem_cons, List.not_mem_nil, or_false] at h
  omega

theorem timeOf_shown (P : Printf) (F : Single) (n : Nat) (h : n ≤ 300000) : timeOf (sendFixed P F (n / 100 : Nat) 1) = some (n / 100 * 100) := by
  have := sendFixed_read P F ((n / 100 : Nat) : Int) 1 (by omega) (by omega)
  unfold timeOf
  rw [show (1 : Int) = ((1 : Nat) : Int) from rfl, this]
  show (if -2147483648 ≤ ((n / 100 : Nat) : Int) * 100 ∧ ((n / 100 : Nat) : Int) * 100 ≤ 2147483647 then _ else _) = _
  rw [if_pos (by omega)]
  congr 1
  omega

/-- What is posted for "upside down" is what is set. -/
theorem motor_same (s : RS) (h0 : s.motor ≠ 0) (h2 : s.motor ≤ 2) :
    ∃ t, (yesNo s.motor).untouched = some t ∧ setMotor (if stringToUInt t = 1 then 2 else 1) s = s := by
  have hm : s.motor = 1 ∨ s.motor = 2 := by omega
  rcases hm with hm | hm
  · refine ⟨wholeText 0, by rw [hm]; rfl, ?_⟩
    rw [show (if stringToUInt (wholeText 0) = 1 then 2 else 1) = 1 from by decide]
    unfold setMotor
    split
    · rw [← hm]
    · rfl
  · refine ⟨wholeText 1, by rw [hm]; rfl, ?_⟩
    rw [show (if stringToUInt (wholeText 1) = 1 then 2 else 1) = 2 from by decide]
    unfold setMotor
    split
    · rw [← hm]
    · rfl

theorem buttons_same (s : RS) (h0 : s.buttons ≠ 0) (h2 : s.buttons ≤ 2) :
    ∃ t, (yesNo s.buttons).untouched = some t ∧ setButtons (if stringToUInt t = 1 then 2 else 1) s = s := by
  have hm : s.buttons = 1 ∨ s.buttons = 2 := by omega
  rcases hm with hm | hm
  · refine ⟨wholeText 0, by rw [hm]; rfl, ?_⟩
    rw [show (if stringToUInt (wholeText 0) = 1 then 2 else 1) = 1 from by decide]
    unfold setButtons
    split
    · rw [← hm]
    · rfl
  · refine ⟨wholeText 1, by rw [hm]; rfl, ?_⟩
    rw [show (if stringToUInt (wholeText 1) = 1 then 2 else 1) = 2 from by decide]
    unfold setButtons
    split
    · rw [← hm]
    · rfl

theorem handle_cons {κ σ : Type} (take : κ → List Nat → σ → Option σ) (s : σ) (k : κ) (c : Control) (t : List Nat) (l : List (Field κ))
    (h : c.untouched = some t) : handleAll take s (submitted (⟨k, false, c⟩ :: l)) = (take k t s).bind (fun s => handleAll take s (submitted l)) := by
  simp [handleAll, submitted, h]

theorem handle_nil {κ σ : Type} (take : κ → List Nat → σ → Option σ) (s : σ) : handleAll take s (submitted []) = some s := rfl

/-- The margin that is stored: what is shown is read without its sign. -/
def keptMargin (m : Int) : Int := if m < 0 then 0 else m

theorem margin_kept (s : RS) (h : -1 ≤ s.margin ∧ s.margin ≤ 101) :
    setMargin (Shutter.toInt8 (stringToUInt (wholeText s.margin))) s = { s with margin := keptMargin s.margin } := by
  by_cases hn : s.margin = -1
  · rw [hn, show Shutter.toInt8 (stringToUInt (wholeText (-1))) = 0 from by decide]
    rfl
  · have hu := wholeText_uint s.margin.toNat (by omega)
    rw [show ((s.margin.toNat : Nat) : Int) = s.margin from by omega] at hu
    have hk : keptMargin s.margin = s.margin := by unfold keptMargin; rw [if_neg (by omega)]
    rw [hu, hk, show ((s.margin.toNat : Nat) : Int) = s.margin from by omega]
    have ht : Shutter.toInt8 s.margin = s.margin := by unfold Shutter.toInt8; omega
    rw [ht]
    unfold setMargin
    split
    · rfl
    · rfl

/-- The roller shutter after margin and opening time came back. -/
def opened (r : RS) : RS := Shutter.setTimes r.closing (r.opening / 100 * 100) { r with margin := keptMargin r.margin }

/-- What saving the untouched page really does. -/
theorem blind_save (P : Printf) (F : Single) (sup : Nat → Bool) (s : Blind) (hs : s.sound sup) :
    blindSave P F sup s = some { s with rs := Shutter.setTimes (s.rs.closing / 100 * 100) (opened s.rs).opening (opened s.rs) } := by
  obtain ⟨⟨hf, hsup⟩, hm, hb, hg, ho, hc⟩ := hs
  have hfs : (Control.list ((blindFns.filter sup).map (fun (n : Nat) => option n (decide (s.fn = n))))).untouched = some (wholeText s.fn) :=
    blind_fn_shown sup s.fn hf hsup
  have hfu := wholeText_uint s.fn (fn_small _ hf)
  have hfn : blindTake sup .fn (wholeText s.fn) s = some s := by
    unfold blindTake
    dsimp only
    rw [hfu, if_pos hsup]
  have hmo : ∀ l, handleAll (blindTake sup) s (submitted ((if s.rs.motor ≠ 0 then [⟨.motor, false, yesNo s.rs.motor⟩] else []) ++ l))
      = handleAll (blindTake sup) s (submitted l) := by
    intro l
    split
    · rename_i h0
      obtain ⟨t, ht, hk⟩ := motor_same s.rs h0 hm
      rw [List.singleton_append, handle_cons _ _ _ _ t _ ht]
      unfold blindTake
      dsimp only
      rw [hk]
      rfl
    · rfl
  have hbu : ∀ l, handleAll (blindTake sup) s (submitted ((if s.rs.buttons ≠ 0 then [⟨.buttons, false, yesNo s.rs.buttons⟩] else []) ++ l))
      = handleAll (blindTake sup) s (submitted l) := by
    intro l
    split
    · rename_i h0
      obtain ⟨t, ht, hk⟩ := buttons_same s.rs h0 hb
      rw [List.singleton_append, handle_cons _ _ _ _ t _ ht]
      unfold blindTake
      dsimp only
      rw [hk]
      rfl
    · rfl
  have hop := timeOf_shown P F s.rs.opening ho
  have hcl := timeOf_shown P F s.rs.closing hc
  unfold blindSave blindForm
  rw [List.append_assoc, List.append_assoc, List.singleton_append, handle_cons _ _ _ _ _ _ hfs, hfn, Option.bind_some, hmo, hbu,
    handle_cons _ _ _ _ _ _ (number_untouched _ (wholeText_isNumber _))]
  rw [show blindTake sup .margin (wholeText s.rs.margin) s = some { s with rs := { s.rs with margin := keptMargin s.rs.margin } } from by
    unfold blindTake; dsimp only; rw [margin_kept s.rs hg]]
  rw [Option.bind_some, handle_cons _ _ _ _ _ _ (number_untouched _ (sendFixed_isNumber P F _ _))]
  unfold blindTake
  dsimp only
  rw [hop, Option.map_some, Option.bind_some, handle_cons _ _ _ _ _ _ (number_untouched _ (sendFixed_isNumber P F _ _))]
  dsimp only
  rw [hcl]
  rfl

theorem setTimes_same (c o : Nat) (s : RS) (h1 : c = s.closing) (h2 : o = s.opening) (h3 : c < 2 ^ 32) (h4 : o < 2 ^ 32) :
    Shutter.setTimes c o s = s := by
  unfold Shutter.setTimes
  rw [if_neg]
  rintro ⟨_, h | h⟩ <;> omega

/-- **C97.** A roller shutter whose margin is not the default one and whose times are in tenths of a
second keeps everything. -/
theorem blind_untouched_partial (P : Printf) (F : Single) (sup : Nat → Bool) (s : Blind) (hs : s.sound sup)
    (hm : s.rs.margin ≠ -1) (ho : s.rs.opening % 100 = 0) (hc : s.rs.closing % 100 = 0) : blindSave P F sup s = some s := by
  rw [blind_save P F sup s hs]
  unfold opened
  obtain ⟨_, _, _, hg, hol, hcl⟩ := hs
  have hk : keptMargin s.rs.margin = s.rs.margin := by unfold keptMargin; rw [if_neg (by omega)]
  rw [hk]
  have e1 : Shutter.setTimes s.rs.closing (s.rs.opening / 100 * 100) s.rs = s.rs :=
    setTimes_same _ _ _ rfl (by omega) (by omega) (by omega)
  rw [show ({ s.rs with margin := s.rs.margin } : RS) = s.rs from rfl, e1]
  have e2 : Shutter.setTimes (s.rs.closing / 100 * 100) s.rs.opening s.rs = s.rs :=
    setTimes_same _ _ _ (by omega) rfl (by omega) (by omega)
  rw [e2]

example : (⟨{ motor := 2, margin := 10, opening := 20000, closing := 21500, pos := 40 }, 110⟩ : Blind).sound (fun n => n == 110 || n == 930) := by
  unfold Blind.sound; decide

/-- **Finding.** With the default margin, saving disables the margin for good: whatever configuration the server
sends from then on, its margin is not used. -/
theorem margin_disabled (P : Printf) (F : Single) (sup : Nat → Bool) (s : Blind) (hs : s.sound sup) (hm : s.rs.margin = -1) :
    ∃ r, blindSave P F sup s = some r ∧ r.rs.margin = 0 ∧ ∀ c, (Shutter.applyConfig c r.rs).margin = 0 := by
  refine ⟨_, blind_save P F sup s hs, ?_⟩
  have hk : keptMargin s.rs.margin = 0 := by rw [hm]; rfl
  have hst : ∀ c o (x : RS), (Shutter.setTimes c o x).margin = x.margin := by
    intro c o x; unfold Shutter.setTimes; split <;> rfl
  have h0 : ∀ r : RS, r.margin = 0 → ∀ c, (Shutter.applyConfig c r).margin = 0 := by
    intro r hr c
    have htg : ∀ n (x : RS), (Shutter.setTarget n x).margin = x.margin := fun n x => rfl
    unfold Shutter.applyConfig
    dsimp only
    have h1 : (if c.opening ≥ 0 ∧ c.closing ≥ 0 then Shutter.setTimes c.closing.toNat c.opening.toNat r else r).margin = 0 := by
      split
      · rw [hst, hr]
      · exact hr
    generalize (if c.opening ≥ 0 ∧ c.closing ≥ 0 then Shutter.setTimes c.closing.toNat c.opening.toNat r else r) = x at h1
    have h2 : (if x.inMove then x else Shutter.setTarget Shutter.stopPos x).margin = 0 := by
      split
      · exact h1
      · rw [htg, h1]
    generalize (if x.inMove then x else Shutter.setTarget Shutter.stopPos x) = y at h2
    rw [h2]
    simp
  refine ⟨?_, h0 _ ?_⟩
  all_goals
    dsimp only
    unfold opened
    rw [hst, hst]
    exact hk

/-- **Finding.** Times that are not in tenths of a second are cut off, and the position is lost: the shutter asks for
calibration. -/
theorem calibration_lost (P : Printf) (F : Single) (sup : Nat → Bool) (s : Blind) (hs : s.sound sup) (ha : s.rs.timeAvail = true)
    (h : s.rs.opening % 100 ≠ 0 ∨ s.rs.closing % 100 ≠ 0) :
    ∃ r, blindSave P F sup s = some r ∧ r.rs.opening = s.rs.opening / 100 * 100 ∧ r.rs.closing = s.rs.closing / 100 * 100 ∧
      r.rs.calibrate = true ∧ r.rs.calibrated = false := by
  refine ⟨_, blind_save P F sup s hs, ?_⟩
  obtain ⟨_, _, _, _, hol, hcl⟩ := hs
  unfold opened
  generalize keptMargin s.rs.margin = m
  dsimp only
  by_cases h1 : s.rs.opening % 100 = 0
  · have h2 : s.rs.closing % 100 ≠ 0 := by omega
    rw [setTimes_same s.rs.closing (s.rs.opening / 100 * 100) { s.rs with margin := m } rfl (by show _ = s.rs.opening; omega) (by omega) (by omega)]
    unfold Shutter.setTimes
    rw [if_pos ⟨ha, Or.inl (by show _ ≠ s.rs.closing; omega)⟩]
    refine ⟨?_, ?_, rfl, ?_⟩
    · show s.rs.opening % 2 ^ 32 = _; omega
    · show s.rs.closing / 100 * 100 % 2 ^ 32 = _; omega
    · simp [Shutter.RS.calibrated, Shutter.calibrationNeeded, Shutter.setPosition, ha]
  · have e1 : Shutter.setTimes s.rs.closing (s.rs.opening / 100 * 100) { s.rs with margin := m } =
        Shutter.calibrationNeeded { s.rs with margin := m, closing := s.rs.closing, opening := s.rs.opening / 100 * 100 } := by
      unfold Shutter.setTimes
      rw [if_pos ⟨ha, Or.inr (by show _ ≠ s.rs.opening; omega)⟩, Nat.mod_eq_of_lt (show s.rs.closing < 2 ^ 32 by omega),
        Nat.mod_eq_of_lt (show s.rs.opening / 100 * 100 < 2 ^ 32 by omega)]
    rw [e1]
    have eo : (Shutter.calibrationNeeded { s.rs with margin := m, closing := s.rs.closing, opening := s.rs.opening / 100 * 100 }).opening = s.rs.opening / 100 * 100 := rfl
    rw [eo]
    unfold Shutter.setTimes
    split
    · refine ⟨?_, ?_, rfl, ?_⟩
      · show s.rs.opening / 100 * 100 % 2 ^ 32 = _; omega
      · show s.rs.closing / 100 * 100 % 2 ^ 32 = _; omega
      · simp [Shutter.RS.calibrated, Shutter.calibrationNeeded, Shutter.setPosition, ha]
    · rename_i hn
      have hcc : s.rs.closing / 100 * 100 % 2 ^ 32 = s.rs.closing := by
        apply Classical.byContradiction
        intro hc
        exact hn ⟨ha, Or.inl hc⟩
      refine ⟨rfl, ?_, rfl, ?_⟩
      · show s.rs.closing = _; omega
      · simp [Shutter.RS.calibrated, Shutter.calibrationNeeded, Shutter.setPosition, ha]

/-- The claim is false. -/
theorem blind_untouched_violation (P : Printf) (F : Single) : ¬ BlindUntouched P F := by
  intro h
  have hs : (⟨{ opening := 20000, closing := 20000, pos := 40 }, 110⟩ : Blind).sound (fun _ => true) := by
    unfold Blind.sound; decide
  obtain ⟨r, hr, hm, _⟩ := margin_disabled P F _ _ hs rfl
  rw [h _ _ hs] at hr
  rw [← Option.some.inj hr] at hm
  revert hm
  decide

end Verif.Form
