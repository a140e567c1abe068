import Verif.Form.Shutter
import Verif.Form.Thermostat

/-!
# C102: a number typed on the configuration page becomes the setting

What a user types is a text of digits, perhaps with a minus sign and decimal places. `Denotes` says which number it is,
independent of the program.
-/

namespace Verif.Form
open Verif.Tools

/-- The text is the number `n / 10 ^ p`: an optional minus, digits, optionally a point and further digits. -/
def Denotes (p : Nat) (t : List Nat) (n : Int) : Prop :=
  ∃ (minus : Bool) (i f : List Nat) (point : Bool), Digits i ∧ Digits f ∧ i ≠ [] ∧ (point = false → f = []) ∧
    t = (if minus then [45] else []) ++ i ++ (if point then 46 :: f else []) ∧
    (decimal (i ++ f) : Int) * 10 ^ p * (if minus then -1 else 1) = n * 10 ^ f.length

theorem denotes_abs (p : Nat) (m : Bool) (a l : Nat) (n : Int) (h : (a : Int) * 10 ^ p * (if m then -1 else 1) = n * 10 ^ l) :
    a * 10 ^ p / 10 ^ l = n.natAbs ∧ (if m then -(n.natAbs : Int) else n.natAbs) = n := by
  have hp : (0 : Int) < 10 ^ l := Int.pow_pos (by decide)
  have hq : (0 : Int) ≤ (a : Int) * 10 ^ p := Int.mul_nonneg (by omega) (Int.le_of_lt (Int.pow_pos (by decide)))
  have hb : ((a * 10 ^ p : Nat) : Int) = (a : Int) * 10 ^ p := by push_cast; rfl
  have hl : ((10 ^ l : Nat) : Int) = 10 ^ l := by push_cast; rfl
  have hlp : 0 < 10 ^ l := Nat.pow_pos (by decide)
  have key : a * 10 ^ p = n.natAbs * 10 ^ l ∧ (if m then n ≤ 0 else 0 ≤ n) := by
    cases m with
    | true =>
      rw [if_pos rfl] at h
      have hn : n ≤ 0 := by
        by_contra hc
        have : 0 < n * 10 ^ l := Int.mul_pos (by omega) hp
        omega
      refine ⟨?_, by simpa using hn⟩
      have e : ((n.natAbs : Nat) : Int) = -n := by omega
      have : ((a * 10 ^ p : Nat) : Int) = ((n.natAbs * 10 ^ l : Nat) : Int) := by
        rw [hb, Int.natCast_mul, e, hl, Int.neg_mul]
        omega
      exact_mod_cast this
    | false =>
      rw [if_neg Bool.false_ne_true] at h
      have hn : 0 ≤ n := by
        by_contra hc
        have : 0 < (-n) * 10 ^ l := Int.mul_pos (by omega) hp
        rw [Int.neg_mul] at this
        omega
      refine ⟨?_, by simpa using hn⟩
      have e : ((n.natAbs : Nat) : Int) = n := by omega
      have : ((a * 10 ^ p : Nat) : Int) = ((n.natAbs * 10 ^ l : Nat) : Int) := by
        rw [hb, Int.natCast_mul, e, hl]
        omega
      exact_mod_cast this
  rw [key.1, Nat.mul_div_cancel _ hlp]
  refine ⟨rfl, ?_⟩
  have k2 := key.2
  cases m
  · rw [if_neg Bool.false_ne_true] at k2 ⊢; omega
  · rw [if_pos rfl] at k2 ⊢; omega

/-- A typed number with at most `p` decimal places is read as it is. -/
theorem denotes_read (p : Nat) (t : List Nat) (n : Int) (h : Denotes p t n) (hn : n.natAbs + 48 < 2 ^ 31) : floatStringToInt p t = .val n := by
  obtain ⟨m, i, f, pt, hi, hf, hne, hpt, ht, hv⟩ := h
  obtain ⟨e1, e2⟩ := denotes_abs p m _ _ n hv
  cases pt with
  | true =>
    have := float_text p 46 i f hi hf (Or.inl rfl) (by rw [e1]; exact hn)
    rw [e1] at this
    rw [ht]
    cases m with
    | true =>
      rw [if_pos rfl] at e2
      rw [← e2]
      simpa using this.2
    | false =>
      rw [if_neg Bool.false_ne_true] at e2
      rw [← e2]
      simpa using this.1
  | false =>
    have hf0 := hpt rfl
    subst hf0
    simp only [List.append_nil, List.length_nil, Nat.pow_zero, Nat.div_one] at e1
    have := float_whole p i hi (by rw [e1]; exact hn)
    rw [e1] at this
    rw [ht]
    cases m with
    | true =>
      rw [if_pos rfl] at e2
      rw [← e2]
      simpa using this.2
    | false =>
      rw [if_neg Bool.false_ne_true] at e2
      rw [← e2]
      simpa using this.1

/-- "-0.5" is −5 tenths and −500 thousandths; "12" is 120 tenths; "0.25" is not a number of tenths. -/
example : Denotes 1 [45, 48, 46, 53] (-5) := ⟨true, [48], [53], true, by decide, by decide, by decide, by decide, rfl, by decide⟩
example : Denotes 3 [45, 48, 46, 53] (-500) := ⟨true, [48], [53], true, by decide, by decide, by decide, by decide, rfl, by decide⟩
example : Denotes 1 [49, 50] 120 := ⟨false, [49, 50], [], false, by decide, by decide, by decide, by decide, rfl, by decide⟩

/-! ## Numbers -/

/-- **C102.** A correction from −50 to 50 degrees is taken, another one is refused. -/
theorem correction_typed (t : List Nat) (n : Int) (h : Denotes 1 t n) (hn : n.natAbs + 48 < 2 ^ 31) (s : One) :
    ∃ r, correctionTake () t s = some r ∧ (-500 ≤ n ∧ n ≤ 500 → r.v.getD 0 = n ∧ (r = s ∨ r.changed = true)) ∧ (¬ (-500 ≤ n ∧ n ≤ 500) → r = s) := by
  unfold correctionTake
  rw [show (1 : Int) = ((1 : Nat) : Int) from rfl, denotes_read 1 t n h hn]
  refine ⟨_, rfl, ?_, ?_⟩ <;> dsimp only
  · intro hr
    rw [if_pos hr]
    split
    · exact ⟨rfl, Or.inr rfl⟩
    · next hne => exact ⟨by omega, Or.inl rfl⟩
  · intro hr
    rw [if_neg hr]

/-- **C102.** A hold time or time between clicks from 0.2 to 10 seconds is taken, another one is refused. -/
theorem button_typed (t : List Nat) (n : Int) (h : Denotes 3 t n) (hn : n.natAbs + 48 < 2 ^ 31) (s : One) :
    ∃ r, buttonTake () t s = some r ∧ (200 ≤ n ∧ n ≤ 10000 → r.v = some n) ∧ (¬ (200 ≤ n ∧ n ≤ 10000) → r = s) := by
  unfold buttonTake
  rw [show (3 : Int) = ((3 : Nat) : Int) from rfl, denotes_read 3 t n h hn]
  refine ⟨_, rfl, ?_, ?_⟩ <;> dsimp only
  · intro hr
    rw [if_pos (by omega)]
    show some (n % 2 ^ 32) = some n
    congr 1
    omega
  · intro hr
    rw [if_neg (by omega)]

/-- A whole number that is typed is read as it is. -/
theorem whole_read (n : Int) (h : n.natAbs < 2 ^ 31) : ofRes (stringToInt (wholeText n)) = some n := by
  rw [wholeText_read n h]; rfl

/-- **C102.** The delay of the screen, up to 65535 seconds. -/
theorem delay_typed (n : Int) (h0 : 0 ≤ n) (h : n ≤ 65535) (s : One) (hs : 0 ≤ s.v.getD 0 ∧ s.v.getD 0 ≤ 65535) : ∃ r, delayTake () (wholeText n) s = some r ∧ r.v.getD 0 = n := by
  unfold delayTake
  rw [whole_read n (by omega)]
  refine ⟨_, rfl, ?_⟩
  dsimp only
  have c1 : clampTo 0 65535 n = n := by unfold clampTo; rw [if_neg (by omega), if_neg (by omega)]
  have c2 : clampTo 0 65535 (s.v.getD 0) = s.v.getD 0 := by unfold clampTo; rw [if_neg (by omega), if_neg (by omega)]
  rw [c1, c2]
  split
  · rfl
  · omega

/-- **C102.** The volume. -/
theorem volume_typed (n : Int) (h0 : 0 ≤ n) (h : n ≤ 100) (s : One) (hs : 0 ≤ s.v.getD 0 ∧ s.v.getD 0 ≤ 100) : ∃ r, volumeTake () (wholeText n) s = some r ∧ r.v.getD 0 = n := by
  unfold volumeTake
  rw [whole_read n (by omega)]
  refine ⟨_, rfl, ?_⟩
  dsimp only
  have c1 : clampTo 0 100 n = n := by unfold clampTo; rw [if_neg (by omega), if_neg (by omega)]
  have c2 : clampTo 0 100 (s.v.getD 0) = s.v.getD 0 := by unfold clampTo; rw [if_neg (by omega), if_neg (by omega)]
  rw [c1, c2]
  split
  · rfl
  · omega

/-- **C102.** Whatever is typed, a delay and a volume are within their limits afterwards, if they were before. -/
theorem delay_limits (t : List Nat) (s r : One) (hs : 0 ≤ s.v.getD 0 ∧ s.v.getD 0 ≤ 65535) (h : delayTake () t s = some r) : 0 ≤ r.v.getD 0 ∧ r.v.getD 0 ≤ 65535 := by
  unfold delayTake at h
  rw [Option.map_eq_some_iff] at h
  obtain ⟨n, _, rfl⟩ := h
  split
  · show 0 ≤ clampTo 0 65535 n ∧ clampTo 0 65535 n ≤ 65535
    unfold clampTo; split <;> (try split) <;> omega
  · exact hs

theorem volume_limits (t : List Nat) (s r : One) (hs : 0 ≤ s.v.getD 0 ∧ s.v.getD 0 ≤ 100) (h : volumeTake () t s = some r) : 0 ≤ r.v.getD 0 ∧ r.v.getD 0 ≤ 100 := by
  unfold volumeTake at h
  rw [Option.map_eq_some_iff] at h
  obtain ⟨n, _, rfl⟩ := h
  split
  · show 0 ≤ clampTo 0 100 n ∧ clampTo 0 100 n ≤ 100
    unfold clampTo; split <;> (try split) <;> omega
  · exact hs

/-- **C102.** A number of the user's own. -/
theorem custom_typed (n : Int) (h : n.natAbs < 2 ^ 31) (s : One) : customTake () (wholeText n) s = some { s with v := some n } := by
  unfold customTake
  rw [whole_read n h]; rfl

/-- **C102.** Brightness of the screen, with "automatic" unchecked; and its adjustment, with it checked. -/
theorem bright_typed (n : Int) (h0 : 1 ≤ n) (h : n ≤ 100) (s : Screen) (hf : s.found = false) : ∃ r, screenTake .bright (wholeText n) s = some r ∧ r.bright.getD (-1) = n := by
  unfold screenTake
  dsimp only
  rw [hf, if_neg Bool.false_ne_true, whole_read n (by omega)]
  refine ⟨_, rfl, ?_⟩
  dsimp only
  have c1 : clampTo 1 100 n = n := by unfold clampTo; rw [if_neg (by omega), if_neg (by omega)]
  rw [c1]
  split
  · rfl
  · omega

theorem adjust_typed (n : Int) (h0 : -100 ≤ n) (h : n ≤ 100) (s : Screen) (hf : s.found = true) : ∃ r, screenTake .adjust (wholeText n) s = some r ∧ r.adjust.getD 0 = n := by
  unfold screenTake
  dsimp only
  rw [hf, if_neg (by decide), whole_read n (by omega)]
  refine ⟨_, rfl, ?_⟩
  dsimp only
  have c1 : clampTo (-100) 100 n = n := by unfold clampTo; rw [if_neg (by omega), if_neg (by omega)]
  rw [c1]
  split
  · rfl
  · omega

/-- **C102.** The temperatures between which the local interface may be used: taken up to 327.67 degrees, beyond that
as the limit. -/
theorem local_typed (t : List Nat) (n : Int) (h : Denotes 2 t n) (hn : n.natAbs + 48 < 2 ^ 31) (s : Local) :
    (∃ r, localTake .lo t s = some r ∧ r.lo.getD 0 = clampTo (-32768) 32767 n ∧ r.hi = s.hi) ∧ (∃ r, localTake .hi t s = some r ∧ r.hi.getD 0 = clampTo (-32768) 32767 n ∧ r.lo = s.lo) := by
  unfold localTake
  dsimp only
  rw [show (2 : Int) = ((2 : Nat) : Int) from rfl, denotes_read 2 t n h hn]
  constructor
  · refine ⟨_, rfl, ?_⟩
    dsimp only
    split
    · exact ⟨rfl, rfl⟩
    · next hne => exact ⟨by simpa using Eq.symm (Classical.not_not.mp hne), rfl⟩
  · refine ⟨_, rfl, ?_⟩
    dsimp only
    split
    · exact ⟨rfl, rfl⟩
    · next hne => exact ⟨by simpa using Eq.symm (Classical.not_not.mp hne), rfl⟩

/-- **C102.** The levels of the phase LED; no other level changes. -/
theorem phase_typed (held : PhaseKey → Int) (k : PhaseKey) (hk : k ≠ .type) (t : List Nat) (n : Int) (h : Denotes 2 t n) (hn : n.natAbs + 48 < 2 ^ 31) (s : Phase) :
    ∃ r, phaseTake held k t s = some r ∧ (r.v k).getD (held k) = n ∧ ∀ j, j ≠ k → r.v j = s.v j := by
  have hr := denotes_read 2 t n h hn
  have e : phaseTake held k t s = some (s.put held k n n) := by
    cases k
    · exact absurd rfl hk
    all_goals
      unfold phaseTake
      dsimp only
      rw [show (2 : Int) = ((2 : Nat) : Int) from rfl, hr]
      rfl
  refine ⟨_, e, ?_⟩
  unfold Phase.put
  split
  · refine ⟨?_, ?_⟩
    · show (if k = k then some n else s.v k).getD (held k) = n
      rw [if_pos rfl]; rfl
    · intro j hj
      show (if j = k then some n else s.v j) = s.v j
      rw [if_neg hj]
  · next hne => exact ⟨Classical.not_not.mp hne, fun _ _ => rfl⟩

/-! ## Roller shutters -/

/-- **C102.** Times from 0 to 300 seconds. -/
theorem times_typed (sup : Nat → Bool) (t : List Nat) (n : Nat) (h : Denotes 1 t n) (hn : n ≤ 3000) (s : Blind) (ha : s.rs.timeAvail = true)
    (hs : s.rs.opening < 2 ^ 32 ∧ s.rs.closing < 2 ^ 32) :
    (∃ r, blindTake sup .opening t s = some r ∧ r.rs.opening = n * 100 ∧ r.rs.closing = s.rs.closing) ∧
    (∃ r, blindTake sup .closing t s = some r ∧ r.rs.closing = n * 100 ∧ r.rs.opening = s.rs.opening) := by
  have ht : timeOf t = some (n * 100) := by
    unfold timeOf
    rw [show (1 : Int) = ((1 : Nat) : Int) from rfl, denotes_read 1 t n h (by omega)]
    show (if -2147483648 ≤ (n : Int) * 100 ∧ (n : Int) * 100 ≤ 2147483647 then _ else _) = _
    rw [if_pos (by omega)]
    congr 1
    omega
  have key : ∀ c o (rs : Shutter.RS), rs.timeAvail = true → c < 2 ^ 32 → o < 2 ^ 32 → (Shutter.setTimes c o rs).closing = c ∧ (Shutter.setTimes c o rs).opening = o := by
    intro c o rs ha hc ho
    unfold Shutter.setTimes
    rw [Nat.mod_eq_of_lt hc, Nat.mod_eq_of_lt ho]
    split
    · exact ⟨rfl, rfl⟩
    · next hne =>
      constructor
      · by_contra h; exact hne ⟨ha, Or.inl (fun e => h e.symm)⟩
      · by_contra h; exact hne ⟨ha, Or.inr (fun e => h e.symm)⟩
  unfold blindTake
  dsimp only
  rw [ht]
  obtain ⟨a1, a2⟩ := key s.rs.closing (n * 100) s.rs ha hs.2 (by omega)
  obtain ⟨b1, b2⟩ := key (n * 100) s.rs.opening s.rs ha (by omega) hs.1
  exact ⟨⟨_, rfl, a2, a1⟩, ⟨_, rfl, b1, b2⟩⟩

/-- The full claim: a time margin within the limits of the page (−1 for the default, up to 100) is taken, another is refused. -/
def MarginTyped : Prop := ∀ sup (n : Int) (s : Blind), n.natAbs < 2 ^ 31 →
  ∃ r, blindTake sup .margin (wholeText n) s = some r ∧ r.rs.margin = if -1 ≤ n ∧ n ≤ 100 then n else s.rs.margin

theorem margin_partial (sup : Nat → Bool) (n : Nat) (h : n < 256) (s : Blind) :
    ∃ r, blindTake sup .margin (wholeText n) s = some r ∧ (n ≤ 100 → r.rs.margin = n) ∧ (100 < n ∧ n < 255 → r.rs.margin = s.rs.margin) := by
  unfold blindTake
  dsimp only
  rw [wholeText_uint n (by omega)]
  refine ⟨_, rfl, ?_, ?_⟩
  · intro h1
    have e : Shutter.toInt8 n = n := by unfold Shutter.toInt8; omega
    rw [e]
    unfold setMargin
    rw [if_pos (by omega)]
  · intro h1
    show (setMargin (Shutter.toInt8 n) s.rs).margin = _
    unfold setMargin
    rw [if_neg]
    unfold Shutter.toInt8
    omega

/-- **Finding.** −1, which the page asks for to get the default, is taken as no margin at all. -/
theorem margin_default (sup : Nat → Bool) (s : Blind) : ∃ r, blindTake sup .margin (wholeText (-1)) s = some r ∧ r.rs.margin = 0 := by
  refine ⟨_, rfl, ?_⟩
  have e : Shutter.toInt8 (stringToUInt (wholeText (-1))) = 0 := by decide +kernel
  rw [e]
  rfl

theorem margin_violation (s : Blind) : ¬ MarginTyped := by
  intro h
  obtain ⟨r, h1, h2⟩ := h (fun _ => true) (-1) s (by decide)
  obtain ⟨r', h3, h4⟩ := margin_default (fun _ => true) s
  rw [h1] at h3
  rw [Option.some.inj h3, h4, if_pos (by decide)] at h2
  exact absurd h2 (by decide)

/-- **Finding.** Numbers above the limit are not refused: 300 is taken as 44. -/
theorem margin_beyond (sup : Nat → Bool) (s : Blind) : ∃ r, blindTake sup .margin (wholeText 300) s = some r ∧ r.rs.margin = 44 := by
  refine ⟨_, rfl, ?_⟩
  have e : Shutter.toInt8 (stringToUInt (wholeText 300)) = 44 := by decide +kernel
  rw [e]
  rfl

/-! ## Thermostats -/

/-- The full claim: a temperature that is typed is the one that is used, or none. -/
def TempTyped : Prop := ∀ (t : List Nat) (n : Int) (d : Draft), Denotes 1 t n → n.natAbs + 48 < 2 ^ 31 →
  ∃ r, thermoTake .heat t d = some r ∧ (r.v.heat = 10 * n ∨ r.v.heat = d.v.heat)

/-- **C102.** It is, up to 327.6 degrees. -/
theorem temp_partial (t : List Nat) (n : Int) (d : Draft) (h : Denotes 1 t n) (hn : -3276 ≤ n ∧ n ≤ 3276) :
    (∃ r, thermoTake .heat t d = some r ∧ r.v.heat = 10 * n ∧ r.v.heatSet = true ∧ r.v.cool = d.v.cool ∧ r.cfg = d.cfg) ∧
    (∃ r, thermoTake .cool t d = some r ∧ r.v.cool = 10 * n ∧ r.v.coolSet = true ∧ r.v.heat = d.v.heat ∧ r.cfg = d.cfg) ∧
    (∀ k, ∃ r, thermoTake (.temp k) t d = some r ∧ r.cfg.t = Hvac.Config.put d.cfg.t k (10 * n) ∧ r.v = d.v) := by
  have hne : t ≠ [] := by
    obtain ⟨m, i, f, pt, _, _, hi, _, ht, _⟩ := h
    intro e
    rw [e] at ht
    have := congrArg List.length ht
    have hl : 0 < i.length := List.length_pos_iff.mpr hi
    simp at this
    omega
  have hw : Hvac.Mode.w16 (Hvac.Mode.w16 n * 10) = 10 * n := by
    have e1 : Hvac.Mode.w16 n = n := by unfold Hvac.Mode.w16; omega
    rw [e1]; unfold Hvac.Mode.w16; omega
  have key : ∀ f : Int → Draft, tempTake t d f = some (f (10 * n)) := by
    intro f
    unfold tempTake
    rw [if_neg hne, show (1 : Int) = ((1 : Nat) : Int) from rfl, denotes_read 1 t n h (by omega)]
    show some (f _) = _
    rw [hw]
  refine ⟨⟨_, key (fun n => { d with v := { d.v with heat := n, heatSet := true } }), rfl, rfl, rfl, rfl⟩, ⟨_, key (fun n => { d with v := { d.v with cool := n, coolSet := true } }), rfl, rfl, rfl, rfl⟩,
    fun k => ⟨_, key (fun n => { d with cfg := { d.cfg with t := Hvac.Config.put d.cfg.t k n } }), rfl, rfl⟩⟩

/-- **Finding.** 676.8 degrees is taken as 21.44 degrees. -/
theorem temp_wraps (d : Draft) : ∃ r, thermoTake .heat [54, 55, 54, 46, 56] d = some r ∧ r.v.heat = 2144 := by
  have e : floatStringToInt 1 [54, 55, 54, 46, 56] = .val 6768 := by decide +kernel
  refine ⟨{ d with v := { d.v with heat := 2144, heatSet := true } }, ?_, rfl⟩
  show tempTake [54, 55, 54, 46, 56] d (fun n => { d with v := { d.v with heat := n, heatSet := true } }) = _
  unfold tempTake
  rw [if_neg (by simp), e]
  rfl

theorem temp_violation (d : Draft) (hd : d.v.heat ≠ 2144) : ¬ TempTyped := by
  intro h
  obtain ⟨r, h1, h2⟩ := h [54, 55, 54, 46, 56] 6768 d ⟨false, [54, 55, 54], [56], true, by decide, by decide, by decide, by decide, rfl, by decide⟩ (by decide)
  obtain ⟨r', h3, h4⟩ := temp_wraps d
  rw [h1] at h3
  rw [Option.some.inj h3, h4] at h2
  omega

end Verif.Form
