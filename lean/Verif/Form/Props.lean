import Verif.Form.Lemmas

/-!
# C97: opening the configuration page and saving it changes nothing

For each element of the page: what an untouched form submits (`Verif.Form.Spec`) is given to the handler,
and the settings are compared. `changed` is the mark that something has to be sent to the server.
-/

namespace Verif.Form
open Verif.Tools

/-- The claim for an element with settings `σ`: an untouched form leaves them, whatever they are. -/
def Untouched {κ σ : Type} (form : σ → List (Field κ)) (take : κ → List Nat → σ → Option σ) (typed : σ → Prop) : Prop :=
  ∀ s, typed s → handleAll take s (submitted (form s)) = some s

theorem one_field {σ : Type} (take : Unit → List Nat → σ → Option σ) (s : σ) (c : Control) (v : List Nat)
    (h : c.untouched = some v) : handleAll take s (submitted [⟨(), false, c⟩]) = take () v s := by
  simp [handleAll, submitted, h]

theorem number_untouched (t : List Nat) (h : isNumber t = true) : (Control.number t).untouched = some t := by
  simp [Control.untouched, h]

/-! ## Numbers -/

/-- **C97.** The correction of a sensor, if it is below 419430 degrees. -/
theorem correction_untouched (P : Printf) (F : Single) :
    Untouched (correctionForm P F) correctionTake (fun s => (s.v.getD 0).natAbs ≤ 2 ^ 22) := by
  intro s hs
  unfold correctionForm
  rw [one_field _ _ _ _ (number_untouched _ (sendFixed_isNumber P F _ _))]
  unfold correctionTake
  have := sendFixed_read P F (s.v.getD 0) 1 (by omega) hs
  rw [show (1 : Int) = ((1 : Nat) : Int) from rfl, this]
  simp [ofRes]

/-- The time a button is held or the time between clicks, as the program sees it. -/
theorem button_untouched (P : Printf) (F : Single) (dflt : Int) (s : One) (h0 : 0 ≤ s.v.getD dflt) (h1 : s.v.getD dflt ≤ 2 ^ 22) :
    ∃ r, handleAll buttonTake s (submitted (buttonForm P F dflt s)) = some r ∧ r.v.getD dflt = s.v.getD dflt ∧ r.changed = s.changed := by
  unfold buttonForm
  rw [one_field _ _ _ _ (number_untouched _ (sendFixed_isNumber P F _ _))]
  unfold buttonTake
  have := sendFixed_read P F (s.v.getD dflt) 3 (by omega) (by omega)
  rw [show (3 : Int) = ((3 : Nat) : Int) from rfl, this]
  refine ⟨_, rfl, ?_⟩
  have hm : s.v.getD dflt % 2 ^ 32 = s.v.getD dflt := by omega
  dsimp only
  rw [hm]
  split
  · exact ⟨rfl, rfl⟩
  · exact ⟨rfl, rfl⟩

/-- **C97.** How long the screen stays on. -/
theorem delay_untouched (P : Printf) (F : Single) : Untouched (delayForm P F) delayTake (fun _ => True) := by
  intro s _
  have hc : 0 ≤ clampTo 0 65535 (s.v.getD 0) ∧ clampTo 0 65535 (s.v.getD 0) ≤ 65535 := by
    unfold clampTo; split
    · omega
    · split <;> omega
  unfold delayForm
  rw [one_field _ _ _ _ (number_untouched _ (sendFixed_isNumber P F _ _)), sendFixed_whole P F _ (by omega)]
  unfold delayTake
  rw [wholeText_read _ (by omega)]
  have hi : clampTo 0 65535 (clampTo 0 65535 (s.v.getD 0)) = clampTo 0 65535 (s.v.getD 0) := by
    generalize clampTo 0 65535 (s.v.getD 0) = x at hc
    unfold clampTo; rw [if_neg (by omega), if_neg (by omega)]
  simp [ofRes, hi]

/-- A slider stands where it is put if that is within its range and on a step. -/
theorem snap_exact (lo hi step v : Int) (h1 : lo ≤ v) (h2 : v ≤ hi) (hs : 0 < step) (hd : step ∣ v - lo) :
    snap lo hi step v = v := by
  obtain ⟨k, hk⟩ := hd
  unfold snap
  dsimp only
  rw [if_neg (show ¬ v < lo by omega), if_neg (show ¬ v > hi by omega)]
  have h3 : (2 * (v - lo) + step) / (2 * step) = k := by
    rw [hk]
    have : 2 * (step * k) + step = step + k * (2 * step) := by ring
    rw [this, Int.add_mul_ediv_right _ _ (by omega), Int.ediv_eq_zero_of_lt (by omega) (by omega)]
    omega
  rw [h3]
  have h4 : lo + k * step = v := by rw [Int.mul_comm k step, ← hk]; omega
  rw [h4, if_neg (by omega)]

theorem slider_untouched (P : Printf) (F : Single) (lo hi step v : Int) (h1 : lo ≤ v) (h2 : v ≤ hi) (hs : 0 < step)
    (hd : step ∣ v - lo) (hv : v.natAbs ≤ 2 ^ 22) :
    (Control.slider lo hi step (sendFixed P F v 0)).untouched = some (wholeText v) := by
  unfold Control.untouched
  dsimp only
  rw [sendFixed_whole P F v hv, wholeOf_text, snap_exact lo hi step v h1 h2 hs hd]

theorem clampTo_range (lo hi v : Int) (h : lo ≤ hi) : lo ≤ clampTo lo hi v ∧ clampTo lo hi v ≤ hi := by
  unfold clampTo; split
  · omega
  · split <;> omega

theorem clampTo_id (lo hi v : Int) (h1 : lo ≤ v) (h2 : v ≤ hi) : clampTo lo hi v = v := by
  unfold clampTo; rw [if_neg (by omega), if_neg (by omega)]

/-- **C97.** The volume of the buttons. -/
theorem volume_untouched (P : Printf) (F : Single) : Untouched (volumeForm P F) volumeTake (fun _ => True) := by
  intro s _
  have hc := clampTo_range 0 100 (s.v.getD 0) (by omega)
  unfold volumeForm
  rw [one_field _ _ _ _ (slider_untouched P F 0 100 1 _ hc.1 hc.2 (by omega) (Int.one_dvd _) (by omega))]
  unfold volumeTake
  rw [wholeText_read _ (by omega)]
  simp [ofRes, clampTo_id 0 100 _ hc.1 hc.2]

/-- A number of the program's own, except for the smallest one there is. -/
theorem custom_untouched_partial (held : Int) (s : One) (h : (s.v.getD held).natAbs < 2 ^ 31) :
    ∃ r, handleAll customTake s (submitted (customForm held s)) = some r ∧ r.v.getD held = s.v.getD held ∧ r.changed = s.changed := by
  unfold customForm
  rw [one_field _ _ _ _ (number_untouched _ (wholeText_isNumber _))]
  unfold customTake
  rw [wholeText_read _ h]
  exact ⟨_, rfl, rfl, rfl⟩

/-- **Finding.** For the smallest number, reading what was shown is undefined behaviour. -/
theorem custom_untouched_violation :
    handleAll customTake ⟨some (-2147483648), false⟩ (submitted (customForm 0 ⟨some (-2147483648), false⟩)) = none := by
  decide +kernel

/-! ## Lists -/

/-- A list with a marked option submits it, if no later one is marked. -/
theorem shown_marked (a b : List (List Nat × Bool)) (v : List Nat) (hb : ∀ o ∈ b, o.2 = false) : shown (a ++ (v, true) :: b) = some v := by
  unfold shown
  have h1 : b.filter (·.2) = [] := by
    rw [List.filter_eq_nil_iff]; intro o ho; simp [hb o ho]
  rw [List.filter_append, List.filter_cons]
  simp [h1]

/-- Lists of different numbers. -/
theorem shown_number (ns : List Int) (v : Int) (h : v ∈ ns) : shown (ns.map (fun n => option n (decide (v = n)))) = some (wholeText v) := by
  unfold shown
  have hf : (ns.map (fun n => option n (decide (v = n)))).filter (·.2) = (ns.filter (fun n => decide (v = n))).map (fun n => option n true) := by
    clear h
    induction ns with
    | nil => rfl
    | cons n ns ih =>
      rw [List.map_cons, List.filter_cons, List.filter_cons, ih]
      by_cases hn : v = n
      · simp [option, hn]
      · simp [option, hn]
  have hall : ns.filter (fun n => decide (v = n)) = List.replicate (ns.filter (fun n => decide (v = n))).length v := by
    rw [List.eq_replicate_iff]
    refine ⟨rfl, fun n hn => ?_⟩
    have := List.mem_filter.mp hn
    exact (of_decide_eq_true this.2).symm
  have hne : ns.filter (fun n => decide (v = n)) ≠ [] := by
    intro hc
    rw [List.filter_eq_nil_iff] at hc
    exact hc v h (by simp)
  rw [hf]
  generalize ns.filter (fun n => decide (v = n)) = l at hall hne
  rw [hall]
  have hl : l.length ≠ 0 := fun hc => hne (List.length_eq_zero_iff.mp hc)
  obtain ⟨k, hk⟩ := Nat.exists_eq_succ_of_ne_zero hl
  rw [hk, List.map_replicate, List.replicate_succ', List.getLast?_append]
  rfl

/-- The LED settings, as the claim would have them. -/
def LedUntouched (top : Nat) : Prop := Untouched (ledForm top) (ledTake top) (fun s => 0 ≤ s.v.getD 0 ∧ s.v.getD 0 ≤ top)

theorem led_shown (top : Nat) (s : One) (h0 : 0 ≤ s.v.getD 0) (h1 : s.v.getD 0 ≤ top) :
    shown ((List.range (top + 1)).map (fun (n : Nat) => option n (decide (s.v.getD 0 = n)))) = some (wholeText (s.v.getD 0)) := by
  have := shown_number ((List.range (top + 1)).map (fun (n : Nat) => (n : Int))) (s.v.getD 0) (by
    rw [List.mem_map]
    exact ⟨(s.v.getD 0).toNat, List.mem_range.mpr (by omega), by omega⟩)
  rw [List.map_map] at this
  exact this

/-- The setting stays; a setting that was stored is also not marked. -/
theorem led_untouched_partial (top : Nat) (ht : top < 2 ^ 31) (s : One) (h0 : 0 ≤ s.v.getD 0) (h1 : s.v.getD 0 ≤ top) :
    ∃ r, handleAll (ledTake top) s (submitted (ledForm top s)) = some r ∧ r.v.getD 0 = s.v.getD 0 ∧ (s.v.isSome → r = s) := by
  unfold ledForm
  rw [one_field _ _ (.list _) _ (led_shown top s h0 h1)]
  unfold ledTake
  have hu := wholeText_uint (s.v.getD 0).toNat (by omega)
  rw [show (((s.v.getD 0).toNat : Nat) : Int) = s.v.getD 0 from by omega] at hu
  dsimp only
  rw [hu, show (((s.v.getD 0).toNat : Nat) : Int) = s.v.getD 0 from by omega]
  refine ⟨_, rfl, ?_, ?_⟩
  · rw [if_pos h1]
    split
    · rfl
    · rfl
  · intro hs
    cases hv : s.v with
    | none => rw [hv] at hs; cases hs
    | some x => simp

/-- **Finding.** A device whose LED setting was never stored marks it as changed when the page is saved untouched. -/
theorem led_untouched_violation : ¬ LedUntouched 2 := by
  intro h
  have := h ⟨none, false⟩ (by decide)
  revert this; decide +kernel

/-- **C97.** A list of the program's own: the names differ, and the setting is one of the numbers. -/
theorem select_untouched (names : List (List Nat × Int)) (hd : names.Pairwise (fun a b => a.1 ≠ b.1)) :
    Untouched (selectForm names) (selectTake names) (fun s => ∃ x ∈ names, x.2 = s.v.getD 0) := by
  intro s ⟨x, hx, hxv⟩
  unfold selectForm
  -- the name that is shown
  obtain ⟨y, hy, hys, hyv⟩ : ∃ y ∈ names, shown (names.map (fun x => (x.1, decide (s.v.getD 0 = x.2)))) = some y.1 ∧ y.2 = s.v.getD 0 := by
    unfold shown
    have hne : (names.map (fun x => (x.1, decide (s.v.getD 0 = x.2)))).filter (·.2) ≠ [] := by
      intro hc
      rw [List.filter_eq_nil_iff] at hc
      exact hc (x.1, decide (s.v.getD 0 = x.2)) (List.mem_map.mpr ⟨x, hx, rfl⟩) (by simp [hxv])
    rw [List.getLast?_eq_some_getLast hne]
    have hm := List.getLast_mem hne
    have hm2 := List.mem_filter.mp hm
    obtain ⟨y, hy, hye⟩ := List.mem_map.mp hm2.1
    refine ⟨y, hy, ?_, ?_⟩
    · rw [← hye]
    · have := hm2.2
      rw [← hye] at this
      exact (of_decide_eq_true this).symm
  rw [one_field _ _ (.list _) _ hys]
  unfold selectTake
  have hf : names.find? (fun x => x.1 == y.1) = some y := by
    clear hx hxv hys
    induction names with
    | nil => cases hy
    | cons a l ih =>
      obtain ⟨h1, h2⟩ := List.pairwise_cons.mp hd
      rcases List.mem_cons.mp hy with rfl | hy'
      · simp [List.find?_cons]
      · have := h1 y hy'
        rw [List.find?_cons]
        have : (a.1 == y.1) = false := by simp [this]
        rw [this]
        exact ih h2 hy'
  rw [hf]
  simp [hyv]

/-! ## Brightness -/

/-- A brightness and an adjustment that can be set: automatic or 1 to 100, and -100 to 100. -/
def Screen.sound (s : Screen) : Prop :=
  (s.bright.getD (-1) = -1 ∨ (1 ≤ s.bright.getD (-1) ∧ s.bright.getD (-1) ≤ 100)) ∧ -100 ≤ s.adjust.getD 0 ∧ s.adjust.getD 0 ≤ 100 ∧
  s.found = false

/-- Saving, with the end of processing. -/
def screenSave (P : Printf) (F : Single) (s : Screen) : Option Screen :=
  (handleAll screenTake s (submitted (screenForm P F s))).map Screen.done

/-- The claim. -/
def ScreenUntouched (P : Printf) (F : Single) : Prop := ∀ s : Screen, s.sound → screenSave P F s = some s

/-- It holds without automatic brightness, and for adjustments in steps of ten. -/
theorem screen_untouched_partial (P : Printf) (F : Single) (s : Screen) (hs : s.sound)
    (h : s.bright.getD (-1) ≠ -1 ∨ s.adjust.getD 0 % 10 = 0) : screenSave P F s = some s := by
  obtain ⟨hb, ha1, ha2, hf⟩ := hs
  have hca : clampTo (-100) 100 (s.adjust.getD 0) = s.adjust.getD 0 := clampTo_id _ _ _ ha1 ha2
  have hlev : 1 ≤ s.level ∧ s.level ≤ 100 := by
    unfold Screen.level
    split
    · omega
    · split
      · omega
      · split <;> omega
  have hsl : (Control.slider 1 100 1 (sendFixed P F s.level 0)).untouched = some (wholeText s.level) :=
    slider_untouched P F 1 100 1 _ hlev.1 hlev.2 (by omega) (Int.one_dvd _) (by omega)
  obtain ⟨a, has⟩ : ∃ a, (Control.slider (-100) 100 10 (sendFixed P F (clampTo (-100) 100 (s.adjust.getD 0)) 0)).untouched = some a := ⟨_, rfl⟩
  by_cases hauto : s.bright.getD (-1) = -1
  · have h10 : s.adjust.getD 0 % 10 = 0 := by
      rcases h with h | h
      · exact absurd hauto h
      · exact h
    have hst := slider_untouched P F (-100) 100 10 (s.adjust.getD 0) ha1 ha2 (by omega) (by omega) (by omega)
    rw [hca] at has
    rw [hst] at has
    have hae : a = wholeText (s.adjust.getD 0) := (Option.some.inj has).symm
    have hbox : (Control.box (decide (s.bright.getD (-1) = -1))).untouched = some [111, 110] := by
      rw [hauto]; rfl
    unfold screenSave screenForm submitted handleAll
    simp only [List.filterMap_cons, List.filterMap_nil, Bool.false_eq_true, if_false, hbox, hca, hst, hsl, Option.map_some,
      List.foldlM_cons, List.foldlM_nil]
    have hr := wholeText_read (s.adjust.getD 0) (by omega)
    simp only [screenTake, hauto, hr, ofRes, hca, Option.map_some, ne_eq, not_true_eq_false, if_false, if_true, Bool.not_true,
      Bool.false_eq_true, pure, Option.bind_eq_bind, Option.bind_some]
    cases s
    simp only at hf
    subst hf
    rfl
  · have hbox : (Control.box (decide (s.bright.getD (-1) = -1))).untouched = none := by
      rw [decide_eq_false hauto]; rfl
    have hbr : 1 ≤ s.bright.getD (-1) ∧ s.bright.getD (-1) ≤ 100 := by
      rcases hb with hb | hb
      · exact absurd hb hauto
      · exact hb
    have hle : s.level = s.bright.getD (-1) := by
      unfold Screen.level
      rw [if_neg hauto, if_neg (by omega), if_neg (by omega)]
    rw [hle] at hsl
    unfold screenSave screenForm submitted handleAll
    simp only [List.filterMap_cons, List.filterMap_nil, Bool.false_eq_true, if_false, hbox, has, hle, hsl, Option.map_some, Option.map_none,
      List.foldlM_cons, List.foldlM_nil]
    have hr := wholeText_read (s.bright.getD (-1)) (by omega)
    have hc := clampTo_id 1 100 _ hbr.1 hbr.2
    simp only [screenTake, hf, hr, ofRes, hc, Option.map_some, ne_eq, not_true_eq_false, if_false, if_true, Bool.not_false,
      Bool.false_eq_true, pure, Option.bind_eq_bind, Option.bind_some]
    cases s
    simp only at hf
    subst hf
    rfl

/-- **Finding.** The slider moves in steps of ten, but the server sets any adjustment: 15 becomes 20. -/
theorem screen_untouched_violation (P : Printf) (F : Single) : ¬ ScreenUntouched P F := by
  intro h
  have h1 := h ⟨none, some 15, false, false⟩ ⟨Or.inl rfl, by decide, by decide, rfl⟩
  have h2 : screenSave P F ⟨none, some 15, false, false⟩ = some ⟨none, some 20, false, true⟩ := by
    have e1 : sendFixed P F (clampTo (-100) 100 ((some (15 : Int)).getD 0)) 0 = wholeText 15 := sendFixed_whole P F 15 (by decide)
    have e2 : sendFixed P F (Screen.level ⟨none, some 15, false, false⟩) 0 = wholeText 100 := sendFixed_whole P F 100 (by decide)
    unfold screenSave screenForm
    rw [e1, e2]
    decide +kernel
  rw [h2] at h1
  exact absurd h1 (by decide)

/-! ## Temperatures of the local interface -/

/-- Settings of the right types. -/
def Local.sound (s : Local) : Prop :=
  (0 ≤ s.mode.getD 0 ∧ s.mode.getD 0 ≤ 2) ∧ (-32768 ≤ s.lo.getD 0 ∧ s.lo.getD 0 ≤ 32767) ∧ (-32768 ≤ s.hi.getD 0 ∧ s.hi.getD 0 ≤ 32767)

/-- The claim. -/
def LocalUntouched (P : Printf) : Prop := Untouched (localForm P) localTake Local.sound

theorem local_fold (P : Printf) (s : Local) (hs : s.sound) :
    ∃ a b : Int, (10 * a - s.lo.getD 0).natAbs ≤ 5 ∧ (10 * b - s.hi.getD 0).natAbs ≤ 5 ∧
      handleAll localTake s (submitted (localForm P s)) =
        some (let s1 := if clampTo (-32768) 32767 (10 * a) ≠ s.lo.getD 0 then { s with lo := some (clampTo (-32768) 32767 (10 * a)), changed := true } else s
              if clampTo (-32768) 32767 (10 * b) ≠ s1.hi.getD 0 then { s1 with hi := some (clampTo (-32768) 32767 (10 * b)), changed := true } else s1) := by
  obtain ⟨⟨hm0, hm2⟩, ⟨hl0, hl1⟩, ⟨hh0, hh1⟩⟩ := hs
  obtain ⟨a, ha, _, ha2⟩ := tenths_read P (s.lo.getD 0) (by omega)
  obtain ⟨b, hb, _, hb2⟩ := tenths_read P (s.hi.getD 0) (by omega)
  refine ⟨a, b, ha, hb, ?_⟩
  have hsh : shown [option 0 (decide (s.mode.getD 0 = 0)), option 1 (decide (s.mode.getD 0 = 1)), option 2 (decide (s.mode.getD 0 = 2))]
      = some (wholeText (s.mode.getD 0)) := shown_number [0, 1, 2] (s.mode.getD 0) (by simp; omega)
  have hu := wholeText_uint (s.mode.getD 0).toNat (by omega)
  rw [show (((s.mode.getD 0).toNat : Nat) : Int) = s.mode.getD 0 from by omega] at hu
  have hmode : (((s.mode.getD 0).toNat % 256 : Nat) : Int) = s.mode.getD 0 := by omega
  have hm2' : ¬ s.mode.getD 0 > 2 := by omega
  unfold localForm submitted handleAll
  rw [clampTo_id _ _ _ hl0 hl1, clampTo_id _ _ _ hh0 hh1]
  simp only [List.filterMap_cons, List.filterMap_nil, Bool.false_eq_true, if_false, number_untouched _ (tenths_isNumber P _),
    show ∀ os, (Control.list os).untouched = shown os from fun _ => rfl, hsh, Option.map_some, List.foldlM_cons, List.foldlM_nil]
  simp only [localTake, hu, hmode, hm2', if_false, ne_eq, not_true_eq_false, ha2 (by omega), hb2 (by omega), ofRes, Option.map_some, pure,
    Option.bind_eq_bind, Option.bind_some]

/-- It holds for temperatures in tenths of a degree. -/
theorem local_untouched_partial (P : Printf) (s : Local) (hs : s.sound) (hl : s.lo.getD 0 % 10 = 0) (hh : s.hi.getD 0 % 10 = 0) :
    handleAll localTake s (submitted (localForm P s)) = some s := by
  obtain ⟨a, b, ha, hb, he⟩ := local_fold P s hs
  obtain ⟨_, ⟨hl0, hl1⟩, ⟨hh0, hh1⟩⟩ := hs
  have ea : 10 * a = s.lo.getD 0 := by omega
  have eb : 10 * b = s.hi.getD 0 := by omega
  rw [he, ea, eb, clampTo_id _ _ _ hl0 hl1, clampTo_id _ _ _ hh0 hh1]
  simp

/-- **Finding.** The limits come from the server in hundredths, the page shows and stores tenths. -/
theorem local_untouched_violation (P : Printf) : ¬ LocalUntouched P := by
  intro h
  have hs : (⟨some 2, some 1801, some 2400, false⟩ : Local).sound := by unfold Local.sound; decide
  have h1 := h _ hs
  obtain ⟨a, b, ha, hb, he⟩ := local_fold P _ hs
  rw [he] at h1
  have h2 := congrArg Local.lo (Option.some.inj h1)
  have ha : (10 * a - 1801).natAbs ≤ 5 := ha
  have ea : a = 180 := by omega
  have hb : (10 * b - 2400).natAbs ≤ 5 := hb
  have eb : b = 240 := by omega
  subst ea; subst eb
  revert h2
  decide

/-! ## Phase LED -/

/-- Saving with the meter's values `held`. -/
def phaseSave (P : Printf) (held : PhaseKey → Int) (offered : Int → Bool) (s : Phase) : Option Phase :=
  handleAll (phaseTake held) s (submitted (phaseForm P held offered s))

/-- A level as the program sees it. -/
def Phase.level (held : PhaseKey → Int) (s : Phase) (k : PhaseKey) : Int := (s.v k).getD (held k)

/-- Levels that are not too large and a type that the meter has and offers. -/
def Phase.sound (held : PhaseKey → Int) (offered : Int → Bool) (s : Phase) : Prop :=
  (∀ k, (s.level held k).natAbs ≤ 2 ^ 27) ∧ s.level held .type = held .type ∧ 0 ≤ held .type ∧ held .type ≤ 4 ∧ offered (held .type) = true

/-- The claim. -/
def PhaseUntouched (P : Printf) : Prop :=
  ∀ held offered s, s.sound held offered → ∃ r, phaseSave P held offered s = some r ∧ r.level held = s.level held ∧ r.changed = s.changed

theorem put_same (held : PhaseKey → Int) (s : Phase) (k : PhaseKey) (n : Int) (h : s.level held k = n) (m : Int) : s.put held k n m = s := by
  unfold Phase.put
  unfold Phase.level at h
  rw [h]; simp

theorem phase_shown (held : PhaseKey → Int) (offered : Int → Bool) (h0 : 0 ≤ held .type) (h4 : held .type ≤ 4) (ho : offered (held .type) = true) :
    shown (((List.range 5).filter (fun (n : Nat) => offered n)).map (fun (n : Nat) => option n (decide (held .type = n))))
      = some (wholeText (held .type)) := by
  have := shown_number (((List.range 5).filter (fun (n : Nat) => offered n)).map (fun (n : Nat) => (n : Int))) (held .type) (by
    rw [List.mem_map]
    refine ⟨(held .type).toNat, List.mem_filter.mpr ⟨List.mem_range.mpr (by omega), ?_⟩, by omega⟩
    rw [show (((held .type).toNat : Nat) : Int) = held .type from by omega]; exact ho)
  rw [List.map_map] at this
  exact this

/-- The type stays, and each level becomes a nearest tenth. -/
theorem phase_fold (P : Printf) (held : PhaseKey → Int) (offered : Int → Bool) (s : Phase) (hs : s.sound held offered) :
    ∃ a b c d : Int, (10 * a - s.level held .voltLow).natAbs ≤ 5 ∧ (10 * b - s.level held .voltHigh).natAbs ≤ 5 ∧
      (10 * c - s.level held .powLow).natAbs ≤ 5 ∧ (10 * d - s.level held .powHigh).natAbs ≤ 5 ∧
      phaseSave P held offered s =
        some ((((s.put held .voltLow (10 * a) (10 * a)).put held .voltHigh (10 * b) (10 * b)).put held .powLow (10 * c) (10 * c)).put held .powHigh (10 * d) (10 * d)) := by
  obtain ⟨hb, ht, h0, h4, ho⟩ := hs
  obtain ⟨a, ha, _, ha2⟩ := tenths_read P (s.level held .voltLow) (by have := hb .voltLow; omega)
  obtain ⟨b, hb', _, hb2⟩ := tenths_read P (s.level held .voltHigh) (by have := hb .voltHigh; omega)
  obtain ⟨c, hc, _, hc2⟩ := tenths_read P (s.level held .powLow) (by have := hb .powLow; omega)
  obtain ⟨d, hd, _, hd2⟩ := tenths_read P (s.level held .powHigh) (by have := hb .powHigh; omega)
  refine ⟨a, b, c, d, ha, hb', hc, hd, ?_⟩
  have hu := wholeText_uint (held .type).toNat (by omega)
  rw [show (((held .type).toNat : Nat) : Int) = held .type from by omega] at hu
  have hty : s.put held .type (held .type) (if held .type > 4 then 1 else held .type) = s := put_same held s .type _ ht _
  unfold phaseSave phaseForm submitted handleAll
  simp only [List.filterMap_cons, List.filterMap_nil, Bool.false_eq_true, if_false, number_untouched _ (tenths_isNumber P _),
    show ∀ os, (Control.list os).untouched = shown os from fun _ => rfl, phase_shown held offered h0 h4 ho, Option.map_some,
    List.foldlM_cons, List.foldlM_nil]
  have ea := ha2 (hb .voltLow)
  have eb := hb2 (hb .voltHigh)
  have ec := hc2 (hb .powLow)
  have ed := hd2 (hb .powHigh)
  unfold Phase.level at ea eb ec ed
  simp only [phaseTake, hu, show (((held .type).toNat : Nat) : Int) = held .type from by omega, hty, ea, eb, ec, ed, ofRes, Option.map_some, pure,
    Option.bind_eq_bind, Option.bind_some]

/-- It holds for levels in tenths. -/
theorem phase_untouched_partial (P : Printf) (held : PhaseKey → Int) (offered : Int → Bool) (s : Phase) (hs : s.sound held offered)
    (h : ∀ k, k ≠ .type → s.level held k % 10 = 0) : phaseSave P held offered s = some s := by
  obtain ⟨a, b, c, d, ha, hb, hc, hd, he⟩ := phase_fold P held offered s hs
  have h1 := h .voltLow (by decide)
  have h2 := h .voltHigh (by decide)
  have h3 := h .powLow (by decide)
  have h4 := h .powHigh (by decide)
  rw [he, put_same held s _ _ (by omega), put_same held s _ _ (by omega), put_same held s _ _ (by omega), put_same held s _ _ (by omega)]

/-- **Finding.** The levels come from the server in hundredths, the page shows and stores tenths. -/
theorem phase_untouched_violation (P : Printf) : ¬ PhaseUntouched P := by
  intro h
  have hs : (⟨fun k => if k = .voltLow then some 21001 else none, false⟩ : Phase).sound (fun k => if k = .type then 3 else 25000) (fun _ => true) := by
    refine ⟨fun k => ?_, rfl, by decide, by decide, rfl⟩
    cases k <;> decide
  obtain ⟨r, hr, hl, _⟩ := h _ _ _ hs
  obtain ⟨a, b, c, d, ha, hb, hc, hd, he⟩ := phase_fold P _ _ _ hs
  have ha : (10 * a - 21001).natAbs ≤ 5 := ha
  have hb : (10 * b - 25000).natAbs ≤ 5 := hb
  have hc : (10 * c - 25000).natAbs ≤ 5 := hc
  have hd : (10 * d - 25000).natAbs ≤ 5 := hd
  have ea : a = 2100 := by omega
  have eb : b = 2500 := by omega
  have ec : c = 2500 := by omega
  have ed : d = 2500 := by omega
  subst ea eb ec ed
  rw [hr] at he
  rw [Option.some.inj he] at hl
  have := congrFun hl .voltLow
  revert this
  decide

end Verif.Form
