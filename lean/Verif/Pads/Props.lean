import Verif.Pads.Model

/-!
# C152: the pad puts on the wire the level last written
-/

namespace Verif.Pads

/-- The mode asked for last for the pin, from the list of calls alone. -/
def askedMode (pin : Nat) : List Call → Option Nat → Option Nat
  | [], acc => acc
  | .mode q m :: cs, acc => askedMode pin cs (if q = pin then some m else acc)
  | .write _ _ :: cs, acc => askedMode pin cs acc

/-- The level written last for the pin, from the list of calls alone. -/
def askedLevel (pin : Nat) : List Call → Bool → Bool
  | [], acc => acc
  | .mode _ _ :: cs, acc => askedLevel pin cs acc
  | .write q v :: cs, acc => askedLevel pin cs (if q = pin then decide (v ≠ 0) else acc)

/-- The call concerns the pin. -/
def touches (pin : Nat) : Call → Prop
  | .mode q _ => q = pin
  | .write q _ => q = pin

/-- What should be on the wire: the level written last when the pin was last
made an output, nothing otherwise. -/
def wanted (pin : Nat) (cs : List Call) : Option Bool :=
  if askedMode pin cs none = some 1 then some (askedLevel pin cs false) else none

/-- Every number of a pin for which the mode is set is below 64. -/
def Fits (cs : List Call) : Prop := ∀ c ∈ cs, ∀ q m, c = .mode q m → q < 64

/-- The full claim for a chip: after any calls the wire has what was asked. -/
def Obeys (can : Bool) : Prop :=
  ∀ cs, Fits cs → ∀ pin, ∃ b, run can start cs = some b ∧ drives (b pin) = wanted pin cs

/-- The mode a number stands for in the source. -/
def modeOf : Option Nat → Mode
  | some 0 => .input
  | some 1 => .both
  | some 2 => .pullup
  | _ => .disabled

/-! ## Running -/

theorem run_append (can : Bool) (b : Bank) (cs ds : List Call) :
    run can b (cs ++ ds) = (run can b cs).bind fun b' => run can b' ds := by
  induction cs generalizing b with
  | nil => rfl
  | cons c cs ih =>
    simp only [List.cons_append, run]
    cases step can b c with
    | none => rfl
    | some b' => exact ih b'

/-- Calls for pins below 64 always have a result. -/
theorem run_defined (can : Bool) (cs : List Call) (h : Fits cs) (b : Bank) :
    ∃ b', run can b cs = some b' := by
  induction cs generalizing b with
  | nil => exact ⟨b, rfl⟩
  | cons c cs ih =>
    have hc : Fits cs := fun d hd => h d (List.mem_cons_of_mem _ hd)
    cases c with
    | mode q m =>
      have hq : q < 64 := h _ List.mem_cons_self q m rfl
      simp only [run, step, if_pos hq]
      exact ih hc _
    | write q v =>
      simp only [run, step]
      exact ih hc _

/-- Setting the mode of a pin from 64 on has no defined result, whatever was
called before. -/
theorem run_undefined_violation (can : Bool) (cs : List Call) (b : Bank) (pin m : Nat)
    (h : 64 ≤ pin) : run can b (cs ++ [.mode pin m]) = none := by
  rw [run_append]
  cases run can b cs with
  | none => rfl
  | some b' =>
    show run can b' [.mode pin m] = none
    simp only [run, step, if_neg (show ¬ pin < 64 by omega)]

example : run true start [.write 4 1, .mode 255 1] = none := by
  exact run_undefined_violation true [.write 4 1] start 255 1 (by decide)

/-- Calls for other pins leave a pad as it is. -/
theorem run_other (can : Bool) (cs : List Call) (b b' : Bank) (pin : Nat)
    (h : ∀ c ∈ cs, ¬ touches pin c) (hr : run can b cs = some b') : b' pin = b pin := by
  induction cs generalizing b with
  | nil => simp only [run, Option.some.injEq] at hr; rw [hr]
  | cons c cs ih =>
    have hc : ∀ c ∈ cs, ¬ touches pin c := fun d hd => h d (List.mem_cons_of_mem _ hd)
    have h0 : ¬ touches pin c := h c List.mem_cons_self
    cases c with
    | mode q m =>
      have hq : ¬ pin = q := fun e => h0 e.symm
      by_cases hl : q < 64
      · simp only [run, step, if_pos hl] at hr
        rw [ih _ hc hr]
        simp only [change, if_neg hq]
      · simp only [run, step, if_neg hl] at hr
        cases hr
    | write q v =>
      have hq : ¬ pin = q := fun e => h0 e.symm
      simp only [run, step] at hr
      rw [ih _ hc hr]
      simp only [change, if_neg hq]

/-! ## One pad -/

/-- The call as seen by one pad. -/
def feel (can : Bool) (pin : Nat) (p : Pad) : Call → Pad
  | .mode q m => if pin = q then setMode m p else p
  | .write q v => if pin = q then write can v p else p

theorem run_feel (can : Bool) (cs : List Call) (b b' : Bank) (pin : Nat)
    (hr : run can b cs = some b') : b' pin = cs.foldl (feel can pin) (b pin) := by
  induction cs generalizing b with
  | nil => simp only [run, Option.some.injEq] at hr; rw [hr]; rfl
  | cons c cs ih =>
    cases c with
    | mode q m =>
      by_cases hl : q < 64
      · simp only [run, step, if_pos hl] at hr
        rw [ih _ hr]
        simp only [List.foldl_cons, feel, change]
      · simp only [run, step, if_neg hl] at hr
        cases hr
    | write q v =>
      simp only [run, step] at hr
      rw [ih _ hr]
      simp only [List.foldl_cons, feel, change]

theorem setMode_mode (m : Nat) (p : Pad) : (setMode m p).mode = modeOf (some m) := by
  unfold setMode
  by_cases h0 : m = 0
  · subst h0; rfl
  · by_cases h1 : m = 1
    · subst h1; rfl
    · by_cases h2 : m = 2
      · subst h2; rfl
      · rw [if_neg h0, if_neg h1, if_neg h2]
        unfold modeOf
        split <;> simp_all

theorem setMode_level (m : Nat) (p : Pad) : (setMode m p).level = p.level := by
  unfold setMode holdOff
  split
  · rfl
  · split
    · rfl
    · split <;> rfl

theorem write_mode (can : Bool) (v : Nat) (p : Pad) : (write can v p).mode = p.mode := by
  unfold write holdOn holdOff
  cases can <;> rfl

theorem write_level (can : Bool) (v : Nat) (p : Pad) :
    (write can v p).level = decide (v ≠ 0) := by
  unfold write holdOn holdOff
  cases can <;> rfl

/-- The registers always have the mode and level asked for. -/
theorem registers (can : Bool) (pin : Nat) (cs : List Call) (p : Pad) (a : Option Nat)
    (hm : p.mode = modeOf a) :
    (cs.foldl (feel can pin) p).mode = modeOf (askedMode pin cs a) ∧
    (cs.foldl (feel can pin) p).level = askedLevel pin cs p.level := by
  induction cs generalizing p a with
  | nil => exact ⟨hm, rfl⟩
  | cons c cs ih =>
    cases c with
    | mode q m =>
      simp only [List.foldl_cons, askedMode, askedLevel, feel]
      by_cases hq : q = pin
      · rw [if_pos hq.symm, if_pos hq]
        have := ih (setMode m p) (some m) (setMode_mode m p)
        rw [setMode_level] at this
        exact this
      · rw [if_neg (fun e => hq e.symm), if_neg hq]
        exact ih p a hm
    | write q v =>
      simp only [List.foldl_cons, askedMode, askedLevel, feel]
      by_cases hq : q = pin
      · rw [if_pos hq.symm, if_pos hq]
        have := ih (write can v p) a (by rw [write_mode]; exact hm)
        rw [write_level] at this
        exact this
      · rw [if_neg (fun e => hq e.symm), if_neg hq]
        exact ih p a hm

theorem both_iff (a : Option Nat) : modeOf a = .both ↔ a = some 1 := by
  unfold modeOf
  constructor
  · intro h
    split at h
    · cases h
    · rfl
    · cases h
    · cases h
  · intro h
    subst h
    rfl

/-- A pad that is not held, or held as its registers say, shows what was asked. -/
theorem shown_wanted (pin : Nat) (cs : List Call) (p : Pad)
    (hm : p.mode = modeOf (askedMode pin cs none)) (hl : p.level = askedLevel pin cs false)
    (hs : shows p = (p.mode, p.level)) : drives p = wanted pin cs := by
  unfold drives wanted
  rw [hs]
  dsimp only
  rw [hm, hl]
  by_cases h : askedMode pin cs none = some 1
  · rw [if_pos ((both_iff _).2 h), if_pos h]
  · rw [if_neg (fun e => h ((both_iff _).1 e)), if_neg h]

theorem write_shows (can : Bool) (v : Nat) (p : Pad) :
    shows (write can v p) = ((write can v p).mode, (write can v p).level) := by
  unfold write holdOn holdOff shows
  cases can <;> rfl

theorem input_shows (m : Nat) (p : Pad) (h : m = 0 ∨ m = 2) :
    shows (setMode m p) = ((setMode m p).mode, (setMode m p).level) := by
  rcases h with h | h <;> subst h <;> rfl

theorem free_feel (pin : Nat) (cs : List Call) (p : Pad) (h : p.held = none) :
    (cs.foldl (feel false pin) p).held = none := by
  induction cs generalizing p with
  | nil => exact h
  | cons c cs ih =>
    rw [List.foldl_cons]
    apply ih
    cases c with
    | mode q m =>
      unfold feel setMode holdOff
      dsimp only
      split
      · split
        · rfl
        · split
          · exact h
          · split
            · rfl
            · exact h
      · exact h
    | write q v =>
      unfold feel write holdOn holdOff
      dsimp only
      split
      · rfl
      · exact h

/-! ## The claims -/

/-- On a chip without hold the full claim is true. -/
theorem obeys_without_hold : Obeys false := by
  intro cs hf pin
  obtain ⟨b, hb⟩ := run_defined false cs hf start
  refine ⟨b, hb, ?_⟩
  have he := run_feel false cs start b pin hb
  have hr := registers false pin cs fresh none rfl
  have hh := free_feel pin cs fresh rfl
  rw [he]
  apply shown_wanted pin cs _ hr.1 hr.2
  unfold shows
  rw [hh]

example : ∃ b, run false start [.write 4 1, .mode 4 1] = some b ∧ drives (b 4) = some true :=
  obeys_without_hold [.write 4 1, .mode 4 1]
    (by intro c hc q m e; subst e; simp at hc; omega) 4

/-- With hold: when the last call for the pin is a write, the wire has what was
asked, whatever came before. -/
theorem obeys_after_write_partial (can : Bool) (cs ds : List Call) (pin v : Nat)
    (hf : Fits (cs ++ .write pin v :: ds)) (hd : ∀ c ∈ ds, ¬ touches pin c) :
    ∃ b, run can start (cs ++ .write pin v :: ds) = some b ∧
      drives (b pin) = wanted pin (cs ++ [.write pin v]) := by
  obtain ⟨b, hb⟩ := run_defined can _ hf start
  refine ⟨b, hb, ?_⟩
  have hsplit : cs ++ Call.write pin v :: ds = (cs ++ [.write pin v]) ++ ds := by simp
  rw [hsplit, run_append] at hb
  obtain ⟨b1, h1⟩ := run_defined can (cs ++ [.write pin v])
    (fun c hc => hf c (by rw [hsplit]; exact List.mem_append_left _ hc)) start
  rw [h1] at hb
  rw [run_other can ds b1 b pin hd hb, run_feel can _ start b1 pin h1]
  have hr := registers can pin (cs ++ [.write pin v]) fresh none rfl
  refine shown_wanted pin _ _ hr.1 hr.2 ?_
  rw [List.foldl_append]
  simp only [List.foldl_cons, List.foldl_nil, feel, if_true]
  exact write_shows can v _

/-- A pin made an input is released, whatever came before. -/
theorem input_releases (can : Bool) (cs ds : List Call) (pin m : Nat) (hm : m = 0 ∨ m = 2)
    (hf : Fits (cs ++ .mode pin m :: ds)) (hd : ∀ c ∈ ds, ¬ touches pin c) :
    ∃ b, run can start (cs ++ .mode pin m :: ds) = some b ∧ drives (b pin) = none := by
  obtain ⟨b, hb⟩ := run_defined can _ hf start
  refine ⟨b, hb, ?_⟩
  have hsplit : cs ++ Call.mode pin m :: ds = (cs ++ [.mode pin m]) ++ ds := by simp
  rw [hsplit, run_append] at hb
  obtain ⟨b1, h1⟩ := run_defined can (cs ++ [.mode pin m])
    (fun c hc => hf c (by rw [hsplit]; exact List.mem_append_left _ hc)) start
  rw [h1] at hb
  rw [run_other can ds b1 b pin hd hb, run_feel can _ start b1 pin h1, List.foldl_append]
  simp only [List.foldl_cons, List.foldl_nil, feel, if_true]
  unfold drives
  rw [input_shows m _ hm]
  dsimp only
  rw [setMode_mode]
  rcases hm with hm | hm <;> subst hm <;> rfl

/-- With hold: a level written while the pin is not an output, and then the
pin made an output, leaves the wire without any level, until the next write. -/
theorem silent_violation (cs ds : List Call) (pin v : Nat)
    (hn : askedMode pin cs none ≠ some 1)
    (hf : Fits (cs ++ .write pin v :: .mode pin 1 :: ds)) (hd : ∀ c ∈ ds, ¬ touches pin c) :
    ∃ b, run true start (cs ++ .write pin v :: .mode pin 1 :: ds) = some b ∧
      drives (b pin) = none := by
  obtain ⟨b, hb⟩ := run_defined true _ hf start
  refine ⟨b, hb, ?_⟩
  have hsplit : cs ++ Call.write pin v :: .mode pin 1 :: ds =
      (cs ++ [.write pin v, .mode pin 1]) ++ ds := by simp
  rw [hsplit, run_append] at hb
  obtain ⟨b1, h1⟩ := run_defined true (cs ++ [.write pin v, .mode pin 1])
    (fun c hc => hf c (by rw [hsplit]; exact List.mem_append_left _ hc)) start
  rw [h1] at hb
  rw [run_other true ds b1 b pin hd hb, run_feel true _ start b1 pin h1, List.foldl_append]
  simp only [List.foldl_cons, List.foldl_nil, feel, if_true]
  have hr := (registers true pin cs fresh none rfl).1
  show drives (setMode 1 (write true v (cs.foldl (feel true pin) fresh))) = none
  generalize cs.foldl (feel true pin) fresh = p at hr
  unfold setMode write holdOn holdOff drives shows
  simp only [if_true, if_neg (show ¬ (1 : Nat) = 0 by decide)]
  rw [hr]
  exact if_neg (fun e => hn ((both_iff _).1 e))

/-- So the full claim is false on a chip with hold. -/
theorem obeys_with_hold_violation : ¬ Obeys true := by
  intro h
  have hf : Fits [.write 4 1, .mode 4 1] := by
    intro c hc q m e; subst e; simp at hc; omega
  obtain ⟨b, hb, hw⟩ := h [.write 4 1, .mode 4 1] hf 4
  obtain ⟨b', hb', hn⟩ := silent_violation [] [] 4 1 (by simp [askedMode]) hf (by simp)
  have : b = b' := by
    have := hb.symm.trans hb'
    exact Option.some.inj this
  rw [this, hn] at hw
  revert hw
  decide

/-- A pad held while it was an output keeps the level through a change of its
mode to something the source does not know: it is not switched off. -/
theorem unknown_mode_keeps_violation (cs ds : List Call) (pin v m : Nat) (hm : 2 < m)
    (hn : askedMode pin cs none = some 1)
    (hf : Fits (cs ++ .write pin v :: .mode pin m :: ds)) (hd : ∀ c ∈ ds, ¬ touches pin c) :
    ∃ b, run true start (cs ++ .write pin v :: .mode pin m :: ds) = some b ∧
      drives (b pin) = some (decide (v ≠ 0)) := by
  obtain ⟨b, hb⟩ := run_defined true _ hf start
  refine ⟨b, hb, ?_⟩
  have hsplit : cs ++ Call.write pin v :: .mode pin m :: ds =
      (cs ++ [.write pin v, .mode pin m]) ++ ds := by simp
  rw [hsplit, run_append] at hb
  obtain ⟨b1, h1⟩ := run_defined true (cs ++ [.write pin v, .mode pin m])
    (fun c hc => hf c (by rw [hsplit]; exact List.mem_append_left _ hc)) start
  rw [h1] at hb
  rw [run_other true ds b1 b pin hd hb, run_feel true _ start b1 pin h1, List.foldl_append]
  simp only [List.foldl_cons, List.foldl_nil, feel, if_true]
  have hr := (registers true pin cs fresh none rfl).1
  show drives (setMode m (write true v (cs.foldl (feel true pin) fresh))) = _
  generalize cs.foldl (feel true pin) fresh = p at hr
  unfold setMode write holdOn holdOff drives shows
  simp only [if_neg (show ¬ m = 0 by omega), if_neg (show ¬ m = 1 by omega),
    if_neg (show ¬ m = 2 by omega), if_true]
  rw [hr]
  exact if_pos ((both_iff _).2 hn)

example : ∃ b, run true start ([.mode 4 1] ++ .write 4 1 :: .mode 4 3 :: []) = some b ∧
    drives (b 4) = some true :=
  unknown_mode_keeps_violation [.mode 4 1] [] 4 1 3 (by decide) (by simp [askedMode])
    (by intro c hc q m e; subst e; simp at hc; omega) (by simp)

/-! ## The elements -/

/-- After its start a relay drives the level of its state, on both chips and
after both kinds of restart. -/
theorem relay_driven (can soft : Bool) (pin v : Nat) (h : pin < 64) :
    ∃ b, run can start (relayInit soft pin v) = some b ∧
      drives (b pin) = some (decide (v ≠ 0)) := by
  have hf : ∀ s, Fits (relayInit s pin v) := by
    intro s c hc q m e
    subst e
    cases s <;> simp [relayInit] at hc <;> omega
  cases soft with
  | true =>
    obtain ⟨b, hb, hw⟩ := obeys_after_write_partial can [.mode pin 1] [] pin v (hf true) (by simp)
    refine ⟨b, hb, hw.trans ?_⟩
    simp [wanted, askedMode, askedLevel]
  | false =>
    obtain ⟨b, hb, hw⟩ := obeys_after_write_partial can [.write pin v, .mode pin 1] [] pin v
      (hf false) (by simp)
    refine ⟨b, hb, hw.trans ?_⟩
    simp [wanted, askedMode, askedLevel]

/-- After its start an internal output drives the level of its state. -/
theorem pinOutput_driven (can : Bool) (pin v : Nat) (h : pin < 64) :
    ∃ b, run can start (pinOutputInit pin v) = some b ∧
      drives (b pin) = some (decide (v ≠ 0)) :=
  relay_driven can false pin v h

/-- After its start a roller shutter on a chip with hold drives neither of its
two pins: the level that stops the motor is on no wire. -/
theorem shutter_undriven_violation (up down off : Nat) (hu : up < 64) (hd : down < 64)
    (hne : up ≠ down) :
    ∃ b, run true start (shutterInit up down off) = some b ∧
      drives (b up) = none ∧ drives (b down) = none := by
  have hf : Fits (shutterInit up down off) := by
    intro c hc q m e
    subst e
    simp [shutterInit] at hc
    omega
  obtain ⟨b, hb, h1⟩ := silent_violation [] [.write down off, .mode down 1] up off
    (by simp [askedMode]) hf (by
      intro c hc
      simp at hc
      rcases hc with hc | hc <;> subst hc <;> exact fun e => hne e.symm)
  obtain ⟨b', hb', h2⟩ := silent_violation [.write up off, .mode up 1] [] down off
    (by simp [askedMode, hne]) hf (by simp)
  have : b = b' := by
    have := hb.symm.trans hb'
    exact Option.some.inj this
  exact ⟨b, hb, h1, by rw [this]; exact h2⟩

/-- The first command to the motor drives both pins as wanted: `startClosing`,
`roller_shutter.cpp` 116-121, switches one off and the other on. -/
theorem shutter_moves (can : Bool) (up down on off : Nat) (hu : up < 64) (hd : down < 64)
    (hne : up ≠ down) :
    ∃ b, run can start (shutterInit up down off ++ [.write up off, .write down on]) = some b ∧
      drives (b up) = some (decide (off ≠ 0)) ∧ drives (b down) = some (decide (on ≠ 0)) := by
  have hf : Fits (shutterInit up down off ++ [.write up off, .write down on]) := by
    intro c hc q m e
    subst e
    simp [shutterInit] at hc
    omega
  have hne' : ¬ down = up := fun e => hne e.symm
  obtain ⟨b, hb, h1⟩ := obeys_after_write_partial can (shutterInit up down off)
    [.write down on] up off hf (by
      intro c hc
      simp at hc
      subst hc
      exact fun e => hne e.symm)
  obtain ⟨b', hb', h2⟩ := obeys_after_write_partial can
    (shutterInit up down off ++ [.write up off]) [] down on (by simpa using hf) (by simp)
  have : b = b' := by
    rw [show shutterInit up down off ++ [Call.write up off] ++ [.write down on] =
      shutterInit up down off ++ [.write up off, .write down on] by simp] at hb'
    have := hb.symm.trans hb'
    exact Option.some.inj this
  refine ⟨b, hb, h1.trans ?_, ?_⟩
  · simp [wanted, askedMode, askedLevel, shutterInit, hne']
  · rw [this]
    refine h2.trans ?_
    simp [wanted, askedMode, askedLevel, shutterInit]

/-- The other elements that write before the mode only: no level after start. -/
theorem led_undriven_violation (pin v : Nat) (h : pin < 64) :
    ∃ b, run true start (ledInit pin v) = some b ∧ drives (b pin) = none :=
  silent_violation [] [] pin v (by simp [askedMode])
    (by intro c hc q m e; subst e; simp at hc; omega) (by simp)

theorem bistable_undriven_violation (pin off : Nat) (h : pin < 64) :
    ∃ b, run true start (bistableInit pin off) = some b ∧ drives (b pin) = none :=
  led_undriven_violation pin off h

theorem stop_undriven_violation (pin off : Nat) (h : pin < 64) :
    ∃ b, run true start (stopInit pin off) = some b ∧ drives (b pin) = none :=
  led_undriven_violation pin off h

example : ∃ b, run true start (shutterInit 4 5 1) = some b ∧
    drives (b 4) = none ∧ drives (b 5) = none :=
  shutter_undriven_violation 4 5 1 (by decide) (by decide) (by decide)

example : ∃ b, run true start (relayInit false 4 1) = some b ∧ drives (b 4) = some true :=
  relay_driven true false 4 1 (by decide)

end Verif.Pads
