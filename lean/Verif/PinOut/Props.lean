import Verif.Common.Clock

/-!
# C103: an output pin operated by the device itself

`/repo/src/supla/control/internal_pin_output.cpp` (IP below) and `.h`: a pin that actions, programs or a thermostat switch,
without a channel.

Simplified: reading the pin (`digitalRead`) gives what was written last; an int is 32 bits wide. Events are left out.
-/

namespace Verif.PinOut

/-! ## What is meant -/

/-- Passes of the main loop (true times in ms): each not before the one before, and at most `gap` later. -/
def Passes (gap : Nat) : Nat → List Nat → Prop
  | _, [] => True
  | t0, t :: ts => t0 ≤ t ∧ t ≤ t0 + gap ∧ Passes gap t ts

/-- There was a pass later than `d` ms after `t0`. -/
def Late (t0 d : Nat) (ts : List Nat) : Prop := ∃ t ∈ ts, t0 + d < t

/-! ## The code -/

/-- IP.h lines 64-70. `level` is the level of the pin, `last` is `lastOutputValue`. -/
structure St where
  high : Bool
  defOn : Bool
  stored : Nat
  dur : Nat
  ts : Nat
  last : Int
  level : Bool
deriving DecidableEq

/-- `isOn`, IP lines 78-80 with 47-53. -/
def St.isOn (s : St) : Bool := s.level == s.high

/-- `turnOn`, IP lines 55-66; `d` is converted to an unsigned number. -/
def turnOn (now : Nat) (d : Int) (s : St) : St :=
  { s with dur := if s.stored ≠ 0 then s.stored else (d % 2 ^ 32).toNat, ts := clk now, level := s.high }

/-- `turnOff`, IP lines 68-76. -/
def turnOff (now : Nat) (d : Int) (s : St) : St := { s with dur := (d % 2 ^ 32).toNat, ts := clk now, level := !s.high }

/-- `toggle`, IP lines 82-88. -/
def toggle (now : Nat) (d : Int) (s : St) : St := if s.isOn then turnOff now d s else turnOn now d s

/-- `iterateAlways`, IP lines 124-128. -/
def pass (now : Nat) (s : St) : St := if s.dur ≠ 0 ∧ since (clk now) s.ts > s.dur then toggle now 0 s else s

/-- `onInit`, IP lines 108-123; the second switching is the first again. -/
def onInit (now : Nat) (s : St) : St := if s.defOn then turnOn now 0 (turnOn now 0 s) else turnOff now 0 (turnOff now 0 s)

/-- `setOutputValue`, IP lines 140-149. -/
def setOutput (now : Nat) (v : Int) (s : St) : St :=
  if v ≠ s.last then (if v ≠ 0 then turnOn now 0 { s with last := v } else turnOff now 0 { s with last := v }) else s

/-- A new output: IP.h lines 64-70, `setDefaultStateOn`, `setDurationMs`. -/
def new (high defOn : Bool) (stored : Int) (level : Bool) : St := ⟨high, defOn, (stored % 2 ^ 32).toNat, 0, 0, 0, level⟩

/-- What happens. -/
inductive Op
  | on (d : Int) | off (d : Int) | toggle (d : Int) | pass | output (v : Int)

/-- One event at a true time, each the function cited above. -/
def step (s : St) : Nat × Op → St
  | (t, .on d) => turnOn t d s
  | (t, .off d) => turnOff t d s
  | (t, .toggle d) => Verif.PinOut.toggle t d s
  | (t, .pass) => Verif.PinOut.pass t s
  | (t, .output v) => setOutput t v s

/-! ## Switching -/

/-- **C103.** The pin has the level that means what was done last, whatever the polarity. -/
theorem commands (now : Nat) (d : Int) (s : St) :
    ((turnOn now d s).isOn = true ∧ (turnOff now d s).isOn = false ∧ (toggle now d s).isOn = !s.isOn) ∧
    ((turnOn now d s).level = s.high ∧ (turnOff now d s).level = !s.high) := by
  refine ⟨⟨?_, ?_, ?_⟩, rfl, rfl⟩
  · simp [turnOn, St.isOn]
  · cases h : s.high <;> simp [turnOff, St.isOn, h]
  · unfold toggle
    cases h : s.isOn
    · simp [turnOn, St.isOn]
    · rw [if_pos rfl]
      cases h : s.high <;> simp [turnOff, St.isOn, h]

/-- **C103.** After start-up it is on or off as configured. -/
theorem boot (now : Nat) (s : St) : (onInit now s).isOn = s.defOn := by
  unfold onInit
  cases h : s.defOn
  · rw [if_neg Bool.false_ne_true]; exact (commands now 0 _).1.2.1
  · rw [if_pos rfl]; exact (commands now 0 _).1.1

/-! ## Time -/

/-- How long an "on" lasts: the configured duration before the one given; 0 is for ever. -/
def lasts (s : St) (d : Nat) : Nat := if s.stored ≠ 0 then s.stored else d

theorem pass_idle (now : Nat) (s : St) (h : s.dur = 0) : pass now s = s := by
  unfold pass
  rw [if_neg (by omega)]

theorem passes_idle (ts : List Nat) (s : St) (h : s.dur = 0) : ts.foldl (fun s t => pass t s) s = s := by
  induction ts with
  | nil => rfl
  | cons t ts ih => rw [List.foldl_cons, pass_idle t s h]; exact ih

/-- Waiting: as long as no pass is late nothing happens, and the first late one toggles. -/
theorem waiting (gap t0 : Nat) (s : St) (hd0 : s.dur ≠ 0) (hts : s.ts = clk t0) (hb : s.dur + gap < 2 ^ 32) :
    ∀ (ts : List Nat) (t : Nat), t0 ≤ t → t ≤ t0 + s.dur → Passes gap t ts →
      (¬ Late t0 s.dur ts ∧ ts.foldl (fun s t => pass t s) s = s) ∨
      (Late t0 s.dur ts ∧ ∃ (u : Nat) (us : List Nat), u ∈ ts ∧ t0 + s.dur < u ∧ u ≤ t0 + s.dur + gap ∧ ts.foldl (fun s t => pass t s) s = us.foldl (fun s t => pass t s) (toggle u 0 s)) := by
  intro ts
  induction ts with
  | nil =>
    intro t _ _ _
    refine Or.inl ⟨?_, rfl⟩
    rintro ⟨u, hu, _⟩
    cases hu
  | cons u us ih =>
    intro t h1 h2 hp
    obtain ⟨p1, p2, p3⟩ := hp
    rw [List.foldl_cons]
    have hs : since (clk u) s.ts = u - t0 := by
      rw [hts]; exact since_clk_eq u t0 (by omega) (by omega)
    by_cases hl : t0 + s.dur < u
    · refine Or.inr ⟨⟨u, List.mem_cons_self, hl⟩, u, us, List.mem_cons_self, hl, by omega, ?_⟩
      unfold pass
      rw [if_pos ⟨hd0, by rw [hs]; omega⟩]
    · have he : pass u s = s := by
        unfold pass
        rw [if_neg (by rw [hs]; omega)]
      rw [he]
      rcases ih u (by omega) (by omega) p3 with ⟨n1, n2⟩ | ⟨l1, v, vs, v1, v2, v3, v4⟩
      · refine Or.inl ⟨?_, n2⟩
        rintro ⟨w, hw, hlw⟩
        rcases List.mem_cons.mp hw with rfl | hw
        · exact hl hlw
        · exact n1 ⟨w, hw, hlw⟩
      · refine Or.inr ⟨?_, v, vs, List.mem_cons_of_mem _ v1, v2, v3, v4⟩
        obtain ⟨w, hw, hlw⟩ := l1
        exact ⟨w, List.mem_cons_of_mem _ hw, hlw⟩

/-- **C103.** Turned on for a time, the output is on until the first pass after that time, and off from then on. -/
theorem timed_on (gap t0 d : Nat) (s : St) (hd : lasts s d ≠ 0) (hb : lasts s d + gap < 2 ^ 32) (ts : List Nat) (hp : Passes gap t0 ts) :
    ((ts.foldl (fun s t => pass t s) (turnOn t0 d s)).isOn = true ↔ ¬ Late t0 (lasts s d) ts) := by
  have hdur : (turnOn t0 d s).dur = lasts s d := by
    unfold lasts at hb ⊢
    unfold turnOn
    dsimp only
    split
    · rfl
    · next h => rw [if_neg h] at hb; omega
  have hw := waiting gap t0 (turnOn t0 d s) (by rw [hdur]; exact hd) rfl (by rw [hdur]; exact hb) ts t0 (by omega) (by omega) hp
  rw [hdur] at hw
  have hon := (commands t0 d s).1.1
  rcases hw with ⟨n1, n2⟩ | ⟨l1, u, us, _, _, _, e⟩
  · rw [n2, hon]
    exact ⟨fun _ => n1, fun _ => rfl⟩
  · rw [e]
    have ht : toggle u 0 (turnOn t0 d s) = turnOff u 0 (turnOn t0 d s) := by
      unfold toggle
      rw [if_pos hon]
    rw [ht, passes_idle us _ (by unfold turnOff; rfl), (commands u 0 _).1.2.1]
    exact ⟨fun h => (by cases h), fun h => absurd l1 h⟩

/-- **C103.** Turned off for a time, it is on again after the first late pass, for good if no duration is configured. -/
theorem timed_off (gap t0 d : Nat) (s : St) (hs : s.stored = 0) (hd : d ≠ 0) (hb : d + gap < 2 ^ 32) (ts : List Nat) (hp : Passes gap t0 ts) :
    ((ts.foldl (fun s t => pass t s) (turnOff t0 d s)).isOn = true ↔ Late t0 d ts) := by
  have hdur : (turnOff t0 d s).dur = d := by
    unfold turnOff
    dsimp only
    omega
  have hw := waiting gap t0 (turnOff t0 d s) (by rw [hdur]; exact hd) rfl (by rw [hdur]; exact hb) ts t0 (by omega) (by omega) hp
  rw [hdur] at hw
  have hoff := (commands t0 d s).1.2.1
  rcases hw with ⟨n1, n2⟩ | ⟨l1, u, us, _, _, _, e⟩
  · rw [n2, hoff]
    exact ⟨fun h => (by cases h), fun h => absurd h n1⟩
  · rw [e]
    have ht : toggle u 0 (turnOff t0 d s) = turnOn u 0 (turnOff t0 d s) := by
      unfold toggle
      rw [if_neg (by rw [hoff]; exact Bool.false_ne_true)]
    have hz : (turnOn u 0 (turnOff t0 d s)).dur = 0 := by
      unfold turnOn turnOff
      dsimp only
      rw [hs]; rfl
    rw [ht, passes_idle us _ hz, (commands u 0 _).1.1]
    exact ⟨fun _ => l1, fun _ => rfl⟩

/-- **C103.** Without a duration it stays as it is. -/
theorem untimed (t0 : Nat) (s : St) (ts : List Nat) :
    (s.stored = 0 → (ts.foldl (fun s t => pass t s) (turnOn t0 0 s)).isOn = true) ∧ (ts.foldl (fun s t => pass t s) (turnOff t0 0 s)).isOn = false := by
  constructor
  · intro h
    rw [passes_idle _ _ (by unfold turnOn; dsimp only; rw [h]; rfl)]
    exact (commands t0 0 s).1.1
  · rw [passes_idle _ _ (by unfold turnOff; rfl)]
    exact (commands t0 0 s).1.2.1

/-! ## As the output of a thermostat -/

/-- What the thermostat asked for last. -/
def asked : List (Nat × Op) → Option Int
  | [] => none
  | (_, .output v) :: _ => some v
  | _ :: ops => asked ops

/-- A history after start-up, newest first. -/
def run (s : St) : List (Nat × Op) → St
  | [] => s
  | o :: ops => step (run s ops) o

/-- The full claim: right after the thermostat has asked for something, the output is on iff it asked for "on". -/
def Obeys : Prop := ∀ (s : St) (t0 : Nat) (ops : List (Nat × Op)) (t : Nat) (v : Int), s.last = 0 → (run (onInit t0 s) ((t, .output v) :: ops)).isOn = decide (v ≠ 0)

/-- Only the thermostat and passes. -/
def Alone (ops : List (Nat × Op)) : Prop := ∀ o ∈ ops, ∃ t, o = (t, .pass) ∨ ∃ v, o = (t, .output v)

/-- **C103.** An output that is off by default, has no duration and that only the thermostat operates is on iff the
thermostat asked for it last. -/
theorem obeys_partial (s : St) (t0 : Nat) (h0 : s.last = 0) (hd : s.defOn = false) (hs : s.stored = 0) (ops : List (Nat × Op)) (h : Alone ops) :
    (run (onInit t0 s) ops).isOn = decide ((asked ops).getD 0 ≠ 0) := by
  have key : (run (onInit t0 s) ops).isOn = decide ((asked ops).getD 0 ≠ 0) ∧ (run (onInit t0 s) ops).dur = 0 ∧ (run (onInit t0 s) ops).stored = 0 ∧
      (run (onInit t0 s) ops).last = (asked ops).getD 0 := by
    induction ops with
    | nil =>
      refine ⟨?_, ?_, ?_, ?_⟩
      · show (onInit t0 s).isOn = _
        rw [boot, hd]; rfl
      all_goals
        show _ = _
        unfold run onInit
        rw [hd, if_neg Bool.false_ne_true]
      · rfl
      · exact hs
      · exact h0
    | cons o ops ih =>
      obtain ⟨i1, i2, i3, i4⟩ := ih (fun o ho => h o (List.mem_cons_of_mem _ ho))
      obtain ⟨t, ho | ⟨v, ho⟩⟩ := h o List.mem_cons_self
      · subst ho
        show (pass t (run (onInit t0 s) ops)).isOn = decide ((asked ops).getD 0 ≠ 0) ∧ _
        rw [show run (onInit t0 s) ((t, .pass) :: ops) = pass t (run (onInit t0 s) ops) from rfl, pass_idle t _ i2]
        exact ⟨i1, i2, i3, i4⟩
      · subst ho
        rw [show run (onInit t0 s) ((t, .output v) :: ops) = setOutput t v (run (onInit t0 s) ops) from rfl, show asked ((t, .output v) :: ops) = some v from rfl]
        show _ = decide (v ≠ 0) ∧ _ ∧ _ ∧ _ = v
        generalize run (onInit t0 s) ops = x at *
        unfold setOutput
        by_cases hv : v = x.last
        · rw [if_neg (by simpa using hv)]
          exact ⟨by rw [i1, ← i4, hv], i2, i3, by rw [hv]⟩
        · rw [if_pos hv]
          by_cases hz : v = 0
          · rw [if_neg (by simpa using hz), (commands t 0 _).1.2.1]
            exact ⟨by simp [hz], rfl, i3, rfl⟩
          · rw [if_pos hz, (commands t 0 _).1.1]
            exact ⟨by simp [hz], by unfold turnOn; dsimp only; rw [i3]; rfl, i3, rfl⟩
  exact key.1

/-- A heater, on by default. -/
def heaterOn : St := new true true 0 false
/-- A heater, off by default. -/
def heater : St := new true false 0 false

/-- **Finding.** An output that is on by default stays on although the thermostat asks for "off". -/
theorem default_violation : ¬ Obeys := by
  intro h
  have := h heaterOn 0 [] 1000 0 rfl
  revert this
  decide +kernel

/-- **Finding.** After the output was switched off by an action, the thermostat cannot switch it on until it has asked for
"off" once. -/
theorem action_violation : ¬ Obeys := by
  intro h
  have := h heater 0 [(2000, .off 0), (1000, .output 100)] 3000 100 rfl
  revert this
  decide +kernel

/-- **Finding.** With a duration configured, the thermostat's "on" ends after it, and asking again does nothing. -/
theorem duration_violation : ¬ Obeys := by
  intro h
  have := h { heater with stored := 500 } 0 [(2000, .pass), (1000, .output 100)] 3000 100 rfl
  revert this
  decide +kernel

/-- Two hours of heating for a pump with a low-active pin: on after a pass in time, off after a late one. -/
example : (run (onInit 0 (new false false 0 true)) [(7200000, .pass), (1, .on 7200000)]).isOn = true ∧
    (run (onInit 0 (new false false 0 true)) [(7200002, .pass), (1, .on 7200000)]).isOn = false ∧
    (run (onInit 0 (new false false 0 true)) [(7200000, .pass), (1, .on 7200000)]).level = false := by decide +kernel
example : Passes 1000 4294967000 [4294967295, 4294967296, 4294968000] := by unfold Passes; simp [Passes]
example : Alone [(2000, .pass), (1000, .output 100)] := by
  intro o ho
  simp at ho
  rcases ho with rfl | rfl
  · exact ⟨_, Or.inl rfl⟩
  · exact ⟨_, Or.inr ⟨_, rfl⟩⟩

end Verif.PinOut
