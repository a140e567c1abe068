import Verif.CmdOut.Model

/-!
# C159: the commands of a thermostat of the Linux port follow what it reports
-/

namespace Verif.CmdOut
open Verif.Hvac

/-- What the output was last told. -/
def lastCmd (w : Which) : List (Which × Cmd) → Option Cmd
  | [] => none
  | (x, c) :: l => (lastCmd w l).or (if x = w then some c else none)

/-- One call, seen from the values. -/
def applyCall (o : Out) : Which × Int → Out
  | (.pri, v) => { o with pri := v }
  | (.sec, v) => { o with sec := v }

/-- The calls give the outputs the values `Verif.Hvac.write` gives them. -/
theorem calls_write (h : Hw) (k : Kind) (v : Int) (o : Out) : (calls h k v).foldl applyCall o = write h k v o := by
  obtain ⟨a, b, c, d⟩ := h
  cases k
  · cases b <;> by_cases hv : v ≤ 0 <;> simp [calls, write, applyCall, hv]
  · cases b <;> by_cases hv : v ≥ 0 <;> simp [calls, write, applyCall, hv]
  · cases b
    · simp [calls, write]
    · by_cases h0 : v = 0
      · simp [calls, write, applyCall, h0]
      · by_cases h1 : v ≥ 1 <;> simp [calls, write, applyCall, h0, h1]
  · rfl

/-- What `setOutput` does to the values is what its calls do. -/
theorem setOutput_calls (h : Hw) (k : Kind) (minOn minOff now : Nat) (v : Int) (force : Bool) (o : Out) :
    (Hvac.setOutput h k minOn minOff now v force o).pri = ((callsOf h k minOn minOff now v force o).foldl applyCall o).pri ∧
    (Hvac.setOutput h k minOn minOff now v force o).sec = ((callsOf h k minOn minOff now v force o).foldl applyCall o).sec := by
  have frame : ∀ (l : List (Which × Int)) (o o' : Out), o.pri = o'.pri → o.sec = o'.sec →
      (l.foldl applyCall o).pri = (l.foldl applyCall o').pri ∧ (l.foldl applyCall o).sec = (l.foldl applyCall o').sec := by
    intro l
    induction l with
    | nil => intro o o' h1 h2; exact ⟨h1, h2⟩
    | cons x l ih =>
      intro o o' h1 h2
      obtain ⟨w, n⟩ := x
      cases w
      · exact ih _ _ rfl h2
      · exact ih _ _ h1 rfl
  unfold Hvac.setOutput callsOf
  cases h.hasPri with
  | false => exact ⟨rfl, rfl⟩
  | true =>
    by_cases hl : o.last = v
    · simp [hl]
    · simp only [hl, if_false, Bool.not_true, Bool.false_eq_true]
      cases choose minOn minOff now o v force with
      | none => exact ⟨rfl, rfl⟩
      | some x =>
        obtain ⟨v', ch⟩ := x
        dsimp only
        rw [← calls_write]
        exact frame _ _ _ rfl rfl

theorem lastCmd_append (w : Which) (l m : List (Which × Cmd)) : lastCmd w (l ++ m) = (lastCmd w m).or (lastCmd w l) := by
  induction l with
  | nil => exact Option.or_none.symm
  | cons x l ih =>
    obtain ⟨y, c⟩ := x
    show (lastCmd w (l ++ m)).or _ = _
    rw [ih, Option.or_assoc]
    rfl

/-! ## Heating -/

/-- The primary output and its commands agree. -/
def Agree (o : Out) (l : Option Cmd) : Prop := (o.pri = 0 ∨ o.pri = 1) ∧ (l = none → o.pri = 0) ∧ (l = some .on ↔ o.pri = 1)

theorem heat_calls (s : Cmds) (v : Int) : calls (hw s) .heat v = (if s.on && s.off then [(.sec, 0)] else []) ++ [(.pri, if v ≤ 0 then 0 else 1)] := rfl

theorem heat_step (p s : Cmds) (hon : p.on = true) (hoff : p.off = true) (minOn minOff : Nat) (a : Op) (o : Out) (l : Option Cmd) (h : Agree o l) :
    Agree (Hvac.setOutput (hw s) .heat minOn minOff a.now a.v a.force o)
      ((lastCmd .pri (commands p s (callsOf (hw s) .heat minOn minOff a.now a.v a.force o))).or l) := by
  have e := (setOutput_calls (hw s) .heat minOn minOff a.now a.v a.force o).1
  have hc : callsOf (hw s) .heat minOn minOff a.now a.v a.force o = [] ∨ ∃ v', callsOf (hw s) .heat minOn minOff a.now a.v a.force o = calls (hw s) .heat v' := by
    unfold callsOf
    by_cases hl : o.last = a.v
    · left; simp [hl]
    · simp only [hl, if_false]
      cases choose minOn minOff a.now o a.v a.force with
      | none => left; simp
      | some x => right; exact ⟨x.1, rfl⟩
  generalize Hvac.setOutput (hw s) .heat minOn minOff a.now a.v a.force o = o' at e
  unfold Agree at *
  rw [e]
  rcases hc with hc | ⟨v', hc⟩
  · rw [hc]; exact h
  · rw [hc, heat_calls]
    obtain ⟨on, off⟩ := p
    cases hon
    cases hoff
    obtain ⟨son, soff⟩ := s
    by_cases hv : v' ≤ 0 <;> cases son <;> cases soff <;> simp [hv, applyCall, commands, setValue, lastCmd]

theorem both_step (p s : Cmds) (hon : p.on = true) (hoff : p.off = true) (minOn minOff : Nat) (a : Op) (o : Out) (l : Option Cmd) (h : Agree o l) :
    Agree (Hvac.setOutput (hw s) .both minOn minOff a.now a.v a.force o)
      ((lastCmd .pri (commands p s (callsOf (hw s) .both minOn minOff a.now a.v a.force o))).or l) := by
  have e := (setOutput_calls (hw s) .both minOn minOff a.now a.v a.force o).1
  have hc : callsOf (hw s) .both minOn minOff a.now a.v a.force o = [] ∨ ∃ v', callsOf (hw s) .both minOn minOff a.now a.v a.force o = calls (hw s) .both v' := by
    unfold callsOf
    by_cases hl : o.last = a.v
    · left; simp [hl]
    · simp only [hl, if_false]
      cases choose minOn minOff a.now o a.v a.force with
      | none => left; simp
      | some x => right; exact ⟨x.1, rfl⟩
  generalize Hvac.setOutput (hw s) .both minOn minOff a.now a.v a.force o = o' at e
  unfold Agree at *
  rw [e]
  rcases hc with hc | ⟨v', hc⟩
  · rw [hc]; exact h
  · rw [hc]
    obtain ⟨on, off⟩ := p
    cases hon
    cases hoff
    obtain ⟨son, soff⟩ := s
    have hp : ∀ b : Bool, calls ⟨true, b, true, true⟩ .both v' = if b then (if v' = 0 then [(.pri, 0), (.sec, 0)] else if v' ≥ 1 then [(.sec, 0), (.pri, 1)] else [(.pri, 0), (.sec, -1)]) else [] := fun b => rfl
    unfold hw
    rw [hp]
    cases son <;> cases soff
    · exact h
    · exact h
    · exact h
    · by_cases h0 : v' = 0
      · simp [h0, applyCall, commands, setValue, lastCmd]
      · by_cases h1 : v' ≥ 1 <;> simp [h0, h1, applyCall, commands, setValue, lastCmd]

/-- A heating thermostat: after any sequence of settings, the last command run for its output is the one for the state of
the output, and if none has been run the output is off. -/
theorem heating_follows (p s : Cmds) (hon : p.on = true) (hoff : p.off = true) (minOn minOff : Nat) (as : List Op) :
    ((run p s .heat minOn minOff Out.init as).1.pri = 1 ↔ lastCmd .pri (run p s .heat minOn minOff Out.init as).2 = some .on) ∧
    ((run p s .heat minOn minOff Out.init as).1.pri = 0 ↔ lastCmd .pri (run p s .heat minOn minOff Out.init as).2 ≠ some .on) := by
  have key : ∀ (as : List Op) (o : Out) (l : Option Cmd), Agree o l →
      Agree (run p s .heat minOn minOff o as).1 ((lastCmd .pri (run p s .heat minOn minOff o as).2).or l) := by
    intro as
    induction as with
    | nil => intro o l h; exact h
    | cons a as ih =>
      intro o l h
      have h1 := ih _ _ (heat_step p s hon hoff minOn minOff a o l h)
      show Agree _ ((lastCmd .pri (_ ++ _)).or l)
      rw [lastCmd_append, Option.or_assoc]
      exact h1
  have h := key as Out.init none ⟨Or.inl rfl, fun _ => rfl, by decide⟩
  rw [Option.or_none] at h
  obtain ⟨h1, _, h3⟩ := h
  refine ⟨h3.symm, ?_⟩
  rw [ne_eq, h3]
  omega

example : (run ⟨true, true⟩ ⟨false, false⟩ .heat 0 0 Out.init [⟨1000, 0, true⟩, ⟨2000, 1, false⟩]).2 = [(.pri, .off), (.pri, .on)] := by decide

/-- A thermostat for heating and cooling with both outputs: its heating output follows in the same way. -/
theorem both_heating_follows (p s : Cmds) (hon : p.on = true) (hoff : p.off = true) (minOn minOff : Nat) (as : List Op) :
    ((run p s .both minOn minOff Out.init as).1.pri = 1 ↔ lastCmd .pri (run p s .both minOn minOff Out.init as).2 = some .on) ∧
    ((run p s .both minOn minOff Out.init as).1.pri = 0 ↔ lastCmd .pri (run p s .both minOn minOff Out.init as).2 ≠ some .on) := by
  have key : ∀ (as : List Op) (o : Out) (l : Option Cmd), Agree o l →
      Agree (run p s .both minOn minOff o as).1 ((lastCmd .pri (run p s .both minOn minOff o as).2).or l) := by
    intro as
    induction as with
    | nil => intro o l h; exact h
    | cons a as ih =>
      intro o l h
      have h1 := ih _ _ (both_step p s hon hoff minOn minOff a o l h)
      show Agree _ ((lastCmd .pri (_ ++ _)).or l)
      rw [lastCmd_append, Option.or_assoc]
      exact h1
  have h := key as Out.init none ⟨Or.inl rfl, fun _ => rfl, by decide⟩
  rw [Option.or_none] at h
  obtain ⟨h1, _, h3⟩ := h
  refine ⟨h3.symm, ?_⟩
  rw [ne_eq, h3]
  omega

example : (run ⟨true, true⟩ ⟨true, true⟩ .both 0 0 Out.init [⟨1000, 0, true⟩, ⟨2000, 1, false⟩]).2 =
    [(.pri, .off), (.sec, .off), (.sec, .off), (.pri, .on)] := by decide

/-- A setting to the value set before runs no command. -/
theorem same_runs_nothing (p s : Cmds) (k : Kind) (minOn minOff : Nat) (o : Out) (t : Nat) (force : Bool) :
    run p s k minOn minOff o [⟨t, o.last, force⟩] = (o, []) := by
  have e1 : Hvac.setOutput (hw s) k minOn minOff t o.last force o = o := by
    unfold Hvac.setOutput
    simp
  have e2 : callsOf (hw s) k minOn minOff t o.last force o = [] := by
    unfold callsOf
    simp
  unfold run
  dsimp only
  rw [e1, e2]
  rfl

/-- A command of the second output is run only if both of its commands are configured; otherwise there is no second output. -/
theorem second_needs_both (p s : Cmds) (k : Kind) (minOn minOff : Nat) (o : Out) (as : List Op) (c : Cmd) (hs : ¬ (s.on = true ∧ s.off = true)) :
    (Which.sec, c) ∉ (run p s k minOn minOff o as).2 := by
  have hb : (s.on && s.off) = false := by
    cases h1 : s.on <;> cases h2 : s.off <;> simp_all
  have hc : ∀ v x, (Which.sec, x) ∉ calls (hw s) k v := by
    intro v x
    unfold calls hw
    rw [hb]
    cases k <;> simp
  have cm : ∀ l : List (Which × Int), (∀ x, (Which.sec, x) ∉ l) → (Which.sec, c) ∉ commands p s l := by
    intro l
    induction l with
    | nil => intro _ h; cases h
    | cons y l ih =>
      intro hl h
      obtain ⟨w, v⟩ := y
      cases w
      · rcases List.mem_append.1 h with hm | hm
        · obtain ⟨d, _, e⟩ := List.mem_map.1 hm
          cases e
        · exact ih (fun x hx => hl x (List.mem_cons_of_mem _ hx)) hm
      · exact hl v List.mem_cons_self
  induction as generalizing o with
  | nil => intro h; cases h
  | cons a as ih =>
    intro h
    rcases List.mem_append.1 h with hm | hm
    · refine cm _ ?_ hm
      intro x hx
      unfold callsOf at hx
      by_cases hl : o.last = a.v
      · simp [hl] at hx
      · simp only [hl, if_false] at hx
        cases hch : choose minOn minOff a.now o a.v a.force with
        | none => rw [hch] at hx; simp at hx
        | some y => rw [hch] at hx; exact hc y.1 x hx
    · exact ih _ hm

/-- The first setting at the start, to off, runs the command for off of every output. -/
theorem start_runs_off (p s : Cmds) (hoff : p.off = true) (hs : s.on = true) (hso : s.off = true) (k : Kind) (hk : k ≠ .other) (minOn minOff now : Nat) :
    lastCmd .pri (run p s k minOn minOff Out.init [⟨now, 0, true⟩]).2 = some .off ∧
    lastCmd .sec (run p s k minOn minOff Out.init [⟨now, 0, true⟩]).2 = some .off := by
  have e : callsOf (hw s) k minOn minOff now 0 true Out.init = calls (hw s) k 0 := rfl
  show lastCmd .pri (commands p s (callsOf (hw s) k minOn minOff now 0 true Out.init) ++ []) = _ ∧ lastCmd .sec (commands p s (callsOf (hw s) k minOn minOff now 0 true Out.init) ++ []) = _
  rw [e, List.append_nil]
  obtain ⟨on, off⟩ := p
  obtain ⟨son, soff⟩ := s
  cases hoff
  cases hs
  cases hso
  cases k with
  | other => exact absurd rfl hk
  | heat => cases on <;> decide
  | cool => cases on <;> decide
  | both => cases on <;> decide

/-! ## Cooling -/

/-- The full claim: what is reported as cooling has its command run. -/
def CoolingFollows : Prop :=
  ∀ (p s : Cmds) (minOn minOff : Nat) (as : List Op), p = ⟨true, true⟩ → s = ⟨true, true⟩ →
    (report (hw s) .cool (run p s .cool minOn minOff Out.init as).1 ⟨0, false, false⟩).cooling = true →
      lastCmd .sec (run p s .cool minOn minOff Out.init as).2 = some .on

theorem commands_mem (p s : Cmds) (l : List (Which × Int)) (w : Which) (h : (w, Cmd.on) ∈ commands p s l) : (w, 1) ∈ l := by
  have sv : ∀ (c : Cmds) (v : Int), Cmd.on ∈ setValue c v → v = 1 := by
    intro c v hm
    unfold setValue at hm
    by_cases h1 : v = 1
    · exact h1
    · rw [if_neg h1] at hm
      by_cases h0 : v = 0
      · rw [if_pos h0] at hm
        cases c.off <;> simp at hm
      · rw [if_neg h0] at hm
        cases hm
  induction l with
  | nil => cases h
  | cons x l ih =>
    obtain ⟨y, v⟩ := x
    cases y
    · rcases List.mem_append.1 h with hm | hm
      · obtain ⟨c, hc, e⟩ := List.mem_map.1 hm
        cases e
        rw [sv p v hc]
        exact List.mem_cons_self
      · exact List.mem_cons_of_mem _ (ih hm)
    · rcases List.mem_append.1 h with hm | hm
      · obtain ⟨c, hc, e⟩ := List.mem_map.1 hm
        cases e
        rw [sv s v hc]
        exact List.mem_cons_self
      · exact List.mem_cons_of_mem _ (ih hm)

theorem run_mem (p s : Cmds) (k : Kind) (minOn minOff : Nat) (as : List Op) (o : Out) (w : Which) (h : (w, Cmd.on) ∈ (run p s k minOn minOff o as).2) :
    ∃ v, (w, 1) ∈ calls (hw s) k v := by
  induction as generalizing o with
  | nil => cases h
  | cons a as ih =>
    rcases List.mem_append.1 h with hm | hm
    · have h1 := commands_mem p s _ w hm
      unfold callsOf at h1
      by_cases hl : o.last = a.v
      · simp [hl] at h1
      · simp only [hl, if_false] at h1
        cases hc : choose minOn minOff a.now o a.v a.force with
        | none => rw [hc] at h1; simp at h1
        | some x => rw [hc] at h1; exact ⟨x.1, h1⟩
    · exact ih _ hm

/-- **Finding.** A cooling thermostat never runs a command for on, whatever is set and from whatever state: it gives its output the value
-1, for which there is no command. -/
theorem cooling_never_on_violation (p s : Cmds) (minOn minOff : Nat) (o : Out) (as : List Op) (w : Which) :
    (w, Cmd.on) ∉ (run p s .cool minOn minOff o as).2 := by
  intro h
  obtain ⟨v, hv⟩ := run_mem p s .cool minOn minOff as o w h
  unfold calls hw at hv
  dsimp only at hv
  generalize (s.on && s.off) = b at hv
  by_cases h0 : v ≥ 0 <;> cases b <;> simp [h0] at hv

/-- **Finding.** A thermostat for heating and cooling never runs the command for on of its cooling output. -/
theorem both_never_cools_violation (p s : Cmds) (minOn minOff : Nat) (o : Out) (as : List Op) :
    (Which.sec, Cmd.on) ∉ (run p s .both minOn minOff o as).2 := by
  intro h
  obtain ⟨v, hv⟩ := run_mem p s .both minOn minOff as o .sec h
  unfold calls hw at hv
  dsimp only at hv
  generalize (s.on && s.off) = b at hv
  by_cases h0 : v = 0 <;> by_cases h1 : v ≥ 1 <;> cases b <;> simp [h0, h1] at hv

/-- It reports that it cools. -/
theorem cooling_violation : ¬ CoolingFollows := by
  intro h
  have := h ⟨true, true⟩ ⟨true, true⟩ 0 0 [⟨1000, 0, true⟩, ⟨2000, -1, false⟩] rfl rfl (by decide)
  revert this
  decide

/-- The same for every value below zero, from rest, without minimum times: reported as cooling and on, nothing but commands for off run. -/
theorem reports_cooling_violation (p s : Cmds) (t u : Nat) (v : Int) (hv : v < 0) :
    report (hw s) .cool (run p s .cool 0 0 Out.init [⟨t, 0, true⟩, ⟨u, v, false⟩]).1 ⟨0, false, false⟩ = ⟨1, false, true⟩ := by
  have e0 : Hvac.setOutput (hw s) .cool 0 0 t 0 true Out.init = write (hw s) .cool 0 ⟨0, 0, 0, 0⟩ := rfl
  show report (hw s) .cool (Hvac.setOutput (hw s) .cool 0 0 u v false (Hvac.setOutput (hw s) .cool 0 0 t 0 true Out.init)) _ = _
  rw [e0]
  have hne : ¬ (0 : Int) = v := by omega
  have hne' : ¬ v = 0 := by omega
  have hle : ¬ v ≥ 0 := by omega
  obtain ⟨son, soff⟩ := s
  cases son <;> cases soff <;>
    simp [Hvac.setOutput, write, hw, choose, report, hne, hne', hle, Rep.onBool, Rep.setOn]

/-! ## Running a command -/

/-- The full claim: setting an output is defined. -/
def SetDefined : Prop := ∀ (ok : Bool) (c : Cmds) (v : Int), setValueOs ok c v ≠ none

/-- **Finding.** If the process for a command cannot be made, `pclose` gets a null pointer. -/
theorem popen_violation (c : Cmds) (v : Int) (h : (v = 1 ∧ c.on = true) ∨ (v = 0 ∧ c.off = true)) : setValueOs false c v = none := by
  unfold setValueOs setValue
  rcases h with ⟨h1, h2⟩ | ⟨h1, h2⟩ <;> simp [h1, h2]

theorem set_violation : ¬ SetDefined := fun h => h false ⟨true, true⟩ 1 (popen_violation _ _ (Or.inl ⟨rfl, rfl⟩))

end Verif.CmdOut
