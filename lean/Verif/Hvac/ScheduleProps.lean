import Verif.Hvac.Schedule
/-!
# Weekly schedule: every quarter of the week has its own program
-/
namespace Verif.Hvac.Schedule

/-! ### Slots -/

/-- Every quarter of an hour of the week has a slot of its own inside the table. -/
theorem slot_of_quarter (d h q : Int) (hd : 0 ≤ d ∧ d ≤ 6) (hh : 0 ≤ h ∧ h ≤ 23) (hq : 0 ≤ q ∧ q ≤ 3) :
    0 ≤ calcIndex d h q ∧ calcIndex d h q < 672 ∧
    ∀ d' h' q' : Int, 0 ≤ d' ∧ d' ≤ 6 → 0 ≤ h' ∧ h' ≤ 23 → 0 ≤ q' ∧ q' ≤ 3 →
      calcIndex d h q = calcIndex d' h' q' → d = d' ∧ h = h' ∧ q = q' := by
  have e : ∀ d h q : Int, 0 ≤ d ∧ d ≤ 6 → 0 ≤ h ∧ h ≤ 23 → 0 ≤ q ∧ q ≤ 3 →
      calcIndex d h q = (d * 24 + h) * 4 + q := by
    intro d h q a b c
    unfold calcIndex
    rw [if_neg (by omega), if_neg (by omega), if_neg (by omega)]
  rw [e d h q hd hh hq]
  refine ⟨by omega, by omega, ?_⟩
  intro d' h' q' a b c
  rw [e d' h' q' a b c]
  omega

example : calcIndex 6 23 3 = 671 := by decide

/-- The program in force in slot `i`, read directly from the bytes: low half for even slots. -/
def slotVal (s : Sched) (i : Nat) : Nat :=
  if i % 2 = 0 then s.quarters.getD (i / 2) 0 % 16 else s.quarters.getD (i / 2) 0 / 16

theorem nib_get : ∀ b, b < 256 → (b >>> (0 * 4)) &&& 0xF = b % 16 ∧ (b >>> (1 * 4)) &&& 0xF = b / 16 := by
  decide +kernel

theorem nib_set : ∀ b, b < 256 → ∀ p, p < 16 →
    ((b &&& 0x0F) ||| (p <<< 4)) = b % 16 + p * 16 ∧ ((b &&& 0xF0) ||| p) = b / 16 * 16 + p := by
  decide +kernel

theorem wf_get (s : Sched) (h : s.WF) (i : Nat) (hi : i < 672) :
    s.quarters[i / 2]? = some (s.quarters.getD (i / 2) 0) ∧ s.quarters.getD (i / 2) 0 < 256 := by
  have hl : i / 2 < s.quarters.length := by rw [h.quarts]; omega
  rw [List.getD_eq_getElem?_getD, List.getElem?_eq_getElem hl]
  dsimp only [Option.getD_some]
  exact ⟨rfl, h.bytes _ (List.getElem_mem hl)⟩

/-- Reading a slot of the week never leaves the table. -/
theorem getId_eq (s : Sched) (h : s.WF) (i : Nat) (hi : i < 672) :
    getId s i = some (slotVal s i) := by
  obtain ⟨h1, h2⟩ := wf_get s h i hi
  unfold getId
  rw [if_neg (by unfold slots; omega)]
  dsimp only
  rw [Int.toNat_natCast, h1]
  dsimp only
  unfold slotVal
  obtain ⟨n1, n2⟩ := nib_get _ h2
  by_cases p : i % 2 = 0
  · rw [if_pos p, p, n1]
  · have p1 : i % 2 = 1 := by omega
    rw [if_neg p, p1, n2]

/-- The full claim: whatever slot number is asked for, nothing outside the table is read. -/
def ReadsInBounds : Prop := ∀ (s : Sched), s.WF → ∀ i : Int, (getId s i).isSome = true

/-- Slot number 672 passes the check (`>` in line 2686) and the byte after the table is read. -/
theorem index_672_violation : ¬ ReadsInBounds := by
  intro h
  have := h Sched.zero ⟨by decide, by decide +kernel, by decide +kernel⟩ 672
  revert this
  decide +kernel

/-- For every time of the week, and while the clock is not ready, the read is in bounds: what
`getCurrentProgram` and `getCurrentProgramId` do (lines 2915-2946). -/
theorem reads_in_bounds_partial (s : Sched) (h : s.WF) (d hr q : Int) :
    (getId s (calcIndex d hr q)).isSome = true := by
  by_cases a : 0 ≤ calcIndex d hr q
  · have : calcIndex d hr q < 672 := by
      unfold calcIndex
      repeat' split
      all_goals omega
    generalize calcIndex d hr q = i at *
    have := getId_eq s h i.toNat (by omega)
    rw [Int.toNat_of_nonneg a] at this
    rw [this]; rfl
  · unfold getId
    rw [if_pos (by omega)]; rfl

/-! ### Setting a slot -/

/-- A program number may be put into the schedule: 0 (off) or one of the configured programs. -/
def Usable (s : Sched) (p : Nat) : Prop := p = 0 ∨ (1 ≤ p ∧ p ≤ 4 ∧ ∃ q, s.prog[p - 1]? = some q ∧ q.mode ≠ 0 ∧ q.mode ≤ 7)

/-- Setting a slot never leaves the tables; it is accepted exactly when the slot exists and the
program is configured; then this slot, and only this one, has the new program. -/
theorem set_slot (s : Sched) (h : s.WF) (index programId : Int) :
    ∃ s' ok, setSlot s index programId = some (s', ok) ∧ s'.WF ∧ s'.prog = s.prog ∧
      (ok = true ↔ 0 ≤ index ∧ index < 672 ∧ 0 ≤ programId ∧ Usable s programId.toNat) ∧
      (ok = false → s' = s) ∧
      (ok = true → ∀ j, j < 672 → slotVal s' j = if (j : Int) = index then programId.toNat else slotVal s j) := by
  unfold setSlot
  by_cases c1 : index < 0 ∨ index ≥ slots
  · rw [if_pos c1]
    unfold slots at c1
    refine ⟨s, false, rfl, h, rfl, ⟨fun q => absurd q (by decide), fun q => by omega⟩, fun _ => rfl, fun q => absurd q (by decide)⟩
  · rw [if_neg c1]
    unfold slots at c1
    by_cases c2 : programId < 0 ∨ programId > maxPrograms
    · rw [if_pos c2]
      unfold maxPrograms at c2
      refine ⟨s, false, rfl, h, rfl, ⟨fun q => absurd q (by decide), fun q => ?_⟩, fun _ => rfl, fun q => absurd q (by decide)⟩
      obtain ⟨_, _, q3, q4⟩ := q
      unfold Usable at q4
      omega
    · rw [if_neg c2]
      unfold maxPrograms at c2
      dsimp only
      obtain ⟨i, hi⟩ : ∃ i : Nat, index = i := ⟨index.toNat, by omega⟩
      obtain ⟨p, hp⟩ : ∃ p : Nat, programId = p := ⟨programId.toNat, by omega⟩
      subst hi hp
      rw [Int.toNat_natCast, Int.toNat_natCast]
      have hi : i < 672 := by omega
      have hp : p ≤ 4 := by omega
      have hm : ∃ m, (if p > 0 then (s.prog[p - 1]?).map Program.mode else some 1) = some m ∧
          (¬ (m = 0 ∨ m > 7) ↔ Usable s p) := by
        unfold Usable
        by_cases p0 : p > 0
        · have hl : p - 1 < s.prog.length := by rw [h.progs]; omega
          rw [if_pos p0, List.getElem?_eq_getElem hl]
          refine ⟨_, rfl, ?_⟩
          constructor
          · intro q
            exact Or.inr ⟨by omega, by omega, _, rfl, by omega, by omega⟩
          · intro q
            rcases q with q | ⟨_, _, q, e, q1, q2⟩
            · omega
            · injection e with e
              rw [e]; omega
        · rw [if_neg p0]
          exact ⟨1, rfl, ⟨fun _ => Or.inl (by omega), fun _ => by omega⟩⟩
      obtain ⟨m, em, hu⟩ := hm
      rw [em]
      dsimp only
      by_cases c3 : m = 0 ∨ m > 7
      · rw [if_pos c3]
        refine ⟨s, false, rfl, h, rfl, ⟨fun q => absurd q (by decide), fun q => ?_⟩, fun _ => rfl, fun q => absurd q (by decide)⟩
        exact absurd c3 (hu.2 q.2.2.2)
      · rw [if_neg c3]
        obtain ⟨g1, g2⟩ := wf_get s h i hi
        rw [g1]
        dsimp only
        obtain ⟨n1, n2⟩ := nib_set _ g2 p (by omega)
        rw [n1, n2]
        have hlen : i / 2 < s.quarters.length := by rw [h.quarts]; omega
        refine ⟨_, true, rfl, ?_, rfl, ?_, fun q => absurd q (by decide), fun _ => ?_⟩
        · refine ⟨h.progs, ?_, ?_⟩
          · rw [List.length_set]; exact h.quarts
          · intro b hb
            rcases List.mem_or_eq_of_mem_set hb with q | q
            · exact h.bytes b q
            · rw [q]; split <;> omega
        · refine ⟨fun _ => ⟨by omega, by omega, by omega, hu.1 c3⟩, fun _ => rfl⟩
        · intro j hj
          unfold slotVal
          dsimp only
          generalize hv : (if i % 2 = 1 then s.quarters.getD (i / 2) 0 % 16 + p * 16
            else s.quarters.getD (i / 2) 0 / 16 * 16 + p) = v
          have gd : (s.quarters.set (i / 2) v).getD (j / 2) 0 =
              if i / 2 = j / 2 then v else s.quarters.getD (j / 2) 0 := by
            rw [List.getD_eq_getElem?_getD, List.getElem?_set]
            by_cases e : i / 2 = j / 2
            · rw [if_pos e, if_pos e, if_pos hlen]; rfl
            · rw [if_neg e, if_neg e, ← List.getD_eq_getElem?_getD]
          rw [gd]
          by_cases ej : j = i
          · subst ej
            rw [if_pos rfl]
            simp only [if_true]
            rw [← hv]
            split <;> split <;> omega
          · rw [if_neg (show ¬ (j : Int) = (i : Int) by omega)]
            by_cases e : i / 2 = j / 2
            · rw [if_pos e, ← hv]
              rw [← e]
              split <;> split <;> omega
            · rw [if_neg e]

example : Usable { Sched.zero with prog := [⟨2, 2100, 0⟩, ⟨0, 0, 0⟩, ⟨0, 0, 0⟩, ⟨0, 0, 0⟩] } 1 :=
  Or.inr ⟨by decide, by decide, _, rfl, by decide, by decide⟩

/-! ### Validation -/

/-- Specification of a consistent schedule: every program is valid, every quarter of the week is off
or uses a configured program. -/
def Consistent (e : Env) (alt : Bool) (s : Sched) : Prop :=
  (∀ p ∈ s.prog, progValid e alt p = true) ∧
  ∀ j, j < 672 → slotVal s j = 0 ∨ ∃ q, s.prog[slotVal s j - 1]? = some q ∧ q.mode ≠ 0 ∧ slotVal s j ≤ 4

theorem slotsOk_iff (s : Sched) (h : s.WF) (hs : ∀ j, j < 672 → slotVal s j ≤ 4) :
    ∀ n i, i + n = 672 → ∃ b, slotsOk s (s.prog.map fun p => decide (p.mode ≠ 0)) i n = some b ∧
      (b = true ↔ ∀ j, i ≤ j → j < 672 →
        slotVal s j = 0 ∨ ∃ q, s.prog[slotVal s j - 1]? = some q ∧ q.mode ≠ 0 ∧ slotVal s j ≤ 4) := by
  intro n
  induction n with
  | zero =>
    intro i hi
    exact ⟨true, rfl, ⟨fun _ j h1 h2 => by omega, fun _ => rfl⟩⟩
  | succ n ih =>
    intro i hi
    obtain ⟨b, e, hb⟩ := ih (i + 1) (by omega)
    unfold slotsOk
    rw [getId_eq s h i (by omega)]
    dsimp only
    have ext : (slotVal s i = 0 ∨ ∃ q, s.prog[slotVal s i - 1]? = some q ∧ q.mode ≠ 0 ∧ slotVal s i ≤ 4) →
        (b = true ↔ ∀ j, i ≤ j → j < 672 →
        slotVal s j = 0 ∨ ∃ q, s.prog[slotVal s j - 1]? = some q ∧ q.mode ≠ 0 ∧ slotVal s j ≤ 4) := by
      intro hx
      constructor
      · intro q j h1 h2
        by_cases ej : j = i
        · rw [ej]; exact hx
        · exact hb.1 q j (by omega) h2
      · intro q
        exact hb.2 (fun j h1 h2 => q j (by omega) h2)
    by_cases z : slotVal s i = 0
    · rw [if_pos z, e]
      exact ⟨b, rfl, ext (Or.inl z)⟩
    · rw [if_neg z]
      have h4 := hs i (by omega)
      have hl : slotVal s i - 1 < s.prog.length := by rw [h.progs]; omega
      rw [List.getElem?_map, List.getElem?_eq_getElem hl]
      simp only [Option.map_some]
      by_cases m : (s.prog[slotVal s i - 1]).mode ≠ 0
      · rw [decide_eq_true m]
        simp only [if_true]
        rw [e]
        exact ⟨b, rfl, ext (Or.inr ⟨_, List.getElem?_eq_getElem hl, m, h4⟩)⟩
      · rw [decide_eq_false m]
        refine ⟨false, rfl, ⟨fun q => absurd q (by decide), fun q => ?_⟩⟩
        rcases q i (Nat.le_refl _) (by omega) with w | ⟨q', w1, w2, _⟩
        · exact absurd w z
        · rw [List.getElem?_eq_getElem hl] at w1
          injection w1 with w1
          rw [w1] at m
          exact absurd w2 m

/-- The full claim: for every received schedule (any 356 bytes), validation stays inside its arrays
and accepts exactly the consistent schedules. -/
def ValidationRight : Prop :=
  ∀ (e : Env) (alt : Bool) (s : Sched), s.WF →
    ∃ b, schedValid e alt s = some b ∧ (b = true ↔ Consistent e alt s)

/-- True when no quarter names a program number above 4. -/
theorem validation_partial (e : Env) (alt : Bool) (s : Sched) (h : s.WF)
    (hs : ∀ j, j < 672 → slotVal s j ≤ 4) :
    ∃ b, schedValid e alt s = some b ∧ (b = true ↔ Consistent e alt s) := by
  unfold schedValid Consistent
  by_cases a : s.prog.all (progValid e alt) = true
  · rw [if_pos a]
    obtain ⟨b, e1, e2⟩ := slotsOk_iff s h hs 672 0 rfl
    refine ⟨b, e1, ?_⟩
    rw [e2]
    rw [List.all_eq_true] at a
    exact ⟨fun q => ⟨a, fun j hj => q j (by omega) hj⟩, fun q j _ hj => q.2 j hj⟩
  · rw [if_neg a]
    refine ⟨false, rfl, ⟨fun q => absurd q (by decide), fun q => ?_⟩⟩
    exact absurd (List.all_eq_true.2 q.1) a

/-- An environment: domestic hot water, 10 to 60 degrees. -/
def exEnv : Env := ⟨false, false, fun m => decide (m = 2), 1000, 6000, 0, 0⟩

/-- A message from the server with program number 5 in the first quarter makes the device read
outside `programIsUsed[4]` (line 2666). -/
theorem validation_violation : ¬ ValidationRight := by
  intro h
  obtain ⟨b, h1, _⟩ := h exEnv false { Sched.zero with quarters := 5 :: List.replicate 335 0 }
    ⟨by decide, by decide +kernel, by decide +kernel⟩
  revert h1
  have : schedValid exEnv false { Sched.zero with quarters := 5 :: List.replicate 335 0 } = none := by
    decide +kernel
  rw [this]
  intro q; cases q

/-- A usable schedule: 50.0 degrees in the first quarter of the week. -/
def exSched : Sched := ⟨[⟨2, 5000, 0⟩, ⟨0, 0, 0⟩, ⟨0, 0, 0⟩, ⟨0, 0, 0⟩], 1 :: List.replicate 335 0⟩

example : schedValid exEnv false exSched = some true := by decide +kernel

/-! ### What is in force -/

/-- With a consistent schedule the thermostat is always given off or a configured, valid program, at
every time of the week. -/
theorem program_in_force (e : Env) (alt : Bool) (s : Sched) (h : s.WF) (hc : Consistent e alt s)
    (d hr q : Int) (hd : 0 ≤ d ∧ d ≤ 6) (hh : 0 ≤ hr ∧ hr ≤ 23) (hq : 0 ≤ q ∧ q ≤ 3) :
    ∃ p, programAt s (calcIndex d hr q) = some p ∧
      (p.mode = 1 ∨ (p.mode ≠ 0 ∧ p ∈ s.prog ∧ progValid e alt p = true)) := by
  obtain ⟨i0, i1, _⟩ := slot_of_quarter d hr q hd hh hq
  generalize calcIndex d hr q = i at *
  have g := getId_eq s h i.toNat (by omega)
  rw [Int.toNat_of_nonneg i0] at g
  unfold programAt
  rw [if_pos i0, g]
  rcases hc.2 i.toNat (by omega) with z | ⟨p, z1, z2, z3⟩
  · rw [z]
    exact ⟨_, rfl, Or.inl rfl⟩
  · generalize slotVal s i.toNat = v at *
    cases v with
    | zero => exact ⟨_, rfl, Or.inl rfl⟩
    | succ v =>
      dsimp only
      rw [if_neg (by unfold maxPrograms; omega)]
      have z1' : s.prog[v]? = some p := z1
      rw [z1']
      have hm : p ∈ s.prog := List.mem_of_getElem? z1'
      exact ⟨p, rfl, Or.inr ⟨z2, hm, hc.1 p hm⟩⟩

example : programAt exSched (calcIndex 0 0 0) = some ⟨2, 5000, 0⟩ ∧
    programAt exSched (calcIndex 0 0 1) = some ⟨1, -32768, -32768⟩ := by decide +kernel

/-- A valid heating program is within the room limits. -/
theorem valid_program_in_limits (e : Env) (alt : Bool) (p : Program) (h : progValid e alt p = true) :
    (p.mode = 2 ∨ p.mode = 4 → e.tMin ≤ p.heat ∧ p.heat ≤ e.tMax) ∧
    (p.mode = 3 ∨ p.mode = 4 → e.tMin ≤ p.cool ∧ p.cool ≤ e.tMax) ∧
    (p.mode = 4 → e.offMin ≤ p.cool - p.heat ∧ p.cool - p.heat ≤ e.offMax) ∧
    p.mode ∈ [0, 2, 3, 4] := by
  unfold progValid Env.inRoom at h
  dsimp only at h
  generalize (if e.thermostat = true then
        if p.mode = 2 then !alt && e.heatCool
        else if p.mode = 3 then alt && e.heatCool
        else false
      else e.modeOk p.mode) = ok at h
  split at h
  · rename_i z; simp [z]
  · split at h
    · cases h
    · rename_i z0 z1
      split at h
      · cases h
      · split at h
        · rename_i z2
          have := of_decide_eq_true h
          simp [z2]; omega
        · split at h
          · rename_i z2
            have := of_decide_eq_true h
            simp [z2]; omega
          · have m4 : p.mode = 4 := by omega
            rw [Bool.and_eq_true, Bool.and_eq_true] at h
            have a := of_decide_eq_true h.1.1
            have b := of_decide_eq_true h.1.2
            have c := of_decide_eq_true h.2
            simp [m4]; omega

example : progValid exEnv false ⟨2, 5000, 0⟩ = true := by decide

/-! ### Histories -/

/-- A change of the schedule: by the application, or a message from the server. -/
inductive Op where
  | slot (index programId : Int)
  | program (programId : Int) (p : Program)
  | message (s : Sched)

/-- Effect on the stored schedule. -/
def Op.apply (e : Env) (alt : Bool) (s : Sched) : Op → Option Sched
  | .slot i p => (setSlot s i p).map (·.1)
  | .program i p => (setProgram e alt s i p).map (·.1)
  | .message n => (receive e alt s n).map (·.1)

/-- A history of operations; `none` once something is undefined. -/
def runOps (e : Env) (alt : Bool) : Option Sched → List Op → Option Sched
  | o, [] => o
  | none, _ :: _ => none
  | some s, op :: ops => runOps e alt (op.apply e alt s) ops

/-- What callers have to respect: program numbers 1..4 (`setProgram` does not check), no removal of
a program that is in use, and messages of the right shape without program numbers above 4. -/
def Op.Sane (s : Sched) : Op → Prop
  | .slot _ _ => True
  | .program i p => 1 ≤ i ∧ i ≤ 4 ∧ (p.mode = 0 → ∀ j, j < 672 → slotVal s j ≠ i.toNat)
  | .message n => n.WF ∧ ∀ j, j < 672 → slotVal n j ≤ 4

/-- The full claim: whatever is called and received, no array is left and the stored schedule stays
consistent. -/
def AlwaysConsistent : Prop :=
  ∀ (e : Env) (alt : Bool) (s : Sched) (op : Op), s.WF → Consistent e alt s →
    (∀ n, op = .message n → n.WF) →
    ∃ s', op.apply e alt s = some s' ∧ s'.WF ∧ Consistent e alt s'

/-- Each sane operation keeps the stored schedule well formed and consistent. -/
theorem step_consistent (e : Env) (alt : Bool) (s : Sched) (h : s.WF) (hc : Consistent e alt s)
    (op : Op) (hs : op.Sane s) : ∃ s', op.apply e alt s = some s' ∧ s'.WF ∧ Consistent e alt s' := by
  cases op with
  | slot i p =>
    obtain ⟨s', ok, e1, w, pr, ho, hf, ht⟩ := set_slot s h i p
    refine ⟨s', by show (setSlot s i p).map _ = _; rw [e1]; rfl, w, ?_⟩
    cases ok with
    | false => rw [hf rfl]; exact hc
    | true =>
      unfold Consistent
      rw [pr]
      refine ⟨hc.1, fun j hj => ?_⟩
      rw [ht rfl j hj]
      by_cases ej : (j : Int) = i
      · rw [if_pos ej]
        rcases (ho.1 rfl).2.2.2 with z | ⟨z1, z2, q, z3, z4, z5⟩
        · exact Or.inl z
        · exact Or.inr ⟨q, z3, z4, z2⟩
      · rw [if_neg ej]; exact hc.2 j hj
  | program i p =>
    obtain ⟨a1, a2, a3⟩ := hs
    show ∃ s', (setProgram e alt s i p).map _ = _ ∧ _
    unfold setProgram
    by_cases v : (!progValid e alt p) = true
    · rw [if_pos v]; exact ⟨s, rfl, h, hc⟩
    · rw [if_neg v, if_neg (by unfold maxPrograms; omega)]
      have vp : progValid e alt p = true := by simpa using v
      have hl : i.toNat - 1 < s.prog.length := by rw [h.progs]; omega
      refine ⟨_, rfl, ⟨by rw [List.length_set]; exact h.progs, h.quarts, h.bytes⟩, ?_, ?_⟩
      · intro q hq
        rcases List.mem_or_eq_of_mem_set hq with w | w
        · exact hc.1 q w
        · rw [w]; exact vp
      · intro j hj
        show slotVal s j = 0 ∨ ∃ q, (s.prog.set (i.toNat - 1) p)[slotVal s j - 1]? = some q ∧ q.mode ≠ 0 ∧ slotVal s j ≤ 4
        rcases hc.2 j hj with z | ⟨q, z1, z2, z3⟩
        · exact Or.inl z
        · by_cases z0 : slotVal s j = 0
          · exact Or.inl z0
          · right
            rw [List.getElem?_set]
            by_cases ei : i.toNat - 1 = slotVal s j - 1
            · rw [if_pos ei, if_pos hl]
              refine ⟨p, rfl, fun m => ?_, z3⟩
              exact a3 m j hj (by omega)
            · rw [if_neg ei]
              exact ⟨q, z1, z2, z3⟩
  | message n =>
    obtain ⟨w, hn⟩ := hs
    obtain ⟨b, e1, e2⟩ := validation_partial e alt n w hn
    show ∃ s', (receive e alt s n).map _ = _ ∧ _
    unfold receive
    rw [e1]
    cases b with
    | false => exact ⟨s, rfl, h, hc⟩
    | true => exact ⟨n, rfl, w, e2.1 rfl⟩

/-- Every operation of a history is sane in the state it meets. -/
def SaneRun (e : Env) (alt : Bool) (s : Sched) : List Op → Prop
  | [] => True
  | op :: ops => op.Sane s ∧ ∀ s', op.apply e alt s = some s' → SaneRun e alt s' ops

/-- For every history of sane changes, starting from the cleared schedule, no array is left and at
every time of the week the thermostat is given off or a configured, valid program. -/
theorem always_consistent_partial (e : Env) (alt : Bool) (ops : List Op)
    (hs : SaneRun e alt Sched.zero ops) :
    ∃ s, runOps e alt (some Sched.zero) ops = some s ∧ s.WF ∧ Consistent e alt s := by
  have key : ∀ (ops : List Op) (s : Sched), s.WF → Consistent e alt s → SaneRun e alt s ops →
      ∃ s', runOps e alt (some s) ops = some s' ∧ s'.WF ∧ Consistent e alt s' := by
    intro ops
    induction ops with
    | nil => intro s h hc _; exact ⟨s, rfl, h, hc⟩
    | cons op ops ih =>
      intro s h hc hs
      obtain ⟨s', e1, w, c⟩ := step_consistent e alt s h hc op hs.1
      show ∃ s'', runOps e alt (op.apply e alt s) ops = _ ∧ _
      rw [e1]
      exact ih s' w c (hs.2 s' e1)
  refine key ops _ ⟨by decide, by decide +kernel, by decide +kernel⟩ ⟨?_, ?_⟩ hs
  · intro p hp
    have := List.eq_of_mem_replicate hp
    rw [this]
    rfl
  · intro j hj
    left
    have : ∀ k, (List.replicate 336 0).getD k 0 = 0 := by
      intro k
      rw [List.getD_eq_getElem?_getD, List.getElem?_replicate]
      split <;> rfl
    unfold slotVal Sched.zero
    dsimp only
    rw [this]
    split <;> rfl

example : (runOps exEnv false (some Sched.zero) [.program 1 ⟨2, 5000, 0⟩, .slot 0 1, .slot 1 9, .slot 671 2]) = some exSched := by
  decide +kernel

/-- `setProgram` with a number outside 1..4 writes outside the array (line 2969). -/
theorem set_program_bounds_violation : ¬ AlwaysConsistent := by
  intro h
  obtain ⟨s', e1, _⟩ := h exEnv false exSched (.program 5 ⟨2, 5000, 0⟩)
    ⟨by decide, by decide +kernel, by decide +kernel⟩ ⟨by decide, by
      have : ∀ j, j < 672 → slotVal exSched j = 0 ∨ slotVal exSched j = 1 := by decide +kernel
      intro j hj
      rcases this j hj with z | z
      · exact Or.inl z
      · exact Or.inr ⟨⟨2, 5000, 0⟩, by rw [z]; rfl, by decide, by omega⟩⟩ (by intro n hn; cases hn)
  revert e1
  have : Op.apply exEnv false exSched (.program 5 ⟨2, 5000, 0⟩) = none := by decide +kernel
  rw [this]
  intro q; cases q

/-- A program in use can be removed (mode "not set" is valid, line 2710): the stored schedule is then
refused at the next start (lines 277-282), and in that quarter the thermostat gets no mode, which
switches the schedule off (lines 3633-3638). -/
theorem remove_used_program_violation :
    ∃ s', Op.apply exEnv false exSched (.program 1 ⟨0, 0, 0⟩) = some s' ∧
      schedValid exEnv false s' = some false ∧ programAt s' (calcIndex 0 0 0) = some ⟨0, 0, 0⟩ :=
  ⟨⟨[⟨0, 0, 0⟩, ⟨0, 0, 0⟩, ⟨0, 0, 0⟩, ⟨0, 0, 0⟩], 1 :: List.replicate 335 0⟩, by decide +kernel, by decide +kernel, by decide +kernel⟩

end Verif.Hvac.Schedule
