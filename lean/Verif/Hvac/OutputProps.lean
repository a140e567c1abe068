import Verif.Hvac.Output
/-!
# Thermostat outputs: exclusivity, minimum times, truthful reports
-/
namespace Verif.Hvac
open Verif

/-! ### Heating and cooling are never on together -/

/-- Anything that can happen to the outputs: a call of `setOutput` or the reset done on a change of
function or subfunction, each with the configuration in force at that moment (the function, the
subfunction and the minimum times may change at any time). -/
inductive Op
  | call (k : Kind) (minOn minOff : Nat) (c : Call)
  | reset (k : Kind) (minOn minOff : Nat) (now : Nat)

/-- One operation. -/
def Op.apply (h : Hw) (o : Out) : Op → Out
  | .call k a b c => setOutput h k a b c.now c.v c.force o
  | .reset k a b now => Hvac.reset h k a b now o

/-- At most one output is on, and an output that does not exist is never on. -/
def Excl (h : Hw) (o : Out) : Prop := (o.pri = 0 ∨ o.sec = 0) ∧ (h.hasSec = false → o.sec = 0)

theorem write_excl (h : Hw) (k : Kind) (v : Int) (o : Out) (he : Excl h o) :
    Excl h (write h k v o) := by
  unfold Excl at *
  unfold write
  cases k <;> cases hs : h.hasSec <;> simp [hs] at he ⊢
  all_goals (repeat' split)
  all_goals simp_all

theorem setOutput_excl (h : Hw) (k : Kind) (a b now : Nat) (v : Int) (f : Bool) (o : Out)
    (he : Excl h o) : Excl h (setOutput h k a b now v f o) := by
  unfold setOutput
  by_cases h1 : (!h.hasPri) = true
  · rw [if_pos h1]; exact he
  · rw [if_neg h1]
    by_cases h2 : o.last = v
    · rw [if_pos h2]; exact he
    · rw [if_neg h2]
      cases choose a b now o v f with
      | none => exact he
      | some p => exact write_excl h k _ _ he

/-- Whatever happens, in whatever order, under whatever configuration: the two outputs are never on
at the same time. -/
theorem never_both_on (h : Hw) (ops : List Op) :
    let o := ops.foldl (Op.apply h) Out.init
    ¬ (o.pri ≠ 0 ∧ o.sec ≠ 0) := by
  have key : ∀ (ops : List Op) (o : Out), Excl h o → Excl h (ops.foldl (Op.apply h) o) := by
    intro ops
    induction ops with
    | nil => intro o he; exact he
    | cons op ops ih =>
      intro o he
      refine ih _ ?_
      cases op with
      | call k a b c => exact setOutput_excl h k a b _ _ _ o he
      | reset k a b now => exact setOutput_excl h k a b now 0 true _ he
  have hI : Excl h Out.init := ⟨Or.inl rfl, fun _ => rfl⟩
  have := (key ops Out.init hI).1
  intro o hb
  rcases this with h1 | h1
  · exact hb.1 h1
  · exact hb.2 h1

example :
    let h : Hw := ⟨true, true, true, true⟩
    let o := [Op.call .both 60 60 ⟨100000, 100, false⟩, Op.call .both 60 60 ⟨170000, -100, false⟩,
      Op.call .both 60 60 ⟨240000, -100, false⟩].foldl (Op.apply h) Out.init
    o.pri = 0 ∧ o.sec = -1 := by decide +kernel

/-! ### The outputs follow the last accepted value -/

/-- The state is one the thermostat can be in: nothing was ever set, or the outputs show the last
accepted value. -/
def Shown (h : Hw) (k : Kind) (o : Out) : Prop :=
  (h.hasSec = false → o.sec = 0) ∧
  ((o.last = -111 ∧ o.pri = 0 ∧ o.sec = 0) ∨
   (InRange o.last ∧
    (heatingOn k o = true ↔ o.last > 0 ∧ k ≠ .cool) ∧
    (coolingOn h k o = true ↔ o.last < 0 ∧ k ≠ .heat) ∧
    ((k = .heat → o.sec = 0) ∧ (k = .cool → h.hasSec = true → o.pri = 0))))

theorem shown_init (h : Hw) (k : Kind) : Shown h k Out.init := ⟨fun _ => rfl, Or.inl ⟨rfl, rfl, rfl⟩⟩

theorem write_shown (h : Hw) (k : Kind) (hw : Wired h k) (v : Int) (hv : InRange v) (o : Out)
    (hs : h.hasSec = false → o.sec = 0) (st : Nat) :
    Shown h k (write h k v { o with last := v, stamp := st }) := by
  obtain ⟨w1, w2, w3⟩ := hw
  unfold InRange at hv
  unfold Shown InRange write heatingOn coolingOn
  cases k <;> cases hq : h.hasSec <;> cases hp : h.priOnOff <;> cases hz : h.secOnOff <;>
    simp_all
  all_goals (repeat' split)
  all_goals simp_all
  all_goals omega

theorem choose_range (a b now : Nat) (o : Out) (v : Int) (hv : InRange v) (f : Bool) (v' : Int)
    (c : Bool) (h : choose a b now o v f = some (v', c)) : InRange v' := by
  unfold choose at h
  dsimp only at h
  have h0 : InRange 0 := ⟨by decide, by decide⟩
  repeat' split at h
  all_goals first
    | (cases h; exact hv)
    | (cases h; exact h0)
    | cases h

theorem setOutput_shown (h : Hw) (k : Kind) (hw : Wired h k) (a b now : Nat) (v : Int)
    (hv : InRange v) (f : Bool) (o : Out) (hs : Shown h k o) :
    Shown h k (setOutput h k a b now v f o) := by
  unfold setOutput
  by_cases h1 : (!h.hasPri) = true
  · rw [if_pos h1]; exact hs
  · rw [if_neg h1]
    by_cases h2 : o.last = v
    · rw [if_pos h2]; exact hs
    · rw [if_neg h2]
      cases hc : choose a b now o v f with
      | none =>
        obtain ⟨hs1, hs2⟩ := hs
        refine ⟨hs1, ?_⟩
        rcases hs2 with ⟨x1, x2, x3⟩ | ⟨x1, x2, x3, x4⟩
        · right
          simp only [x1]
          unfold heatingOn coolingOn
          refine ⟨⟨by decide, by decide⟩, ?_, ?_, ?_⟩
          · cases k <;> simp [x2]
          · cases k <;> cases h.hasSec <;> simp [x2, x3]
          · exact ⟨fun _ => x3, fun _ _ => x2⟩
        · right
          have : ¬ o.last < -100 := by have := x1.1; omega
          rw [if_neg this]
          exact ⟨x1, x2, x3, x4⟩
      | some p =>
        obtain ⟨v', c⟩ := p
        exact write_shown h k hw v' (choose_range a b now o v hv f v' c hc) o hs.1 _

theorem run_shown (h : Hw) (k : Kind) (hw : Wired h k) (a b : Nat) (cs : List Call)
    (hv : ∀ c ∈ cs, InRange c.v) (o : Out) (hs : Shown h k o) : Shown h k (run h k a b o cs) := by
  induction cs generalizing o with
  | nil => exact hs
  | cons c cs ih =>
    exact ih (fun c' hc' => hv c' (List.mem_cons_of_mem _ hc')) _
      (setOutput_shown h k hw a b _ _ (hv c (List.mem_cons_self ..)) _ _ hs)

/-- A heating-only thermostat never switches a cooling output on and never drives its heater for a
value that asks for cooling or for nothing; a cooling-only one never heats.  For every history. -/
theorem function_respected (h : Hw) (k : Kind) (hw : Wired h k) (a b : Nat) (cs : List Call)
    (hv : ∀ c ∈ cs, InRange c.v) :
    let o := run h k a b Out.init cs
    (k = .heat → o.sec = 0 ∧ (o.pri ≠ 0 → o.last > 0)) ∧
    (k = .cool → (h.hasSec = true → o.pri = 0 ∧ (o.sec ≠ 0 → o.last < 0)) ∧
      (h.hasSec = false → o.pri ≠ 0 → o.last < 0)) := by
  obtain ⟨hs1, hs2⟩ := run_shown h k hw a b cs hv Out.init (shown_init h k)
  intro o
  rcases hs2 with ⟨_, x2, x3⟩ | ⟨_, x2, x3, x4⟩
  · refine ⟨fun _ => ⟨x3, fun hn => absurd x2 hn⟩, fun _ => ⟨fun _ => ⟨x2, fun hn => absurd x3 hn⟩, fun _ hn => absurd x2 hn⟩⟩
  · refine ⟨fun hk => ⟨x4.1 hk, fun hn => ?_⟩, fun hk => ⟨fun hh => ⟨x4.2 hk hh, fun hn => ?_⟩, fun hh hn => ?_⟩⟩
    · subst hk
      exact (x2.1 (by unfold heatingOn; simpa using hn)).1
    · subst hk
      exact (x3.1 (by unfold coolingOn; simp [hh]; exact hn)).1
    · subst hk
      exact (x3.1 (by unfold coolingOn; simp [hh]; exact hn)).1

example : Wired ⟨true, false, true, true⟩ .heat := ⟨rfl, by decide, by decide⟩
example : (run ⟨true, false, true, true⟩ .heat 0 0 Out.init [⟨1000, 100, false⟩]).pri = 1 ∧
    (run ⟨true, false, true, true⟩ .heat 0 0 Out.init [⟨1000, -100, false⟩]).pri = 0 := by
  decide +kernel

/-! ### Never straight from heating to cooling -/

theorem choose_sign (a b now : Nat) (o : Out) (v : Int) (f : Bool) (v' : Int) (c : Bool)
    (h : choose a b now o v f = some (v', c)) :
    (o.last > 0 → v' ≥ 0) ∧ (-100 ≤ o.last → o.last < 0 → v' ≤ 0) := by
  unfold choose at h
  dsimp only at h
  repeat' split at h
  all_goals first
    | cases h
    | skip
  all_goals omega

/-- One call never turns a thermostat that is heating into one that is cooling, or the other way
round: not even the forced call made when a sensor fails.  There is always a call with both outputs
off in between. -/
theorem always_off_between (h : Hw) (k : Kind) (hw : Wired h k) (a b : Nat) (cs : List Call)
    (hv : ∀ c ∈ cs, InRange c.v) (c : Call) (hc : InRange c.v) :
    let o := run h k a b Out.init cs
    let o' := setOutput h k a b c.now c.v c.force o
    ¬ (heatingOn k o = true ∧ coolingOn h k o' = true) ∧
    ¬ (coolingOn h k o = true ∧ heatingOn k o' = true) := by
  intro o o'
  have hs : Shown h k o := run_shown h k hw a b cs hv Out.init (shown_init h k)
  have hs' : Shown h k o' := setOutput_shown h k hw a b _ _ hc _ o hs
  have sign : o'.last = o.last ∨ (∃ v' cc, choose a b c.now o c.v c.force = some (v', cc) ∧ o'.last = v') ∨
      (o.last < -100) := by
    show (setOutput h k a b c.now c.v c.force o).last = o.last ∨ _
    unfold setOutput
    by_cases h1 : (!h.hasPri) = true
    · rw [if_pos h1]; exact Or.inl rfl
    · rw [if_neg h1]
      by_cases h2 : o.last = c.v
      · rw [if_pos h2]; exact Or.inl rfl
      · rw [if_neg h2]
        cases hcc : choose a b c.now o c.v c.force with
        | none =>
          by_cases h3 : o.last < -100
          · exact Or.inr (Or.inr h3)
          · left; simp [h3]
        | some p =>
          right; left
          refine ⟨p.1, p.2, rfl, ?_⟩
          show (setOutput h k a b c.now c.v c.force o).last = p.1
          unfold setOutput
          rw [if_neg h1, if_neg h2, hcc]
          unfold write
          cases k <;> simp <;> (repeat' split) <;> simp
  have ex : ∀ x y : Int, (x > 0 → y ≥ 0) → ¬ (x > 0 ∧ y < 0) := by omega
  rcases hs.2 with ⟨x1, x2, x3⟩ | ⟨x1, x2, x3, _⟩
  · constructor
    · rintro ⟨q, _⟩
      unfold heatingOn at q
      cases k <;> simp [x2] at q
    · rintro ⟨q, _⟩
      unfold coolingOn at q
      cases k <;> cases h.hasSec <;> simp [x2, x3] at q
  · rcases hs'.2 with ⟨y1, y2, y3⟩ | ⟨y1, y2, y3, _⟩
    · constructor
      · rintro ⟨_, q⟩
        unfold coolingOn at q
        cases k <;> cases h.hasSec <;> simp [y2, y3] at q
      · rintro ⟨_, q⟩
        unfold heatingOn at q
        cases k <;> simp [y2] at q
    · have r := x1.1
      constructor
      · rintro ⟨p, q⟩
        have p1 := (x2.1 p).1
        have q1 := (y3.1 q).1
        rcases sign with s | ⟨v', cc, s1, s2⟩ | s
        · omega
        · have := (choose_sign a b c.now o c.v c.force v' cc s1).1 p1
          omega
        · omega
      · rintro ⟨p, q⟩
        have p1 := (x3.1 p).1
        have q1 := (y2.1 q).1
        rcases sign with s | ⟨v', cc, s1, s2⟩ | s
        · omega
        · have := (choose_sign a b c.now o c.v c.force v' cc s1).2 r p1
          omega
        · omega


/-! ### Minimum on and off times -/

/-- Some output is on. -/
def active (h : Hw) (k : Kind) (o : Out) : Bool := heatingOn k o || coolingOn h k o

/-- The (true) time of the latest call that switched the thermostat on or off; `T` if none did. -/
def lastSwitch (h : Hw) (k : Kind) (a b : Nat) (o : Out) (T : Nat) : List Call → Nat
  | [] => T
  | c :: cs =>
    lastSwitch h k a b (setOutput h k a b c.now c.v c.force o)
      (if active h k (setOutput h k a b c.now c.v c.force o) = active h k o then T else c.now) cs

/-- The calls are made in the order of time, none before `t`. -/
def Timed (t : Nat) : List Call → Prop
  | [] => True
  | c :: cs => t ≤ c.now ∧ Timed c.now cs

/-- Time of the latest call. -/
def endTime (t : Nat) : List Call → Nat
  | [] => t
  | c :: cs => endTime c.now cs

theorem active_shown (h : Hw) (k : Kind) (o : Out) (hs : Shown h k o) :
    active h k o = true ↔ (o.last > 0 ∧ k ≠ .cool) ∨ (-100 ≤ o.last ∧ o.last < 0 ∧ k ≠ .heat) := by
  unfold active
  rw [Bool.or_eq_true]
  rcases hs.2 with ⟨x1, x2, x3⟩ | ⟨x1, x2, x3, _⟩
  · constructor
    · intro hq
      exfalso
      unfold heatingOn coolingOn at hq
      cases k <;> cases h.hasSec <;> simp [x2, x3] at hq
    · rw [x1]
      intro hq
      omega
  · rw [x2, x3]
    have := x1.1
    constructor
    · rintro (q | q)
      · exact Or.inl q
      · exact Or.inr ⟨this, q⟩
    · rintro (q | q)
      · exact Or.inl q
      · exact Or.inr q.2

/-- What one call does to `lastValue` and the time stamp. -/
theorem setOutput_eff (h : Hw) (k : Kind) (hw : Wired h k) (a b now : Nat) (v : Int) (f : Bool)
    (o : Out) :
    let o' := setOutput h k a b now v f o
    (o'.last = o.last ∧ o'.stamp = o.stamp) ∨
    (o.last < -100 ∧ o'.last = 0 ∧ o'.stamp = o.stamp) ∨
    (o.last > 0 ∧ o'.last > 0 ∧ o'.stamp = o.stamp) ∨
    (o.last < 0 ∧ o'.last < 0 ∧ -100 ≤ o.last ∧ o'.stamp = o.stamp ∧ o'.last = v) ∨
    (o.last > 0 ∧ v ≤ 0 ∧ o'.last = 0 ∧ o'.stamp = clk now ∧
      (f = false → a * 1000 ≤ since (clk now) o.stamp)) ∨
    (-100 ≤ o.last ∧ o.last < 0 ∧ v ≥ 0 ∧ o'.last = 0 ∧ o'.stamp = clk now ∧
      (f = false → a * 1000 ≤ since (clk now) o.stamp)) ∨
    ((o.last = 0 ∨ o.last < -100) ∧ v ≠ 0 ∧ o'.last = v ∧ o'.stamp = clk now ∧
      (f = false → b * 1000 ≤ since (clk now) o.stamp)) := by
  have wl : ∀ (v : Int) (o : Out), (write h k v o).last = o.last ∧ (write h k v o).stamp = o.stamp := by
    intro v o
    unfold write
    cases k <;> simp <;> (repeat' split) <;> simp
  intro o'
  have e : o' = setOutput h k a b now v f o := rfl
  unfold setOutput at e
  rw [if_neg (by simp [hw.1])] at e
  by_cases h2 : o.last = v
  · rw [if_pos h2] at e
    left; rw [e]; exact ⟨rfl, rfl⟩
  · rw [if_neg h2] at e
    unfold choose at e
    rw [if_neg h2] at e
    dsimp only at e
    generalize since (clk now) o.stamp = el at *
    have bf : ∀ n : Nat, ¬ ((!f && decide (el < n)) = true) → (f = false → n ≤ el) := by
      intro n hn hf
      rw [hf] at hn
      simp at hn
      exact hn
    have wr : ∀ (v' : Int) (c : Bool), o' = write h k v' { o with last := v', stamp := if c then clk now else o.stamp } →
        o'.last = v' ∧ o'.stamp = if c then clk now else o.stamp := by
      intro v' c hq
      rw [hq]
      exact wl _ _
    by_cases l1 : o.last < -100
    · rw [if_pos l1] at e
      rw [if_neg (by omega)] at e
      by_cases v0 : v = 0
      · rw [if_neg (by omega), if_neg (by omega)] at e
        have w := wr v false e
        right; left
        exact ⟨l1, by rw [w.1, v0], w.2⟩
      · rw [if_pos ⟨rfl, v0⟩] at e
        by_cases t1 : (!f && decide (el < b * 1000)) = true
        · rw [if_pos t1] at e
          right; left
          rw [e]; exact ⟨l1, rfl, rfl⟩
        · rw [if_neg t1] at e
          have w := wr v true e
          iterate 6 right
          exact ⟨Or.inr l1, v0, w.1, w.2, bf _ t1⟩
    · rw [if_neg l1] at e
      by_cases c1 : o.last > 0 ∧ v ≤ 0
      · rw [if_pos c1] at e
        by_cases t1 : (!f && decide (el < a * 1000)) = true
        · rw [if_pos t1] at e
          left; rw [e]; exact ⟨rfl, rfl⟩
        · rw [if_neg t1] at e
          have w := wr 0 true e
          iterate 4 right
          left
          exact ⟨c1.1, c1.2, w.1, w.2, bf _ t1⟩
      · rw [if_neg c1] at e
        by_cases c2 : o.last = 0 ∧ v ≠ 0
        · rw [if_pos c2] at e
          by_cases t1 : (!f && decide (el < b * 1000)) = true
          · rw [if_pos t1] at e
            left; rw [e]; exact ⟨rfl, rfl⟩
          · rw [if_neg t1] at e
            have w := wr v true e
            iterate 6 right
            exact ⟨Or.inl c2.1, c2.2, w.1, w.2, bf _ t1⟩
        · rw [if_neg c2] at e
          by_cases c3 : o.last < 0 ∧ v ≥ 0
          · rw [if_pos c3] at e
            by_cases t1 : (!f && decide (el < a * 1000)) = true
            · rw [if_pos t1] at e
              left; rw [e]; exact ⟨rfl, rfl⟩
            · rw [if_neg t1] at e
              have w := wr 0 true e
              iterate 5 right
              left
              exact ⟨by omega, c3.1, c3.2, w.1, w.2, bf _ t1⟩
          · rw [if_neg c3] at e
            have w := wr v false e
            have w1 := w.1
            have w2 : o'.stamp = o.stamp := w.2
            by_cases p : o.last > 0
            · right; right; left
              exact ⟨p, by omega, w2⟩
            · right; right; right; left
              exact ⟨by omega, by omega, by omega, w2, w1⟩

/-- The time stamp is the clock reading of a moment not before the latest switch. -/
theorem stamp_inv (h : Hw) (k : Kind) (hw : Wired h k) (a b : Nat) (cs : List Call)
    (hv : ∀ c ∈ cs, InRange c.v) (o : Out) (hs : Shown h k o) (T t : Nat) (ht : Timed t cs)
    (hS : ∃ S, o.stamp = clk S ∧ T ≤ S ∧ S ≤ t) :
    ∃ S, (run h k a b o cs).stamp = clk S ∧ lastSwitch h k a b o T cs ≤ S ∧ S ≤ endTime t cs := by
  induction cs generalizing o T t with
  | nil => exact hS
  | cons c cs ih =>
    have hcv := hv c (List.mem_cons_self ..)
    have hs' := setOutput_shown h k hw a b c.now c.v hcv c.force o hs
    refine ih (fun c' hc' => hv c' (List.mem_cons_of_mem _ hc')) _ hs' _ c.now ht.2 ?_
    obtain ⟨S, e1, e2, e3⟩ := hS
    have hle := ht.1
    have eff := setOutput_eff h k hw a b c.now c.v c.force o
    have A := active_shown h k o hs
    have A' := active_shown h k _ hs'
    dsimp only at eff
    generalize setOutput h k a b c.now c.v c.force o = o' at *
    have same : (active h k o' = true ↔ active h k o = true) → active h k o' = active h k o := by
      intro hq
      cases h1 : active h k o' <;> cases h2 : active h k o <;> simp_all
    have fresh : o'.stamp = clk c.now → ∃ S, o'.stamp = clk S ∧
        (if active h k o' = active h k o then T else c.now) ≤ S ∧ S ≤ c.now := by
      intro hq
      refine ⟨c.now, hq, ?_, Nat.le_refl _⟩
      split <;> omega
    have keep : o'.stamp = o.stamp → active h k o' = active h k o → ∃ S, o'.stamp = clk S ∧
        (if active h k o' = active h k o then T else c.now) ≤ S ∧ S ≤ c.now := by
      intro hq hr
      refine ⟨S, by rw [hq, e1], ?_, by omega⟩
      rw [if_pos hr]; exact e2
    rcases eff with ⟨q1, q2⟩ | ⟨q1, q2, q3⟩ | ⟨q1, q2, q3⟩ | ⟨q1, q2, q3, q4, q5⟩ | ⟨_, _, _, q, _⟩ |
      ⟨_, _, _, _, q, _⟩ | ⟨_, _, _, q, _⟩
    · refine keep q2 (same ?_)
      rw [A, A', q1]
    · refine keep q3 (same ?_)
      rw [A, A']
      constructor <;> intro hq <;> exfalso <;> omega
    · refine keep q3 (same ?_)
      rw [A, A']
      constructor
      · rintro (hq | hq)
        · exact Or.inl ⟨q1, hq.2⟩
        · exfalso; omega
      · rintro (hq | hq)
        · exact Or.inl ⟨q2, hq.2⟩
        · exfalso; omega
    · have r : -100 ≤ o'.last := by rw [q5]; exact hcv.1
      refine keep q4 (same ?_)
      rw [A, A']
      constructor
      · rintro (hq | hq)
        · exfalso; omega
        · exact Or.inr ⟨q3, q1, hq.2.2⟩
      · rintro (hq | hq)
        · exfalso; omega
        · exact Or.inr ⟨r, q2, hq.2.2⟩
    · exact fresh q
    · exact fresh q
    · exact fresh q


/-- Minimum times.  In every history of calls (in the order of time), a call that is not forced
switches the thermostat off only when it has been on for at least the minimum on time, and on only
when it has been off for at least the minimum off time: the latest switch lies at least that many
milliseconds back. -/
theorem minimum_times (h : Hw) (k : Kind) (hw : Wired h k) (minOn minOff : Nat) (cs : List Call)
    (hv : ∀ c ∈ cs, InRange c.v) (ht : Timed 0 cs) (c : Call) (hc : InRange c.v)
    (hn : endTime 0 cs ≤ c.now) (hf : c.force = false) :
    let o := run h k minOn minOff Out.init cs
    let o' := setOutput h k minOn minOff c.now c.v c.force o
    let T := lastSwitch h k minOn minOff Out.init 0 cs
    (active h k o = true → active h k o' = false → minOn * 1000 ≤ c.now - T) ∧
    (active h k o = false → active h k o' = true → minOff * 1000 ≤ c.now - T) := by
  intro o o' T
  have hs : Shown h k o := run_shown h k hw minOn minOff cs hv Out.init (shown_init h k)
  have hs' : Shown h k o' := setOutput_shown h k hw minOn minOff _ _ hc _ o hs
  obtain ⟨S, e1, e2, e3⟩ := stamp_inv h k hw minOn minOff cs hv Out.init (shown_init h k) 0 0 ht
    ⟨0, rfl, Nat.le_refl _, Nat.le_refl _⟩
  have e1' : o.stamp = clk S := e1
  have e2' : T ≤ S := e2
  have hle := since_clk_le c.now S (by omega)
  have eff := setOutput_eff h k hw minOn minOff c.now c.v c.force o
  have A := active_shown h k o hs
  have A' := active_shown h k _ hs'
  dsimp only at eff
  have eo : setOutput h k minOn minOff c.now c.v c.force o = o' := rfl
  rw [eo, hf, e1'] at eff
  constructor
  · intro a1 a2
    have a2' : ¬ active h k o' = true := by rw [a2]; decide
    rw [A'] at a2'
    rw [A] at a1
    rcases eff with ⟨q1, _⟩ | ⟨q1, _⟩ | ⟨q1, q2, _⟩ | ⟨q1, q2, q3, _, q5⟩ | ⟨_, _, _, _, q⟩ |
      ⟨_, _, _, _, _, q⟩ | ⟨q1, _⟩
    · rw [q1] at a2'; exact absurd a1 a2'
    · exfalso; omega
    · exfalso
      rcases a1 with ⟨_, z⟩ | ⟨_, z, _⟩
      · exact a2' (Or.inl ⟨q2, z⟩)
      · omega
    · exfalso
      rcases a1 with ⟨z, _⟩ | ⟨_, _, z⟩
      · omega
      · exact a2' (Or.inr ⟨by rw [q5]; exact hc.1, q2, z⟩)
    · have := q rfl; omega
    · have := q rfl; omega
    · exfalso; omega
  · intro a1 a2
    have a1' : ¬ active h k o = true := by rw [a1]; decide
    rw [A] at a1'
    rw [A'] at a2
    rcases eff with ⟨q1, _⟩ | ⟨q1, q2, _⟩ | ⟨q1, q2, _⟩ | ⟨q1, q2, q3, _, q5⟩ | ⟨_, _, q2, _⟩ |
      ⟨_, _, _, q2, _⟩ | ⟨_, _, _, _, q⟩
    · rw [q1] at a2; exact absurd a2 a1'
    · exfalso; omega
    · exfalso
      rcases a2 with ⟨_, z⟩ | ⟨_, z, _⟩
      · exact a1' (Or.inl ⟨q1, z⟩)
      · omega
    · exfalso
      rcases a2 with ⟨z, _⟩ | ⟨_, _, z⟩
      · omega
      · exact a1' (Or.inr ⟨q3, q1, z⟩)
    · exfalso; omega
    · exfalso; omega
    · have := q rfl; omega

/-- A history that meets the hypotheses and switches on, refuses to switch off too early, and then
switches off. -/
example :
    let h : Hw := ⟨true, false, true, true⟩
    let cs : List Call := [⟨100000, 100, false⟩, ⟨110000, 0, false⟩]
    Timed 0 cs ∧ active h .heat (run h .heat 60 60 Out.init cs) = true ∧
      lastSwitch h .heat 60 60 Out.init 0 cs = 100000 ∧
      active h .heat (setOutput h .heat 60 60 160000 0 false (run h .heat 60 60 Out.init cs)) = false := by
  refine ⟨⟨by decide, by decide, trivial⟩, ?_⟩
  decide +kernel

/-- A request to switch off is obeyed once the minimum on time is over (and always when forced),
unless more than 2^32 ms passed since the latest change, when the difference of the 32-bit clock
readings may look small again. -/
theorem off_obeyed (h : Hw) (k : Kind) (hw : Wired h k) (minOn minOff : Nat) (cs : List Call)
    (hv : ∀ c ∈ cs, InRange c.v) (now S : Nat) (f : Bool) (hS : S ≤ now)
    (hst : (run h k minOn minOff Out.init cs).stamp = clk S)
    (ht : f = true ∨ (minOn * 1000 ≤ now - S ∧ now - S < 2 ^ 32)) :
    active h k (setOutput h k minOn minOff now 0 f (run h k minOn minOff Out.init cs)) = false := by
  have hs := run_shown h k hw minOn minOff cs hv Out.init (shown_init h k)
  generalize run h k minOn minOff Out.init cs = o at *
  have hs' : Shown h k (setOutput h k minOn minOff now 0 f o) :=
    setOutput_shown h k hw minOn minOff _ _ ⟨by decide, by decide⟩ _ o hs
  have A' := active_shown h k _ hs'
  have z : (setOutput h k minOn minOff now 0 f o).last = 0 := by
    have wl : ∀ (v : Int) (o : Out), (write h k v o).last = o.last := by
      intro v o
      unfold write
      cases k <;> simp <;> (repeat' split) <;> simp
    unfold setOutput
    rw [if_neg (by simp [hw.1])]
    by_cases h2 : o.last = 0
    · rw [if_pos h2]; exact h2
    · rw [if_neg h2]
      have nb : ¬ ((!f && decide (since (clk now) o.stamp < minOn * 1000)) = true) := by
        rcases ht with hf | ⟨t1, t2⟩
        · rw [hf]; simp
        · rw [hst, since_clk_eq now S hS t2]
          simp
          omega
      unfold choose
      rw [if_neg h2]
      dsimp only
      generalize since (clk now) o.stamp = el at *
      by_cases l1 : o.last < -100
      · rw [if_pos l1, if_neg (by omega), if_neg (by omega), if_neg (by omega)]
        exact wl _ _
      · rw [if_neg l1]
        by_cases c1 : o.last > 0
        · rw [if_pos ⟨c1, Int.le_refl _⟩, if_neg nb]
          exact wl _ _
        · rw [if_neg (by omega), if_neg (by omega), if_pos (by omega), if_neg nb]
          exact wl _ _
  cases hq : active h k (setOutput h k minOn minOff now 0 f o) with
  | false => rfl
  | true =>
    exfalso
    have := A'.1 hq
    omega

example : (run ⟨true, false, true, true⟩ .heat 60 0 Out.init [⟨100000, 100, false⟩]).stamp = clk 100000 := by
  decide +kernel

/-- The full claim about minimum times also covers a change of the subfunction between heating and
cooling (which keeps the configured minimum times). -/
def MinOffAcrossReset : Prop :=
  ∀ (h : Hw) (k k' : Kind) (minOn minOff : Nat) (cs : List Call) (t : Nat) (c : Call),
    Wired h k → Wired h k' → (∀ x ∈ cs, InRange x.v) → Timed 0 cs → endTime 0 cs ≤ t → t ≤ c.now →
    InRange c.v → c.force = false →
    let o := run h k minOn minOff Out.init cs
    let r := reset h k' minOn minOff t o
    active h k o = true →
    active h k' (setOutput h k' minOn minOff c.now c.v c.force r) = true → minOff * 1000 ≤ c.now - t

/-- It is false: the reset forgets when the output was switched off (line 4004 stores 0), so a
thermostat switched from heating to cooling starts cooling at once although the minimum off time is
ten minutes. -/
theorem subfunction_change_violation : ¬ MinOffAcrossReset := by
  intro h
  have := h ⟨true, true, true, true⟩ .heat .cool 0 600 [⟨700000, 100, false⟩] 800000
    ⟨801000, -100, false⟩ ⟨rfl, by decide, by decide⟩ ⟨rfl, by decide, by decide⟩
    (by intro x hx; rcases List.mem_singleton.1 hx with rfl; exact ⟨by decide, by decide⟩)
    ⟨by decide, trivial⟩ (by decide) (by decide) ⟨by decide, by decide⟩ rfl
  revert this
  decide +kernel

/-! ### The reported state -/

/-- What the server is told agrees with the relays. -/
def Agrees (h : Hw) (k : Kind) (o : Out) (r : Rep) : Prop :=
  r.heating = heatingOn k o ∧ r.cooling = coolingOn h k o ∧ r.onBool = active h k o

/-- One call of `setOutput` followed by `updateChannelState` (which `setOutput` calls at its end,
line 3143, and `iterateAlways` calls every time, line 591), or `iterateAlways` alone. -/
inductive REv | call (c : Call) | poll

/-- The outputs and the report after one event. -/
def stepR (h : Hw) (k : Kind) (a b : Nat) (s : Out × Rep) : REv → Out × Rep
  | .call c =>
    let o := setOutput h k a b c.now c.v c.force s.1
    (o, report h k o s.2)
  | .poll => (s.1, report h k s.1 s.2)

/-- Every value asked for is a percentage. -/
def REv.ok : REv → Prop
  | .call c => InRange c.v
  | .poll => True

/-- The full claim: after the first `iterateAlways` and any later history the report agrees with the
outputs, for any outputs and any restored report. -/
def ReportAgrees (h : Hw) (k : Kind) : Prop :=
  ∀ (a b : Nat) (r : Rep) (evs : List REv), (∀ e ∈ evs, e.ok) →
    let s := evs.foldl (stepR h k a b) (Out.init, report h k Out.init r)
    Agrees h k s.1 s.2

/-- The values an on/off output is given. -/
def Bin (k : Kind) (o : Out) : Prop :=
  (o.pri = 0 ∨ (k ≠ .cool ∧ o.pri = 1) ∨ (k = .cool ∧ o.pri = -1)) ∧ (o.sec = 0 ∨ o.sec = -1)

theorem setOutput_bin (h : Hw) (k : Kind) (hw : Wired h k) (h1 : h.priOnOff = true)
    (h2 : h.secOnOff = true) (a b now : Nat) (v : Int) (f : Bool) (o : Out) (hb : Bin k o) :
    Bin k (setOutput h k a b now v f o) := by
  have wb : ∀ (v : Int) (o : Out), Bin k o → Bin k (write h k v o) := by
    intro v o hb
    unfold Bin at *
    unfold write
    rw [h1, h2]
    cases k <;> cases h.hasSec <;> simp at hb ⊢ <;> (repeat' split) <;> simp_all
  unfold setOutput
  rw [if_neg (by simp [hw.1])]
  by_cases h3 : o.last = v
  · rw [if_pos h3]; exact hb
  · rw [if_neg h3]
    cases choose a b now o v f with
    | none => exact hb
    | some p => exact wb _ _ hb

theorem report_shown (h : Hw) (k : Kind) (hw : Wired h k) (h1 : h.priOnOff = true)
    (h2 : h.secOnOff = true) (o : Out) (hs : Shown h k o) (r : Rep) (hr : r.isOn ≤ 1)
    (hx : (o.pri = 0 ∧ o.sec = 0) ∨ ((k = .heat → r.onBool = true → r.heating = true) ∧
      (k = .cool → r.onBool = true → r.cooling = true)))
    (hb : Bin k o) (hex : Excl h o) :
    Agrees h k o (report h k o r) ∧ (report h k o r).isOn ≤ 1 := by
  obtain ⟨w1, w2, w3⟩ := hw
  have r01 : r.isOn = 0 ∨ r.isOn = 1 := by omega
  unfold Excl at hex
  unfold Agrees active report heatingOn coolingOn
  obtain ⟨hd, he⟩ := hb
  cases k <;> cases hq : h.hasSec <;> rcases hd with d | ⟨d0, d⟩ | ⟨d0, d⟩ <;> rcases he with e | e <;>
    rcases r01 with z | z <;>
    simp_all [Rep.put, Rep.setOn, Rep.onBool, Shown]

/-- Proved part: thermostats whose outputs are on/off relays (the library's own output class is), and
whose restored `IsOn` is 0 or 1.  After every history the reported heating and cooling flags and
`IsOn` are exactly what the relays do. -/
theorem report_agrees_partial (h : Hw) (k : Kind) (hw : Wired h k) (h1 : h.priOnOff = true)
    (h2 : h.secOnOff = true) (a b : Nat) (r : Rep) (hr : r.isOn ≤ 1) (evs : List REv)
    (hv : ∀ e ∈ evs, e.ok) :
    let s := evs.foldl (stepR h k a b) (Out.init, report h k Out.init r)
    Agrees h k s.1 s.2 := by
  have coh : ∀ (o : Out) (r : Rep), Agrees h k o r →
      ((k = .heat → r.onBool = true → r.heating = true) ∧
      (k = .cool → r.onBool = true → r.cooling = true)) := by
    intro o r ⟨a1, a2, a3⟩
    constructor
    · intro hk hon
      subst hk
      rw [a3] at hon
      rw [a1]
      simpa [active, coolingOn] using hon
    · intro hk hon
      subst hk
      rw [a3] at hon
      rw [a2]
      simpa [active, heatingOn] using hon
  have key : ∀ (evs : List REv) (o : Out) (r : Rep), (∀ e ∈ evs, e.ok) → Shown h k o → Bin k o →
      Excl h o → Agrees h k o r → r.isOn ≤ 1 →
      Agrees h k (evs.foldl (stepR h k a b) (o, r)).1 (evs.foldl (stepR h k a b) (o, r)).2 := by
    intro evs
    induction evs with
    | nil => intro o r _ _ _ _ ha _; exact ha
    | cons e evs ih =>
      intro o r hv hs hb he ha hr
      have hv' := fun e' he' => hv e' (List.mem_cons_of_mem _ he')
      cases e with
      | poll =>
        have := report_shown h k hw h1 h2 o hs r hr (Or.inr (coh o r ha)) hb he
        exact ih o _ hv' hs hb he this.1 this.2
      | call c =>
        have hc : InRange c.v := hv (.call c) (List.mem_cons_self ..)
        have hs' := setOutput_shown h k hw a b c.now c.v hc c.force o hs
        have hb' := setOutput_bin h k hw h1 h2 a b c.now c.v c.force o hb
        have he' := setOutput_excl h k a b c.now c.v c.force o he
        have := report_shown h k hw h1 h2 _ hs' r hr (Or.inr (coh o r ha)) hb' he'
        exact ih _ _ hv' hs' hb' he' this.1 this.2
  have s0 := shown_init h k
  have b0 : Bin k Out.init := ⟨Or.inl rfl, Or.inl rfl⟩
  have e0 : Excl h Out.init := ⟨Or.inl rfl, fun _ => rfl⟩
  have r0 := report_shown h k hw h1 h2 Out.init s0 r hr (Or.inl ⟨rfl, rfl⟩) b0 e0
  exact key evs Out.init _ hv s0 b0 e0 r0.1 r0.2

/-- A history in which the relay is on and reported on. -/
example :
    let h : Hw := ⟨true, true, true, true⟩
    let s := [REv.call ⟨1000, -100, false⟩].foldl (stepR h .both 0 0)
      (Out.init, report h .both Out.init ⟨1, true, false⟩)
    s.2 = ⟨1, false, true⟩ ∧ s.1.sec = -1 := by decide +kernel

/-- False for outputs that take a percentage: `setOutput` gives a cooling output the positive
percentage (lines 3112 and 3137), `updateChannelState` takes only a negative value for cooling
(lines 4947 and 5030), so a cooling-only thermostat that cools at 100 % reports that it is off. -/
theorem percent_cooling_violation : ¬ ReportAgrees ⟨true, false, false, false⟩ .cool := by
  intro h
  have := h 0 0 ⟨0, false, false⟩ [.call ⟨1000, -100, false⟩]
    (by intro e he; rcases List.mem_singleton.1 he with rfl; exact ⟨by decide, by decide⟩)
  revert this
  unfold Agrees
  decide +kernel

/-- The same for the HEAT_COOL function. -/
theorem percent_heat_cool_violation : ¬ ReportAgrees ⟨true, true, false, false⟩ .both := by
  intro h
  have := h 0 0 ⟨0, false, false⟩ [.call ⟨1000, -100, false⟩]
    (by intro e he; rcases List.mem_singleton.1 he with rfl; exact ⟨by decide, by decide⟩)
  revert this
  unfold Agrees
  decide +kernel

/-- A cooling-only thermostat with two different outputs asks the wrong one whether it is on/off
(line 3109 asks the primary, the value goes to the secondary): a percentage output is given -1. -/
theorem mixed_outputs_violation :
    ∃ (h : Hw), h.secOnOff = false ∧ Wired h .cool ∧
      (setOutput h .cool 0 0 1000 (-100) false Out.init).sec = -1 :=
  ⟨⟨true, true, true, false⟩, rfl, ⟨rfl, by decide, by decide⟩, by decide +kernel⟩

end Verif.Hvac
