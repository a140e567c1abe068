import Verif.Condition.Props
import Verif.Em.Props

/-!
# C95: conditions on what an electricity meter measures

Model of `/repo/src/supla/condition_getter.cpp` (cited as G) on top of the model of the electricity meter
(`Verif.Em`), and of conditions (`Verif.Condition`).

Simplified: voltage is like a current that has one scale, and the three powers are three copies of the same code;
currents are given in 0.001 A and powers in 0.00001 W, as whole numbers, where the program divides a whole number
below 2^33 by a power of ten in `double`, which keeps the order against every threshold with at most five decimals.
-/

namespace Verif.Condition

open Verif.Em

/-- The meter with `m_count`, which tells that something is measured (`/repo/src/supla/sensor/electricity_meter.cpp`
226-325 and 328). -/
structure Meter where
  em : S := {}
  count : Bool := false
deriving DecidableEq, Repr

/-- What the driver does: an operation of `Verif.Em`, or the setting of a frequency or a voltage, which sets
`m_count`; `setOther` there is the setting of an energy, which does not. -/
inductive MOp
  | em (op : Em.Op)
  | setFreq
deriving DecidableEq, Repr

/-- One operation. -/
def Meter.step (m : Meter) : MOp → Meter
  | .setFreq => { em := Em.step m.em .setOther, count := true }
  | .em op =>
    { em := Em.step m.em op
      count := match op with
        | .setCurrent p _ => m.count || p < 3
        | .setPower p _ => m.count || p < 3
        | .reset => false
        | _ => m.count }

/-- A history, from a new meter. -/
def Meter.run (ops : List MOp) : Meter := ops.foldl Meter.step {}

/-- The published measurement after a history: `updateChannelValues` at a moment when the channel is due. -/
def published (ops : List MOp) : Meter :=
  let m := Meter.run ops
  { m with em := update m.em }

/-- The quantities a condition can be put on (G 46-290). -/
inductive Getter
  | current (phase : Int)
  | totalCurrent
  | power (phase : Int)
  | totalPower
deriving DecidableEq, Repr

/-- A sum of two `int`s; `none` is an overflow (undefined). -/
def addInt (a b : Int) : Option Int :=
  if a + b > 2147483647 ∨ a + b < -2147483648 then none else some (a + b)

/-- The scale of a current (G 82-90, 110-117). -/
def scaleCurrent (s : S) (x : Int) : Option Int :=
  if s.bitA then some x else if s.bitA65 then some (x * 10) else none

/-- The scale of a power (G 135-142, 161-168). -/
def scalePower (s : S) (x : Int) : Option Int :=
  if s.bitW then some x else if s.bitKW then some (x * 1000) else none

/-- `getValue` of the getters (G 71-290): outer `none` is undefined behaviour, inner `none` is `*isValid = false`. -/
def getValue (g : Getter) (m : Meter) : Option (Option Int) :=
  match g with
  | .current p =>
    if p < 0 ∨ p ≥ 3 then some none
    else if m.count then some (scaleCurrent m.em (m.em.outCurrent.getD p.toNat 0)) else some none
  | .totalCurrent =>
    if m.count then
      match addInt (m.em.outCurrent.getD 0 0) (m.em.outCurrent.getD 1 0) with
      | none => none
      | some x => match addInt x (m.em.outCurrent.getD 2 0) with
        | none => none
        | some y => some (scaleCurrent m.em y)
    else some none
  | .power p =>
    if p < 0 ∨ p ≥ 3 then some none
    else if m.count then some (scalePower m.em (m.em.outPower.getD p.toNat 0)) else some none
  | .totalPower =>
    if m.count then
      match addInt (m.em.outPower.getD 0 0) (m.em.outPower.getD 1 0) with
      | none => none
      | some x => match addInt x (m.em.outPower.getD 2 0) with
        | none => none
        | some y => some (scalePower m.em y)
    else some none

/-! ## Structure -/

/-- The operations of the meter proper. -/
def emOps : List MOp → List Em.Op
  | [] => []
  | .em op :: l => op :: emOps l
  | .setFreq :: l => .setOther :: emOps l

theorem run_em_aux (ops : List MOp) (m : Meter) :
    (ops.foldl Meter.step m).em = Em.run (emOps ops) m.em := by
  induction ops generalizing m with
  | nil => rfl
  | cons o os ih =>
    rw [List.foldl_cons, ih]
    cases o <;> rfl

theorem run_em (ops : List MOp) : (Meter.run ops).em = Em.run (emOps ops) {} := run_em_aux ops {}

theorem emOps_append (a b : List MOp) : emOps (a ++ b) = emOps a ++ emOps b := by
  induction a with
  | nil => rfl
  | cons o os ih => cases o <;> simp [emOps, ih]

theorem run_snoc (ops : List MOp) (o : MOp) : Meter.run (ops ++ [o]) = (Meter.run ops).step o := by
  simp [Meter.run, List.foldl_append]

/-! ## One phase -/

/-- A condition on the power of a phase compares the power that was measured last, within the scale. -/
theorem power_value (ops : List MOp) (p : Nat) (v : Int) (hp : p < 3) (hv1 : -2147483648999 ≤ v)
    (hv2 : v ≤ 9223372036854775807) :
    ∃ r, getValue (.power p) (published (ops ++ [.em (.setPower p v)])) = some (some r) ∧
      PowerOk v r ((Meter.run (ops ++ [.em (.setPower p v)])).em.power.all fun r =>
        -2147483648 ≤ r ∧ r ≤ 2147483647) := by
  have h := power_shown_partial (emOps ops) p v hp hv1 hv2
  have he : (Meter.run (ops ++ [.em (.setPower p v)])).em = Em.run (emOps ops ++ [.setPower p v]) {} := by
    rw [run_em, emOps_append]; rfl
  have hs := (setPower_val (emOps ops) p v hp).2
  rw [← he] at h hs
  refine ⟨_, ?_, h⟩
  have hc : (published (ops ++ [.em (.setPower p v)])).count = true := by
    show (Meter.run (ops ++ [.em (.setPower p v)])).count = true
    rw [run_snoc]
    simp [Meter.step, hp]
  unfold getValue
  dsimp only
  rw [if_neg (by omega), if_pos hc]
  show some (scalePower (update (Meter.run (ops ++ [.em (.setPower p v)])).em)
    ((update (Meter.run (ops ++ [.em (.setPower p v)])).em).outPower.getD _ 0)) = _
  generalize (Meter.run (ops ++ [.em (.setPower p v)])).em = s at hs
  have hn : ((p : Int)).toNat = p := by omega
  rw [hn]
  unfold scalePower readPower
  have hb : (update s).bitW = !overKW s.power := by
    show (if s.powerSet then !overKW s.power else s.bitW) = _
    rw [if_pos hs]
  have hb2 : (update s).bitKW = overKW s.power := by
    show (if s.powerSet then overKW s.power else s.bitKW) = _
    rw [if_pos hs]
  rw [hb, hb2]
  cases overKW s.power <;> simp

theorem setCurrent_set (ops : List Em.Op) (p v : Nat) (hp : p < 3) :
    (Em.run (ops ++ [.setCurrent p v]) {}).currentSet = true := by
  have : Em.run (ops ++ [.setCurrent p v]) {} = Em.setCurrent p v (Em.run ops {}) := by
    simp [Em.run, List.foldl_append, Em.step]
  rw [this]
  unfold Em.setCurrent
  rw [if_pos hp]

/-- A condition on the current of a phase compares the current that was measured last, within the scale. -/
theorem current_value (ops : List MOp) (p v : Nat) (hp : p < 3) :
    ∃ r : Nat, getValue (.current p) (published (ops ++ [.em (.setCurrent p v)])) = some (some (r : Int)) ∧
      CurrentOk v r ((Meter.run (ops ++ [.em (.setCurrent p v)])).em.current.all (· ≤ 65534)) := by
  have h := current_shown (emOps ops) p v hp
  have he : (Meter.run (ops ++ [.em (.setCurrent p v)])).em = Em.run (emOps ops ++ [.setCurrent p v]) {} := by
    rw [run_em, emOps_append]; rfl
  have hs := setCurrent_set (emOps ops) p v hp
  rw [← he] at h hs
  refine ⟨_, ?_, h⟩
  have hc : (published (ops ++ [.em (.setCurrent p v)])).count = true := by
    show (Meter.run (ops ++ [.em (.setCurrent p v)])).count = true
    rw [run_snoc]
    simp [Meter.step, hp]
  unfold getValue
  dsimp only
  rw [if_neg (by omega), if_pos hc]
  show some (scaleCurrent (update (Meter.run (ops ++ [.em (.setCurrent p v)])).em)
    ((update (Meter.run (ops ++ [.em (.setCurrent p v)])).em).outCurrent.getD _ 0)) = _
  generalize (Meter.run (ops ++ [.em (.setCurrent p v)])).em = s at hs
  have hn : ((p : Int)).toNat = p := by omega
  rw [hn]
  unfold scaleCurrent readCurrent
  have hb : (update s).bitA = !over s.current := by
    show (if s.currentSet then !over s.current else s.bitA) = _
    rw [if_pos hs]
  have hb2 : (update s).bitA65 = over s.current := by
    show (if s.currentSet then over s.current else s.bitA65) = _
    rw [if_pos hs]
  rw [hb, hb2]
  cases over s.current <;> simp

example : getValue (.power 1) (published [.em (.setCurrent 0 5), .em (.setPower 1 123456)]) = some (some 123456) := by decide +kernel
example : getValue (.power 1) (published [.em (.setPower 0 3000000000), .em (.setPower 1 123456)]) = some (some 123000) := by decide +kernel
example : getValue (.current 2) (published [.em (.setCurrent 2 70001)]) = some (some 70000) := by decide +kernel

/-! ## What is not measured is not compared -/

/-- A phase that does not exist is never compared. -/
theorem no_phase (m : Meter) (p : Int) (hp : p < 0 ∨ 3 ≤ p) :
    getValue (.power p) m = some none ∧ getValue (.current p) m = some none := by
  unfold getValue
  dsimp only
  have hp : p < 0 ∨ p ≥ 3 := hp
  rw [if_pos hp, if_pos hp]
  exact ⟨rfl, rfl⟩

/-- After the driver has withdrawn its readings nothing is compared. -/
theorem withdrawn (ops : List MOp) (g : Getter) : getValue g (published (ops ++ [.em .reset])) = some none := by
  have hc : (published (ops ++ [.em .reset])).count = false := by
    show (Meter.run (ops ++ [.em .reset])).count = false
    rw [run_snoc]; rfl
  unfold getValue
  cases g <;> dsimp only <;> rw [hc] <;> simp

/-- A power was set. -/
def SetsPower : MOp → Prop
  | .em (.setPower p _) => p < 3
  | _ => False

theorem never_power (ops : List MOp) (h : ∀ o ∈ ops, ¬ SetsPower o) (m : Meter)
    (hm : m.em.bitW = false ∧ m.em.bitKW = false ∧ m.em.powerSet = false) :
    (ops.foldl Meter.step m).em.bitW = false ∧ (ops.foldl Meter.step m).em.bitKW = false ∧
      (ops.foldl Meter.step m).em.powerSet = false := by
  induction ops generalizing m with
  | nil => exact hm
  | cons o os ih =>
    rw [List.foldl_cons]
    refine ih (fun x hx => h x (List.mem_cons_of_mem _ hx)) _ ?_
    have ho := h o List.mem_cons_self
    cases o with
    | setFreq => exact hm
    | em op =>
      show (Em.step m.em op).bitW = false ∧ (Em.step m.em op).bitKW = false ∧ (Em.step m.em op).powerSet = false
      cases op with
      | setCurrent p v =>
        unfold Em.step Em.setCurrent
        dsimp only
        split <;> exact hm
      | setPower p v =>
        have : ¬ p < 3 := ho
        unfold Em.step Em.setPower
        dsimp only
        rw [if_neg this]
        exact hm
      | setOther => exact hm
      | reset =>
        unfold Em.step Em.reset
        dsimp only
        split
        · exact ⟨hm.1, hm.2.1, rfl⟩
        · exact hm
      | resetPhase p =>
        unfold Em.step Em.resetPhase
        dsimp only
        split <;> exact hm
      | update =>
        show (if m.em.powerSet then _ else m.em.bitW) = false ∧ (if m.em.powerSet then _ else m.em.bitKW) = false ∧ m.em.powerSet = false
        rw [hm.2.2, if_neg Bool.false_ne_true, if_neg Bool.false_ne_true]
        exact ⟨hm.1, hm.2.1, rfl⟩

/-- A power that was never measured is not compared. -/
theorem never_measured (ops : List MOp) (h : ∀ o ∈ ops, ¬ SetsPower o) (p : Int) :
    getValue (.power p) (published ops) = some none := by
  have hi := never_power ops h {} ⟨rfl, rfl, rfl⟩
  have h1 : (published ops).em.bitW = false := by
    show (if (Meter.run ops).em.powerSet then _ else (Meter.run ops).em.bitW) = false
    rw [show (Meter.run ops).em.powerSet = false from hi.2.2]
    exact hi.1
  have h2 : (published ops).em.bitKW = false := by
    show (if (Meter.run ops).em.powerSet then _ else (Meter.run ops).em.bitKW) = false
    rw [show (Meter.run ops).em.powerSet = false from hi.2.2]
    exact hi.2.1
  unfold getValue scalePower
  dsimp only
  rw [h1, h2]
  split
  · rfl
  · split <;> simp

example : ∀ o ∈ [MOp.em (.setCurrent 0 7), .setFreq], ¬ SetsPower o := by
  intro o ho
  simp only [List.mem_cons, List.not_mem_nil, or_false] at ho
  rcases ho with rfl | rfl <;> exact id

/-- The claim for a power withdrawn and not measured since: it is not compared. -/
def OnlyMeasured : Prop := ∀ (before since : List MOp) (p : Int), (∀ o ∈ since, ¬ SetsPower o) →
  getValue (.power p) (published (before ++ [.em .reset] ++ since)) = some none

/-- After a withdrawal, a reading of another quantity brings the power back, as zero: a condition "below 100 W"
fires although no power is measured. -/
theorem only_measured_violation : ¬ OnlyMeasured := by
  intro h
  have := h [.em (.setPower 0 50000000), .em .update] [.em (.setCurrent 0 5)] 0
    (by intro o ho; simp only [List.mem_cons, List.not_mem_nil, or_false] at ho; rcases ho with rfl; exact id)
  revert this
  decide +kernel

/-! ## Totals -/

/-- The total current is the sum of the currents that are published, always. -/
theorem total_current (ops : List MOp) (p v : Nat) (hp : p < 3) :
    getValue .totalCurrent (published (ops ++ [.em (.setCurrent p v)])) =
      some (some (((readCurrent (published (ops ++ [.em (.setCurrent p v)])).em 0 +
        readCurrent (published (ops ++ [.em (.setCurrent p v)])).em 1 +
        readCurrent (published (ops ++ [.em (.setCurrent p v)])).em 2 : Nat)) : Int)) := by
  have he : (Meter.run (ops ++ [.em (.setCurrent p v)])).em = Em.run (emOps ops ++ [.setCurrent p v]) {} := by
    rw [run_em, emOps_append]; rfl
  have hs := setCurrent_set (emOps ops) p v hp
  have hi := run_inv (emOps ops ++ [.setCurrent p v]) {} init_inv
  rw [← he] at hs hi
  have hc : (published (ops ++ [.em (.setCurrent p v)])).count = true := by
    show (Meter.run (ops ++ [.em (.setCurrent p v)])).count = true
    rw [run_snoc]
    simp [Meter.step, hp]
  have hem : (published (ops ++ [.em (.setCurrent p v)])).em = update (Meter.run (ops ++ [.em (.setCurrent p v)])).em := rfl
  rw [hem]
  unfold getValue
  dsimp only
  rw [if_pos hc, hem]
  generalize (Meter.run (ops ++ [.em (.setCurrent p v)])).em = s at hs hi
  have hb : (update s).bitA = !over s.current := by
    show (if s.currentSet then !over s.current else s.bitA) = _
    rw [if_pos hs]
  have hb2 : (update s).bitA65 = over s.current := by
    show (if s.currentSet then over s.current else s.bitA65) = _
    rw [if_pos hs]
  have hlt : ∀ i, (update s).outCurrent.getD i 0 < 65536 := by
    intro i
    show ((s.current.map capCurrent).map fun r => if over s.current then r / 10 % 65536 else r % 65536).getD i 0 < 65536
    rw [List.getD_eq_getElem?_getD, List.getElem?_map]
    cases (s.current.map capCurrent)[i]? with
    | none => simp
    | some x => simp only [Option.map_some, Option.getD_some]; split <;> omega
  have h0 := hlt 0
  have h1 := hlt 1
  have h2 := hlt 2
  unfold readCurrent scaleCurrent addInt
  rw [hb, hb2]
  generalize (update s).outCurrent.getD 0 0 = a at h0
  generalize (update s).outCurrent.getD 1 0 = b at h1
  generalize (update s).outCurrent.getD 2 0 = c at h2
  rw [if_neg (by omega)]
  dsimp only
  rw [if_neg (by omega)]
  dsimp only
  cases over s.current
  · simp
  · simp; omega

/-- The claim for the total power: it is the sum of the powers that are published. -/
def TotalPower : Prop := ∀ (ops : List MOp) (p : Nat) (v : Int), p < 3 →
  getValue .totalPower (published (ops ++ [.em (.setPower p v)])) =
    some (some (readPower (published (ops ++ [.em (.setPower p v)])).em 0 +
      readPower (published (ops ++ [.em (.setPower p v)])).em 1 +
      readPower (published (ops ++ [.em (.setPower p v)])).em 2))

/-- With 8 kW in each phase the sum overflows: undefined behaviour. -/
theorem total_power_violation : ¬ TotalPower := by
  intro h
  have := h [.em (.setPower 0 800000000), .em (.setPower 1 800000000)] 2 800000000 (by decide)
  revert this
  decide +kernel

/-- It is, while no phase exceeds 7.15 kW. -/
theorem total_power_partial (ops : List MOp) (p : Nat) (v : Int) (hp : p < 3)
    (hr : ∀ r ∈ (Meter.run (ops ++ [.em (.setPower p v)])).em.power, -715000000 ≤ r ∧ r ≤ 715000000) :
    getValue .totalPower (published (ops ++ [.em (.setPower p v)])) =
      some (some ((Meter.run (ops ++ [.em (.setPower p v)])).em.power.getD 0 0 +
        (Meter.run (ops ++ [.em (.setPower p v)])).em.power.getD 1 0 +
        (Meter.run (ops ++ [.em (.setPower p v)])).em.power.getD 2 0)) := by
  have he : (Meter.run (ops ++ [.em (.setPower p v)])).em = Em.run (emOps ops ++ [.setPower p v]) {} := by
    rw [run_em, emOps_append]; rfl
  have hs := (setPower_val (emOps ops) p v hp).2
  have hi := run_inv (emOps ops ++ [.setPower p v]) {} init_inv
  rw [← he] at hs hi
  have hc : (published (ops ++ [.em (.setPower p v)])).count = true := by
    show (Meter.run (ops ++ [.em (.setPower p v)])).count = true
    rw [run_snoc]
    simp [Meter.step, hp]
  have hem : (published (ops ++ [.em (.setPower p v)])).em = update (Meter.run (ops ++ [.em (.setPower p v)])).em := rfl
  unfold getValue
  dsimp only
  rw [if_pos hc, hem]
  generalize (Meter.run (ops ++ [.em (.setPower p v)])).em = s at hs hi hr
  have ho : overKW s.power = false := by
    unfold overKW
    rw [List.any_eq_false]
    intro x hx
    have := hr x hx
    simp
    omega
  have hval : ∀ i, i < 3 → (update s).outPower.getD i 0 = s.power.getD i 0 ∧ -715000000 ≤ s.power.getD i 0 ∧
      s.power.getD i 0 ≤ 715000000 := by
    intro i hi3
    have hl : i < s.power.length := by rw [hi.lp]; exact hi3
    have hm : s.power.getD i 0 ∈ s.power := by
      rw [List.getD_eq_getElem?_getD, List.getElem?_eq_getElem hl]; exact List.getElem_mem hl
    have hb := hr _ hm
    have := power_defined_partial s hi i hi3 hs (fun r hr' => by have := hr r hr'; omega)
    unfold getPower at this
    have hkw : (update s).bitKW = false := by
      show (if s.powerSet then overKW s.power else s.bitKW) = _
      rw [if_pos hs, ho]
    rw [hkw, if_neg (by simp)] at this
    exact ⟨Option.some.inj this, hb⟩
  have hb : (update s).bitW = true := by
    show (if s.powerSet then !overKW s.power else s.bitW) = _
    rw [if_pos hs, ho]; rfl
  obtain ⟨a1, a2, a3⟩ := hval 0 (by omega)
  obtain ⟨b1, b2, b3⟩ := hval 1 (by omega)
  obtain ⟨c1, c2, c3⟩ := hval 2 (by omega)
  unfold scalePower addInt
  rw [hb, a1, b1, c1]
  rw [if_neg (by omega)]
  dsimp only
  rw [if_neg (by omega)]
  rfl

example : ∀ r ∈ (Meter.run ([.em (.setPower 0 700000000), .em (.setPower 1 (-3))] ++ [.em (.setPower 2 715000000)])).em.power, -715000000 ≤ r ∧ r ≤ 715000000 := by decide +kernel

/-! ## The condition fires on crossings -/

/-- The value a getter hands over: 0 with one that is not valid (G 71-76). -/
def gv : Option Int → V
  | some x => .num x
  | none => zero

/-- The actions run over a sequence of evaluations with a getter; `none` is a reading that is not valid. -/
def getterFires : Cond → List (Option Int) → List Bool
  | _, [] => []
  | c, r :: rest =>
    let q := onGetter c (gv r) r.isSome
    q.2 :: getterFires q.1 rest

/-- A reading satisfies the condition the user wrote; only "is not valid" is satisfied by a reading that is not. -/
def Meets : Kind → Option Int → Prop
  | .less (.num t), some x => x < t
  | .lessEq (.num t), some x => x ≤ t
  | .greater (.num t), some x => t < x
  | .greaterEq (.num t), some x => t ≤ x
  | .between (.num l) (.num h), some x => l < x ∧ x < h
  | .betweenEq (.num l) (.num h), some x => l ≤ x ∧ x ≤ h
  | .equal (.num t), some x => x = t
  | .invalid, none => True
  | _, _ => False

theorem holds_meets (k : Kind) (r : Option Int) : holds k (gv r) r.isSome = true ↔ Meets k r := by
  cases r with
  | none => cases k <;> simp [holds, Meets]
  | some x =>
    cases k with
    | less t => cases t <;> simp [holds, Meets, gv, V.lt]
    | lessEq t => cases t <;> simp [holds, Meets, gv, V.le]
    | greater t => cases t <;> simp [holds, Meets, gv, V.lt]
    | greaterEq t => cases t <;> simp [holds, Meets, gv, V.le]
    | between l h => cases l <;> cases h <;> simp [holds, Meets, gv, V.lt]
    | betweenEq l h => cases l <;> cases h <;> simp [holds, Meets, gv, V.le]
    | equal t => cases t <;> simp [holds, Meets, gv, V.eq]
    | invalid => simp [holds, Meets]

/-- A condition runs its action exactly at the evaluations that meet it and whose predecessor does not. -/
theorem meter_edges (k : Kind) (useAlt fired : Bool) (rs : List (Option Int)) :
    getterFires ⟨k, useAlt, fired⟩ rs = edges fired (rs.map fun r => (open Classical in decide (Meets k r))) := by
  induction rs generalizing fired with
  | nil => rfl
  | cons r rest ih =>
    have hh : holds k (gv r) r.isSome = (open Classical in decide (Meets k r)) := by
      have := holds_meets k r
      cases h : holds k (gv r) r.isSome with
      | true => simp [this.1 h]
      | false => rw [h] at this; simp at this; simp [this]
    have h1 : (onGetter ⟨k, useAlt, fired⟩ (gv r) r.isSome) =
        (⟨k, useAlt, (open Classical in decide (Meets k r))⟩, (open Classical in decide (Meets k r)) && !fired) := by
      unfold onGetter
      dsimp only
      rw [check_eq, hh]
    unfold getterFires
    dsimp only
    rw [h1, ih]
    rfl

example : getterFires ⟨.greater (.num 100), false, false⟩ [some 50, some 101, none, some 200, some 201] = [false, true, false, true, false] := by decide

/-! ## The reading compared is the newest -/

/-- A pass of the main loop in which the meter is read; the actions of the meter run when a value has changed
(`updateChannelValues`, `/repo/src/supla/sensor/electricity_meter.cpp` 40-43, 152-158) and compare what the channel has. -/
def compared (rate : Nat) (s : P) (d v : Nat) : Option (Option Nat) :=
  if due rate s && ((measure d v { s with lastRead := clk s.now }).changed || s.lastUpd = 0) then
    some (pstep rate s (.pass d v)).pub
  else none

/-- The claim: whenever the condition is evaluated it compares the reading just made. -/
def ComparesNewest (rate : Nat) : Prop := ∀ es d v r, compared rate (prun rate es {}) d v = some r → r = some v

/-- A reading 150 ms faster than the one before is not given to the channel in time: the condition compares the old
one, and is not evaluated again while the measured value stays. -/
theorem compares_newest_violation : ¬ ComparesNewest 5 := by
  intro h
  have := h [.wait 9000, .pass 200 10, .wait 4801] 50 20 (some 10) (by decide +kernel)
  exact absurd this (by decide)

/-- When readings take no less time than the one before (or the device has just registered) the newest is
compared. -/
theorem compares_newest_partial (rate : Nat) (s : P) (d v : Nat) (r : Option Nat)
    (hdue : s.lastUpd = 0 ∨ since (clk (s.now + d)) s.lastUpd ≥ rate * 1000)
    (h : compared rate s d v = some r) : r = some v := by
  unfold compared at h
  split at h
  · rename_i hd
    simp only [Bool.and_eq_true, Bool.or_eq_true, decide_eq_true_eq] at hd
    have hr := (Option.some.inj h).symm
    rw [hr]
    unfold pstep
    dsimp only
    rw [if_pos hd.1]
    unfold publish
    rw [if_neg, if_pos]
    · rfl
    · exact hdue
    · rintro ⟨a, b⟩
      rcases hd.2 with e | e
      · rw [e] at a; cases a
      · exact b e
  · cases h

example : compared 5 (prun 5 [.wait 9000, .pass 50 10, .wait 4951] {}) 60 20 = some (some 20) := by decide +kernel

end Verif.Condition
