import Verif.Hvac.Control
import Verif.Hvac.OutputProps
/-!
# Thermostat control: hysteresis, protections, off means off
-/
namespace Verif.Hvac
open Verif

/-! ### Effect of one call -/

theorem write_last (h : Hw) (k : Kind) (v : Int) (o : Out) : (write h k v o).last = o.last := by
  unfold write
  cases k <;> simp <;> (repeat' split) <;> simp

/-- A call with value 0: afterwards the value is 0, unless the minimum on time is not over. -/
theorem set_zero (h : Hw) (k : Kind) (hw : Wired h k) (a b now : Nat) (f : Bool) (o : Out) :
    (setOutput h k a b now 0 f o).last = 0 ∨
    (f = false ∧ since (clk now) o.stamp < a * 1000 ∧ setOutput h k a b now 0 f o = o ∧ o.last ≠ 0 ∧ -100 ≤ o.last) := by
  unfold setOutput
  rw [if_neg (by simp [hw.1])]
  by_cases h2 : o.last = 0
  · rw [if_pos h2]; exact Or.inl h2
  · rw [if_neg h2]
    unfold choose
    rw [if_neg h2]
    dsimp only
    by_cases l1 : o.last < -100
    · rw [if_pos l1, if_neg (by omega), if_neg (by omega), if_neg (by omega)]
      exact Or.inl (write_last ..)
    · rw [if_neg l1]
      by_cases nb : (!f && decide (since (clk now) o.stamp < a * 1000)) = true
      · rw [Bool.and_eq_true] at nb
        have n1 : f = false := by simpa using nb.1
        have n2 : since (clk now) o.stamp < a * 1000 := of_decide_eq_true nb.2
        right
        refine ⟨n1, n2, ?_, h2, by omega⟩
        have e : (!f && decide (since (clk now) o.stamp < a * 1000)) = true := by
          rw [n1, decide_eq_true n2]; rfl
        by_cases c1 : o.last > 0
        · rw [if_pos ⟨c1, Int.le_refl _⟩, if_pos e]
        · rw [if_neg (by omega), if_neg (by omega), if_pos (by omega), if_pos e]
      · left
        by_cases c1 : o.last > 0
        · rw [if_pos ⟨c1, Int.le_refl _⟩, if_neg nb]
          exact write_last ..
        · rw [if_neg (by omega), if_neg (by omega), if_pos (by omega), if_neg nb]
          exact write_last ..

/-- A call with the value already in force does nothing. -/
theorem set_same (h : Hw) (k : Kind) (a b now : Nat) (f : Bool) (o : Out) :
    setOutput h k a b now o.last f o = o := by
  unfold setOutput
  rw [if_pos rfl]
  split <;> rfl

/-- A call with a value other than 0, made while off: it is taken unless the minimum off time is not
over. -/
theorem set_from_off (h : Hw) (k : Kind) (hw : Wired h k) (a b now : Nat) (v : Int) (hv : InRange v)
    (hv0 : v ≠ 0) (f : Bool) (o : Out) (ho : o.last = 0 ∨ o.last = -111) :
    (setOutput h k a b now v f o).last = v ∨
    (f = false ∧ since (clk now) o.stamp < b * 1000 ∧ (setOutput h k a b now v f o).last = 0) := by
  unfold InRange at hv
  unfold setOutput
  rw [if_neg (by simp [hw.1])]
  have h2 : ¬ o.last = v := by omega
  rw [if_neg h2]
  unfold choose
  rw [if_neg h2]
  dsimp only
  have e : (if o.last < -100 then 0 else o.last) = 0 := by
    rcases ho with z | z <;> rw [z] <;> decide
  rw [e, if_neg (by omega), if_pos ⟨rfl, hv0⟩]
  by_cases nb : (!f && decide (since (clk now) o.stamp < b * 1000)) = true
  · rw [Bool.and_eq_true] at nb
    have n1 : f = false := by simpa using nb.1
    have n2 : since (clk now) o.stamp < b * 1000 := of_decide_eq_true nb.2
    right
    refine ⟨n1, n2, ?_⟩
    rw [if_pos (by rw [n1, decide_eq_true n2]; rfl)]
  · rw [if_neg nb]
    exact Or.inl (write_last ..)

/-! ### Reachable states -/

/-- A usable configuration: outputs wired as the function needs, and an error value that
`isConfigValid` accepts (lines 1221-1227). -/
def Good (c : Cfg) : Prop := Wired c.hw c.kind ∧ InRange c.onError

theorem evalHeat_range (c : Cfg) (hc : Good c) (last tM tT : Int) :
    InRange (evalHeat c last tM tT) ∨ evalHeat c last tM tT = last := by
  have e := hc.2
  unfold evalHeat
  have h0 : InRange 0 := ⟨by decide, by decide⟩
  have h1 : InRange 100 := ⟨by decide, by decide⟩
  repeat' split
  all_goals first
    | exact Or.inl e
    | exact Or.inl h0
    | exact Or.inl h1
    | exact Or.inr rfl

theorem evalCool_range (c : Cfg) (hc : Good c) (last tM tT : Int) :
    InRange (evalCool c last tM tT) ∨ evalCool c last tM tT = last := by
  have e := hc.2
  unfold evalCool
  have h0 : InRange 0 := ⟨by decide, by decide⟩
  have h1 : InRange (-100) := ⟨by decide, by decide⟩
  dsimp only
  repeat' split
  all_goals first
    | exact Or.inl e
    | exact Or.inl h0
    | exact Or.inl h1
    | exact Or.inr rfl

theorem set_shown (c : Cfg) (hc : Good c) (now : Nat) (v : Int) (f : Bool) (o : Out)
    (hv : InRange v ∨ v = o.last) (hs : Shown c.hw c.kind o) :
    Shown c.hw c.kind (c.set now v f o) := by
  unfold Cfg.set
  rcases hv with hv | hv
  · exact setOutput_shown _ _ hc.1 _ _ _ _ hv _ _ hs
  · rw [hv, set_same]; exact hs

theorem regulate_shown (c : Cfg) (hc : Good c) (x : Tick) (t1 t2 : Int) (o : Out)
    (hs : Shown c.hw c.kind o) : Shown c.hw c.kind (regulate c x t1 t2 o) := by
  have h0 : InRange 0 := ⟨by decide, by decide⟩
  unfold regulate
  dsimp only
  have a1 := evalHeat_range c hc o.last t2 c.auxMin
  have a2 := evalCool_range c hc o.last t2 c.auxMax
  have a3 := evalHeat_range c hc o.last t1 x.spHeat
  have a4 := evalCool_range c hc o.last t1 x.spCool
  generalize evalHeat c o.last t2 c.auxMin = e1 at *
  generalize evalCool c o.last t2 c.auxMax = e2 at *
  generalize evalHeat c o.last t1 x.spHeat = e3 at *
  generalize evalCool c o.last t1 x.spCool = e4 at *
  repeat' split
  all_goals first
    | exact hs
    | exact set_shown c hc _ _ _ _ (by assumption) hs
    | exact set_shown c hc _ _ _ _ (Or.inl h0) hs

theorem pass_shown (c : Cfg) (hc : Good c) (flag : Bool) (o : Out) (x : Tick)
    (hs : Shown c.hw c.kind o) : Shown c.hw c.kind (pass c flag o x).1 := by
  have h0 : InRange 0 := ⟨by decide, by decide⟩
  unfold pass
  by_cases h1 : (!sensorsOk c x) = true
  · rw [if_pos h1]
    by_cases h2 : x.startup = true
    · rw [if_pos h2]; exact hs
    · rw [if_neg h2]; exact set_shown c hc _ _ _ _ (Or.inl hc.2) hs
  · rw [if_neg h1]
    dsimp only
    generalize (if c.differential then wrap16 (x.t1 - x.t2) else x.t1) = t1
    generalize (if c.differential then noTemp else x.t2) = t2
    unfold decideOut
    dsimp only
    have a1 := evalCool_range c hc o.last t1 c.tOverheat
    have a2 := evalHeat_range c hc o.last t1 c.tFreeze
    have a3 := regulate_shown c hc x t1 t2 o hs
    generalize evalCool c o.last t1 c.tOverheat = e1 at *
    generalize evalHeat c o.last t1 c.tFreeze = e2 at *
    repeat' split
    all_goals first
      | exact hs
      | exact a3
      | exact set_shown c hc _ _ _ _ (by assumption) hs
      | exact set_shown c hc _ _ _ _ (Or.inl h0) hs

theorem ticks_shown (c : Cfg) (hc : Good c) (xs : List Tick) :
    Shown c.hw c.kind (xs.foldl (tick c) Out.init) := by
  have : ∀ (xs : List Tick) (o : Out), Shown c.hw c.kind o → Shown c.hw c.kind (xs.foldl (tick c) o) := by
    intro xs
    induction xs with
    | nil => intro o h; exact h
    | cons x xs ih => intro o h; exact ih _ (pass_shown c hc false o x h)
  exact this xs _ (shown_init _ _)

/-! ### Specification: a two-point controller -/

/-- A two-point controller with hysteresis: on below `sp - lo`, off above `sp + hi`, otherwise as it
was. -/
def twoPoint (lo hi : Int) (on : Bool) (t sp : Int) : Bool :=
  if t < sp - lo then true else if t > sp + hi then false else on

/-- The same for cooling. -/
def twoPointCool (lo hi : Int) (on : Bool) (t sp : Int) : Bool :=
  if t > sp + lo then true else if t < sp - hi then false else on

/-- A working two-point configuration without protections and minimum times: the library controls
the output, an on/off algorithm and a hysteresis are set. -/
structure Plain (c : Cfg) : Prop where
  good : Good c
  internal : c.internal = true
  algo : c.algo ≠ .notSet
  hyst : 0 ≤ c.histeresis
  diff : c.differential = false
  protect : c.protect = false
  aux : c.auxActive = false

/-- The distances are not negative. -/
theorem band_nonneg (c : Cfg) (h : 0 ≤ c.histeresis) : 0 ≤ c.band.1 ∧ 0 ≤ c.band.2 := by
  unfold Cfg.band
  cases c.algo <;> dsimp only <;> constructor <;> omega

theorem validT_of_nonneg {t : Int} (h : 0 ≤ t) : validT t = true := by
  unfold validT noTemp
  exact decide_eq_true (by omega)

theorem validT_iff (t : Int) : validT t = true ↔ -32768 < t := by
  unfold validT noTemp
  rw [decide_eq_true_iff]

theorem evalHeat_eq (c : Cfg) (hi : c.internal = true) (ha : c.algo ≠ .notSet)
    (hh : validT c.histeresis = true) (last tM tT : Int) (h1 : validT tM = true)
    (h2 : validT tT = true) :
    evalHeat c last tM tT = if last ≤ 0 then (if tM < tT - c.band.1 then 100 else last)
      else (if tM > tT + c.band.2 then 0 else last) := by
  unfold evalHeat
  simp [hi, ha, hh, h1, h2]

theorem evalCool_eq (c : Cfg) (hi : c.internal = true) (ha : c.algo ≠ .notSet)
    (hh : validT c.histeresis = true) (last tM tT : Int) (h1 : validT tM = true)
    (h2 : validT tT = true) :
    evalCool c last tM tT = if last < 0 ∧ tM < tT - c.band.2 then 0
      else if (last ≥ 0 ∨ last = -111) ∧ tM > tT + c.band.1 then -100 else last := by
  unfold evalCool
  simp [hi, ha, hh, h1, h2]

/-- Without protections a pass with a working thermometer is just the mode. -/
theorem tick_plain (c : Cfg) (hp : Plain c) (o : Out) (x : Tick) (h1 : validT x.t1 = true)
    (hf : x.forcedOff = false) :
    tick c o x = match x.mode with
      | .heatCool =>
        if evalHeat c o.last x.t1 x.spHeat > 0 then c.set x.now (evalHeat c o.last x.t1 x.spHeat) false o
        else if evalCool c o.last x.t1 x.spCool < 0 then c.set x.now (evalCool c o.last x.t1 x.spCool) false o
        else c.set x.now 0 false o
      | .heat => c.set x.now (if evalHeat c o.last x.t1 x.spHeat < 0 then 0 else evalHeat c o.last x.t1 x.spHeat) false o
      | .cool => c.set x.now (if evalCool c o.last x.t1 x.spCool > 0 then 0 else evalCool c o.last x.t1 x.spCool) false o
      | .off => c.set x.now 0 false o
      | _ => o := by
  unfold tick pass
  have hs : sensorsOk c x = true := by
    unfold sensorsOk
    simp [h1, hp.diff, hp.aux]
  rw [hs, if_neg (by decide)]
  dsimp only
  rw [hp.diff]
  unfold decideOut regulate
  simp [hp.protect, hp.internal, hf, hp.aux]
  cases x.mode <;> rfl

/-- In HEAT mode, with no minimum times, the heater is exactly a two-point controller: for every
history of temperatures and set points, at any times. -/
theorem heating_is_two_point (c : Cfg) (hp : Plain c) (hk : c.kind = .heat ∨ c.kind = .both)
    (hon : c.minOn = 0) (hoff : c.minOff = 0) (xs : List Tick)
    (hx : ∀ x ∈ xs, x.mode = .heat ∧ validT x.t1 = true ∧ validT x.spHeat = true ∧ x.forcedOff = false) :
    heatingOn c.kind (xs.foldl (tick c) Out.init) =
      xs.foldl (fun on x => twoPoint c.band.1 c.band.2 on x.t1 x.spHeat) false := by
  have hb := band_nonneg c hp.hyst
  have key : ∀ (xs : List Tick) (o : Out) (on : Bool),
      (∀ x ∈ xs, x.mode = .heat ∧ validT x.t1 = true ∧ validT x.spHeat = true ∧ x.forcedOff = false) →
      Shown c.hw c.kind o → (o.last ≥ 0 ∨ o.last = -111) → heatingOn c.kind o = on →
      heatingOn c.kind (xs.foldl (tick c) o) =
        xs.foldl (fun on x => twoPoint c.band.1 c.band.2 on x.t1 x.spHeat) on := by
    intro xs
    induction xs with
    | nil => intro o on _ _ _ h; exact h
    | cons x xs ih =>
      intro o on hx hs hl he
      obtain ⟨m, v1, v2, ff⟩ := hx x (List.mem_cons_self ..)
      have hs' : Shown c.hw c.kind (tick c o x) := pass_shown c hp.good false o x hs
      refine ih (tick c o x) _ (fun y hy => hx y (List.mem_cons_of_mem _ hy)) hs' ?_ ?_
      all_goals
        have e := tick_plain c hp o x v1 ff
        rw [m] at e
        dsimp only at e
        rw [evalHeat_eq c hp.internal hp.algo (validT_of_nonneg hp.hyst) _ _ _ v1 v2] at e
        have hkc : c.kind ≠ .cool := by rcases hk with z | z <;> rw [z] <;> decide
        have on_iff : ∀ o : Out, Shown c.hw c.kind o → (o.last ≥ 0 ∨ o.last = -111) →
            (heatingOn c.kind o = true ↔ o.last > 0) := by
          intro o hs hl
          rcases hs.2 with ⟨z1, z2, z3⟩ | ⟨z1, z2, z3, _⟩
          · rw [z1]
            constructor
            · intro q
              unfold heatingOn at q
              rcases hk with z | z <;> rw [z] at q <;> simp [z2] at q
            · intro q; omega
          · rw [z2]
            exact ⟨fun q => q.1, fun q => ⟨q, hkc⟩⟩
        have F := on_iff o hs hl
        have F' := on_iff _ hs'
        generalize tick c o x = o' at *
        unfold Cfg.set at e
        rw [hon, hoff] at e
        have r : InRange o.last ∨ o.last = -111 := by
          rcases hs.2 with ⟨z1, _⟩ | ⟨z1, _⟩
          · exact Or.inr z1
          · exact Or.inl z1
        -- the new last value
        have nl : o'.last = (if o.last ≤ 0 then (if x.t1 < x.spHeat - c.band.1 then 100 else 0)
            else (if x.t1 > x.spHeat + c.band.2 then 0 else o.last)) := by
          by_cases p : o.last ≤ 0
          · rw [if_pos p] at e ⊢
            by_cases q : x.t1 < x.spHeat - c.band.1
            · rw [if_pos q] at e ⊢
              rw [if_neg (by decide)] at e
              have := set_from_off c.hw c.kind hp.good.1 0 0 x.now 100 ⟨by decide, by decide⟩ (by decide) false o (by omega)
              rw [← e] at this
              omega
            · rw [if_neg q] at e ⊢
              have : (if o.last < 0 then 0 else o.last) = 0 := by split <;> omega
              rw [this] at e
              have := set_zero c.hw c.kind hp.good.1 0 0 x.now false o
              rw [← e] at this
              omega
          · rw [if_neg p] at e ⊢
            by_cases q : x.t1 > x.spHeat + c.band.2
            · rw [if_pos q] at e ⊢
              rw [if_neg (by decide)] at e
              have := set_zero c.hw c.kind hp.good.1 0 0 x.now false o
              rw [← e] at this
              omega
            · rw [if_neg q] at e ⊢
              rw [if_neg (by omega), set_same] at e
              rw [e]
        have nl2 : o'.last ≥ 0 ∨ o'.last = -111 := by
          rw [nl]; repeat' split <;> omega
      · exact nl2
      · have F'' := F' nl2
        have : (twoPoint c.band.1 c.band.2 on x.t1 x.spHeat = true) ↔ o'.last > 0 := by
          rw [nl, ← he]
          unfold twoPoint
          have b1 := hb.1
          have b2 := hb.2
          generalize c.band.1 = lo at *
          generalize c.band.2 = hi at *
          by_cases p : o.last ≤ 0
          · have hoff : heatingOn c.kind o = false := by
              cases hq : heatingOn c.kind o with
              | false => rfl
              | true => have := F.1 hq; omega
            rw [if_pos p, hoff]
            by_cases q : x.t1 < x.spHeat - lo
            · rw [if_pos q, if_pos q]; simp
            · rw [if_neg q, if_neg q]; simp
          · have honn : heatingOn c.kind o = true := F.2 (by omega)
            rw [if_neg p, honn]
            by_cases q : x.t1 > x.spHeat + hi
            · rw [if_pos q, if_neg (by omega), if_pos q]; simp
            · rw [if_neg q]
              by_cases q2 : x.t1 < x.spHeat - lo
              · rw [if_pos q2]; simp; omega
              · rw [if_neg q2, if_neg q]; simp; omega
        exact Bool.eq_iff_iff.2 (F''.trans this.symm)
  exact key xs Out.init false hx (shown_init _ _) (Or.inr rfl) (by rcases hk with z | z <;> rw [z] <;> rfl)


/-- In COOL mode, with no minimum times, the cooler is exactly a two-point controller. -/
theorem cooling_is_two_point (c : Cfg) (hp : Plain c) (hk : c.kind = .cool ∨ c.kind = .both)
    (hon : c.minOn = 0) (hoff : c.minOff = 0) (xs : List Tick)
    (hx : ∀ x ∈ xs, x.mode = .cool ∧ validT x.t1 = true ∧ validT x.spCool = true ∧ x.forcedOff = false) :
    coolingOn c.hw c.kind (xs.foldl (tick c) Out.init) =
      xs.foldl (fun on x => twoPointCool c.band.1 c.band.2 on x.t1 x.spCool) false := by
  have hb := band_nonneg c hp.hyst
  have key : ∀ (xs : List Tick) (o : Out) (on : Bool),
      (∀ x ∈ xs, x.mode = .cool ∧ validT x.t1 = true ∧ validT x.spCool = true ∧ x.forcedOff = false) →
      Shown c.hw c.kind o → o.last ≤ 0 → coolingOn c.hw c.kind o = on →
      coolingOn c.hw c.kind (xs.foldl (tick c) o) =
        xs.foldl (fun on x => twoPointCool c.band.1 c.band.2 on x.t1 x.spCool) on := by
    intro xs
    induction xs with
    | nil => intro o on _ _ _ h; exact h
    | cons x xs ih =>
      intro o on hx hs hl he
      obtain ⟨m, v1, v2, ff⟩ := hx x (List.mem_cons_self ..)
      have hs' : Shown c.hw c.kind (tick c o x) := pass_shown c hp.good false o x hs
      refine ih (tick c o x) _ (fun y hy => hx y (List.mem_cons_of_mem _ hy)) hs' ?_ ?_
      all_goals
        have e := tick_plain c hp o x v1 ff
        rw [m] at e
        dsimp only at e
        rw [evalCool_eq c hp.internal hp.algo (validT_of_nonneg hp.hyst) _ _ _ v1 v2] at e
        have hkc : c.kind ≠ .heat := by rcases hk with z | z <;> rw [z] <;> decide
        have on_iff : ∀ o : Out, Shown c.hw c.kind o →
            (coolingOn c.hw c.kind o = true ↔ o.last < 0 ∧ o.last ≠ -111) := by
          intro o hs
          rcases hs.2 with ⟨z1, z2, z3⟩ | ⟨z1, z2, z3, _⟩
          · rw [z1]
            constructor
            · intro q
              unfold coolingOn at q
              rcases hk with z | z <;> rw [z] at q <;> cases hq : c.hw.hasSec <;> simp [z2, z3, hq] at q
            · intro q; omega
          · rw [z3]
            have := z1.1
            exact ⟨fun q => ⟨q.1, by omega⟩, fun q => ⟨q.1, hkc⟩⟩
        have F := on_iff o hs
        have F' := on_iff _ hs'
        generalize tick c o x = o' at *
        unfold Cfg.set at e
        rw [hon, hoff] at e
        have r : InRange o.last ∨ o.last = -111 := by
          rcases hs.2 with ⟨z1, _⟩ | ⟨z1, _⟩
          · exact Or.inr z1
          · exact Or.inl z1
        have b1 := hb.1
        have b2 := hb.2
        have nl : o'.last = (if o.last < 0 ∧ x.t1 < x.spCool - c.band.2 then 0
            else if (o.last ≥ 0 ∨ o.last = -111) ∧ x.t1 > x.spCool + c.band.1 then -100 else o.last) := by
          by_cases p : o.last < 0 ∧ x.t1 < x.spCool - c.band.2
          · rw [if_pos p] at e ⊢
            rw [if_neg (by decide)] at e
            have := set_zero c.hw c.kind hp.good.1 0 0 x.now false o
            rw [← e] at this
            omega
          · rw [if_neg p] at e ⊢
            by_cases q : (o.last ≥ 0 ∨ o.last = -111) ∧ x.t1 > x.spCool + c.band.1
            · rw [if_pos q] at e ⊢
              rw [if_neg (by decide)] at e
              have := set_from_off c.hw c.kind hp.good.1 0 0 x.now (-100) ⟨by decide, by decide⟩ (by decide) false o (by omega)
              rw [← e] at this
              omega
            · rw [if_neg q] at e ⊢
              rw [if_neg (by omega), set_same] at e
              rw [e]
        have nl2 : o'.last ≤ 0 := by
          rw [nl]; repeat' split <;> omega
      · exact nl2
      · have : (twoPointCool c.band.1 c.band.2 on x.t1 x.spCool = true) ↔ o'.last < 0 ∧ o'.last ≠ -111 := by
          rw [nl, ← he]
          unfold twoPointCool
          generalize c.band.1 = lo at *
          generalize c.band.2 = hi at *
          by_cases p : o.last < 0 ∧ x.t1 < x.spCool - hi
          · rw [if_pos p, if_neg (by omega), if_pos p.2]; simp
          · rw [if_neg p]
            by_cases q : x.t1 > x.spCool + lo
            · rw [if_pos q]
              by_cases w : o.last ≥ 0 ∨ o.last = -111
              · rw [if_pos ⟨w, q⟩]; simp
              · rw [if_neg (by omega)]; simp; omega
            · rw [if_neg q, if_neg (show ¬ ((o.last ≥ 0 ∨ o.last = -111) ∧ x.t1 > x.spCool + lo) by omega)]
              by_cases w : x.t1 < x.spCool - hi
              · rw [if_pos w]; simp; omega
              · rw [if_neg w]; exact F
        exact Bool.eq_iff_iff.2 (F'.trans this.symm)
  exact key xs Out.init false hx (shown_init _ _) (by decide)
    (by rcases hk with z | z <;> rw [z] <;> cases hq : c.hw.hasSec <;> simp [coolingOn, hq, Out.init])

/-- A configuration that meets the hypotheses: a heating thermostat with a hysteresis of 0.4 degrees
around the set point. -/
def exHeat : Cfg := { kind := .heat, differential := false, hw := ⟨true, false, true, true⟩, internal := true, minOn := 0, minOff := 0, onError := 0, algo := .middle, hyst := 40, hystMin := 20, protect := false, tFreeze := noTemp, tOverheat := noTemp, auxOn := false, auxMin := noTemp, auxMax := noTemp }

theorem exHeat_plain : Plain exHeat :=
  ⟨⟨⟨rfl, by decide, by decide⟩, by decide, by decide⟩, rfl, by decide, by decide, rfl, rfl, rfl⟩

/-- At 20.0 with a set point of 21.0 it heats, at 21.1 it still heats, at 21.3 it stops. -/
example :
    let x (now : Nat) (t : Int) : Tick := ⟨now, .heat, 2100, noTemp, t, noTemp, false, false⟩
    heatingOn .heat ([x 40000 2000].foldl (tick exHeat) Out.init) = true ∧
    heatingOn .heat ([x 40000 2000, x 41000 2110].foldl (tick exHeat) Out.init) = true ∧
    heatingOn .heat ([x 40000 2000, x 41000 2110, x 42000 2130].foldl (tick exHeat) Out.init) = false := by
  decide +kernel

/-! ### With minimum times: what every pass guarantees -/

/-- Too warm: after every history, a pass in HEAT mode that finds the room warmer than the set point
plus the upper distance leaves the heater off, unless the minimum on time still runs. -/
theorem stops_when_warm (c : Cfg) (hp : Plain c) (xs : List Tick) (x : Tick) (hm : x.mode = .heat)
    (h1 : validT x.t1 = true) (h2 : validT x.spHeat = true) (hf : x.forcedOff = false)
    (hw : x.t1 > x.spHeat + c.band.2) :
    let o := xs.foldl (tick c) Out.init
    active c.hw c.kind (tick c o x) = true → since (clk x.now) o.stamp < c.minOn * 1000 := by
  intro o ha
  have hs : Shown c.hw c.kind o := ticks_shown c hp.good xs
  have hs' := pass_shown c hp.good false o x hs
  have A := (active_shown _ _ _ hs').1 ha
  have e := tick_plain c hp o x h1 hf
  have hb := band_nonneg c hp.hyst
  rw [hm] at e
  dsimp only at e
  rw [evalHeat_eq c hp.internal hp.algo (validT_of_nonneg hp.hyst) _ _ _ h1 h2] at e
  have v0 : (if (if o.last ≤ 0 then (if x.t1 < x.spHeat - c.band.1 then 100 else o.last)
      else (if x.t1 > x.spHeat + c.band.2 then 0 else o.last)) < 0 then 0
      else (if o.last ≤ 0 then (if x.t1 < x.spHeat - c.band.1 then 100 else o.last)
      else (if x.t1 > x.spHeat + c.band.2 then 0 else o.last))) = 0 := by
    repeat' split <;> omega
  rw [v0] at e
  have z := set_zero c.hw c.kind hp.good.1 c.minOn c.minOff x.now false o
  have e' : tick c o x = setOutput c.hw c.kind c.minOn c.minOff x.now 0 false o := e
  rw [← e'] at z
  rcases z with z | z
  · have A1 : (tick c o x).last > 0 ∨ (tick c o x).last < 0 := by
      rcases A with q | q
      · exact Or.inl q.1
      · exact Or.inr q.2.1
    omega
  · exact z.2.1

/-- Too cold: a pass in HEAT mode that finds the room colder than the set point minus the lower
distance leaves the heater on, unless the minimum off time still runs or the thermostat was
cooling. -/
theorem starts_when_cold (c : Cfg) (hp : Plain c) (hk : c.kind = .heat ∨ c.kind = .both)
    (xs : List Tick) (x : Tick) (hm : x.mode = .heat)
    (h1 : validT x.t1 = true) (h2 : validT x.spHeat = true) (hf : x.forcedOff = false)
    (hw : x.t1 < x.spHeat - c.band.1) :
    let o := xs.foldl (tick c) Out.init
    (o.last = -111 ∨ o.last ≥ 0) → heatingOn c.kind (tick c o x) = false →
      since (clk x.now) o.stamp < c.minOff * 1000 := by
  intro o hl ha
  have hs : Shown c.hw c.kind o := ticks_shown c hp.good xs
  have hs' : Shown c.hw c.kind (tick c o x) := pass_shown c hp.good false o x hs
  have e := tick_plain c hp o x h1 hf
  have hb := band_nonneg c hp.hyst
  have hkc : c.kind ≠ .cool := by rcases hk with z | z <;> rw [z] <;> decide
  have nh : ¬ (InRange (tick c o x).last ∧ (tick c o x).last > 0) := by
    intro q
    rcases hs'.2 with ⟨y, _⟩ | ⟨_, y, _⟩
    · omega
    · have := y.2 ⟨q.2, hkc⟩
      rw [ha] at this
      cases this
  rw [hm] at e
  dsimp only at e
  rw [evalHeat_eq c hp.internal hp.algo (validT_of_nonneg hp.hyst) _ _ _ h1 h2] at e
  by_cases p : o.last ≤ 0
  · rw [if_pos p, if_pos hw, if_neg (by decide)] at e
    have z := set_from_off c.hw c.kind hp.good.1 c.minOn c.minOff x.now 100 ⟨by decide, by decide⟩ (by decide) false o (by omega)
    have e' : tick c o x = setOutput c.hw c.kind c.minOn c.minOff x.now 100 false o := e
    rw [← e'] at z
    rcases z with z | z
    · exact absurd ⟨by rw [z]; exact ⟨by decide, by decide⟩, by omega⟩ nh
    · exact z.2.1
  · exfalso
    rw [if_neg p, if_neg (by omega), if_neg (by omega)] at e
    have e' : tick c o x = o := by
      rw [e]; exact set_same ..
    rw [e'] at nh
    apply nh
    rcases hs.2 with ⟨y, _⟩ | ⟨y, _⟩
    · omega
    · exact ⟨y, by omega⟩

/-- HEAT mode never cools and COOL mode never heats: an output of the other kind that is found on
(it can be, just after a change of mode) is switched off by the pass, unless the minimum on time
still runs. -/
theorem mode_respected (c : Cfg) (hp : Plain c) (xs : List Tick) (x : Tick)
    (h1 : validT x.t1 = true) (h2 : validT x.spHeat = true) (h3 : validT x.spCool = true)
    (hf : x.forcedOff = false) :
    let o := xs.foldl (tick c) Out.init
    (x.mode = .heat → coolingOn c.hw c.kind (tick c o x) = true →
      coolingOn c.hw c.kind o = true ∧ since (clk x.now) o.stamp < c.minOn * 1000) ∧
    (x.mode = .cool → heatingOn c.kind (tick c o x) = true →
      heatingOn c.kind o = true ∧ since (clk x.now) o.stamp < c.minOn * 1000) := by
  intro o
  have hs : Shown c.hw c.kind o := ticks_shown c hp.good xs
  have hs' : Shown c.hw c.kind (tick c o x) := pass_shown c hp.good false o x hs
  have e := tick_plain c hp o x h1 hf
  have r : InRange o.last ∨ o.last = -111 := by
    rcases hs.2 with ⟨z1, _⟩ | ⟨z1, _⟩
    · exact Or.inr z1
    · exact Or.inl z1
  constructor
  · intro hm ha
    rw [hm] at e
    dsimp only at e
    rw [evalHeat_eq c hp.internal hp.algo (validT_of_nonneg hp.hyst) _ _ _ h1 h2] at e
    have neg : (tick c o x).last < 0 := by
      rcases hs'.2 with ⟨z, _⟩ | ⟨_, _, z, _⟩
      · omega
      · exact (z.1 ha).1
    by_cases p : o.last ≤ 0
    · by_cases q : x.t1 < x.spHeat - c.band.1
      · rw [if_pos p, if_pos q, if_neg (by decide)] at e
        have eff := setOutput_eff c.hw c.kind hp.good.1 c.minOn c.minOff x.now 100 false o
        have e' : setOutput c.hw c.kind c.minOn c.minOff x.now 100 false o = tick c o x := e.symm
        dsimp only at eff
        rw [e'] at eff
        have same : (tick c o x).last = o.last ∧ o.last < 0 := by omega
        -- refused because of the minimum on time
        have := setOutput_eff c.hw c.kind hp.good.1 c.minOn c.minOff x.now 100 false o
        have hn : -100 ≤ o.last := by
          rcases r with r | r
          · exact r.1
          · exfalso
            have z := set_from_off c.hw c.kind hp.good.1 c.minOn c.minOff x.now 100 ⟨by decide, by decide⟩ (by decide) false o (Or.inr r)
            rw [e'] at z
            omega
        have t : since (clk x.now) o.stamp < c.minOn * 1000 ∧ tick c o x = o := by
          rw [← e']
          unfold setOutput choose
          have hlast := same.2
          have e1 : ¬ o.last = 100 := by omega
          by_cases w : since (clk x.now) o.stamp < c.minOn * 1000
          · refine ⟨w, ?_⟩
            rw [if_neg (by simp [hp.good.1.1]), if_neg e1, if_neg e1]
            dsimp only
            rw [if_neg (show ¬ o.last < -100 by omega), if_neg (by omega), if_neg (by omega), if_pos (by omega),
              if_pos (by simp [w])]
          · exfalso
            have : (setOutput c.hw c.kind c.minOn c.minOff x.now 100 false o).last = 0 := by
              unfold setOutput choose
              rw [if_neg (by simp [hp.good.1.1]), if_neg e1, if_neg e1]
              dsimp only
              rw [if_neg (show ¬ o.last < -100 by omega), if_neg (by omega), if_neg (by omega), if_pos (by omega),
                if_neg (by simp; omega)]
              exact write_last ..
            rw [e'] at this
            omega
        rw [t.2] at ha
        exact ⟨ha, t.1⟩
      · have v0 : (if (if o.last ≤ 0 then (if x.t1 < x.spHeat - c.band.1 then 100 else o.last)
            else (if x.t1 > x.spHeat + c.band.2 then 0 else o.last)) < 0 then 0
            else (if o.last ≤ 0 then (if x.t1 < x.spHeat - c.band.1 then 100 else o.last)
            else (if x.t1 > x.spHeat + c.band.2 then 0 else o.last))) = 0 := by
          rw [if_pos p, if_neg q]; split <;> omega
        rw [v0] at e
        have z := set_zero c.hw c.kind hp.good.1 c.minOn c.minOff x.now false o
        have e' : tick c o x = setOutput c.hw c.kind c.minOn c.minOff x.now 0 false o := e
        rw [← e'] at z
        rcases z with z | ⟨_, z1, z2, _⟩
        · omega
        · rw [z2] at ha
          exact ⟨ha, z1⟩
    · exfalso
      by_cases q : x.t1 > x.spHeat + c.band.2
      · rw [if_neg p, if_pos q, if_neg (by decide)] at e
        have z := set_zero c.hw c.kind hp.good.1 c.minOn c.minOff x.now false o
        have e' : tick c o x = setOutput c.hw c.kind c.minOn c.minOff x.now 0 false o := e
        rw [← e'] at z
        rcases z with z | ⟨_, _, z2, _⟩
        · omega
        · rw [z2] at neg; omega
      · rw [if_neg p, if_neg q, if_neg (by omega)] at e
        have : tick c o x = o := by rw [e]; exact set_same ..
        rw [this] at neg
        omega
  · intro hm ha
    rw [hm] at e
    dsimp only at e
    rw [evalCool_eq c hp.internal hp.algo (validT_of_nonneg hp.hyst) _ _ _ h1 h3] at e
    have pos : (tick c o x).last > 0 := by
      rcases hs'.2 with ⟨_, z, z'⟩ | ⟨_, z, _, _⟩
      · exfalso
        unfold heatingOn at ha
        cases hk : c.kind <;> rw [hk] at ha <;> simp [z] at ha
      · exact (z.1 ha).1
    -- the value asked for is 0 or negative
    generalize hv : (if (if o.last < 0 ∧ x.t1 < x.spCool - c.band.2 then 0
      else if (o.last ≥ 0 ∨ o.last = -111) ∧ x.t1 > x.spCool + c.band.1 then -100 else o.last) > 0 then 0
      else (if o.last < 0 ∧ x.t1 < x.spCool - c.band.2 then 0
      else if (o.last ≥ 0 ∨ o.last = -111) ∧ x.t1 > x.spCool + c.band.1 then -100 else o.last)) = v at e
    have hv0 : v ≤ 0 := by
      rw [← hv]; repeat' split <;> omega
    have e' : setOutput c.hw c.kind c.minOn c.minOff x.now v false o = tick c o x := e.symm
    have opos : o.last > 0 := by
      have eff := setOutput_eff c.hw c.kind hp.good.1 c.minOn c.minOff x.now v false o
      dsimp only at eff
      rw [e'] at eff
      omega
    have e1 : ¬ o.last = v := by omega
    by_cases w : since (clk x.now) o.stamp < c.minOn * 1000
    · have t : tick c o x = o := by
        rw [← e']
        unfold setOutput choose
        rw [if_neg (by simp [hp.good.1.1]), if_neg e1, if_neg e1]
        dsimp only
        rw [if_neg (show ¬ o.last < -100 by omega), if_pos ⟨opos, hv0⟩, if_pos (by simp [w])]
      rw [t] at ha
      exact ⟨ha, w⟩
    · exfalso
      have : (setOutput c.hw c.kind c.minOn c.minOff x.now v false o).last = 0 := by
        unfold setOutput choose
        rw [if_neg (by simp [hp.good.1.1]), if_neg e1, if_neg e1]
        dsimp only
        rw [if_neg (show ¬ o.last < -100 by omega), if_pos ⟨opos, hv0⟩, if_neg (by simp; omega)]
        exact write_last ..
      rw [e'] at this
      omega

end Verif.Hvac
