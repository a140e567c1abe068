import Verif.Em.Model

/-!
# Electricity meter: theorems
-/

namespace Verif.Em

/-! ## Specification -/

/-- A reader sees a current within 0.01 A below the measured one, exactly when all three are below 65.535 A,
and 655.35 A for anything above. -/
def CurrentOk (raw read : Nat) (exact : Bool) : Prop :=
  (exact = true → read = raw) ∧ (raw ≤ 655359 → read ≤ raw ∧ raw < read + 10) ∧ (655360 ≤ raw → read = 655350)

/-- A reader sees a power within 0.01 W, exactly when all three fit, and the largest representable one of the
same sign for anything beyond. -/
def PowerOk (raw read : Int) (exact : Bool) : Prop :=
  (exact = true → read = raw) ∧
  (-2147483648000 ≤ raw → raw ≤ 2147483647999 → read - raw < 1000 ∧ raw - read < 1000) ∧
  (2147483648000 ≤ raw → read = 2147483647000) ∧ (raw < -2147483648000 → read ≤ -2147483647000)

/-- The claim for the powers. -/
def PowerShown : Prop := ∀ ops p v, p < 3 → -9223372036854775808 ≤ v → v ≤ 9223372036854775807 →
  PowerOk v (readPower (update (run (ops ++ [.setPower p v]) {})) p)
    ((run (ops ++ [.setPower p v]) {}).power.all fun r => -2147483648 ≤ r ∧ r ≤ 2147483647)

/-! ## Structure -/

/-- Three phases; a quantity that was not set is zero. -/
structure Inv (s : S) : Prop where
  lc : s.current.length = 3
  lp : s.power.length = 3
  zc : s.currentSet = false → s.current = [0, 0, 0]
  zp : s.powerSet = false → s.power = [0, 0, 0]

theorem step_inv {s : S} {op : Op} (h : Inv s) : Inv (step s op) := by
  obtain ⟨h1, h2, h3, h4⟩ := h
  cases op with
  | setCurrent p v =>
    simp only [step, setCurrent]
    split
    · exact ⟨by simpa using h1, h2, fun a => Bool.noConfusion a, h4⟩
    · exact ⟨h1, h2, h3, h4⟩
  | setPower p v =>
    simp only [step, setPower]
    split
    · exact ⟨h1, by simpa using h2, h3, fun a => Bool.noConfusion a⟩
    · exact ⟨h1, h2, h3, h4⟩
  | setOther => exact ⟨h1, h2, h3, h4⟩
  | reset =>
    simp only [step, reset]
    split
    · exact ⟨rfl, rfl, fun _ => rfl, fun _ => rfl⟩
    · exact ⟨h1, h2, h3, h4⟩
  | resetPhase p =>
    simp only [step, resetPhase]
    split
    · rename_i hp
      have hz : p = 0 ∨ p = 1 ∨ p = 2 := by omega
      refine ⟨by simpa using h1, by simpa using h2, fun a => ?_, fun a => ?_⟩
      · show s.current.set p 0 = _
        rw [h3 a]
        rcases hz with rfl | rfl | rfl <;> rfl
      · show s.power.set p 0 = _
        rw [h4 a]
        rcases hz with rfl | rfl | rfl <;> rfl
    · exact ⟨h1, h2, h3, h4⟩
  | update =>
    refine ⟨by simpa [step, update] using h1, by simpa [step, update] using h2, fun a => ?_, fun a => ?_⟩
    · show s.current.map capCurrent = _
      rw [h3 a]; rfl
    · show s.power.map capPower = _
      rw [h4 a]; rfl

theorem run_inv (ops : List Op) (s : S) (h : Inv s) : Inv (run ops s) := by
  induction ops generalizing s with
  | nil => exact h
  | cons op ops ih => exact ih _ (step_inv h)

theorem init_inv : Inv {} := ⟨rfl, rfl, fun _ => rfl, fun _ => rfl⟩

theorem any_getD {l : List Nat} {p : Nat} (f : Nat → Bool) (hp : p < l.length) (h : l.any f = false) : f (l.getD p 0) = false := by
  rw [List.any_eq_false] at h
  have := h (l.getD p 0) (by rw [List.getD_eq_getElem?_getD, List.getElem?_eq_getElem hp]; exact List.getElem_mem hp)
  simpa using this

theorem any_getDi {l : List Int} {p : Nat} (f : Int → Bool) (hp : p < l.length) (h : l.any f = false) : f (l.getD p 0) = false := by
  rw [List.any_eq_false] at h
  have := h (l.getD p 0) (by rw [List.getD_eq_getElem?_getD, List.getElem?_eq_getElem hp]; exact List.getElem_mem hp)
  simpa using this

theorem getD_map {α β} (f : α → β) (l : List α) (p : Nat) (a : α) (b : β) (hp : p < l.length) :
    (l.map f).getD p b = f (l.getD p a) := by
  simp [List.getD_eq_getElem?_getD, List.getElem?_eq_getElem hp]

/-! ## Currents -/

theorem readCurrent_update {s : S} (hi : Inv s) (p : Nat) (hp : p < 3) :
    readCurrent (update s) p =
      if over s.current then capCurrent (s.current.getD p 0) / 10 % 65536 * 10 else s.current.getD p 0 % 65536 := by
  have hl : p < s.current.length := by rw [hi.lc]; exact hp
  unfold readCurrent
  have ho : (update s).outCurrent.getD p 0 =
      (if over s.current then capCurrent (s.current.getD p 0) / 10 % 65536 else capCurrent (s.current.getD p 0) % 65536) := by
    show (((s.current.map capCurrent).map fun r => if over s.current then r / 10 % 65536 else r % 65536)).getD p 0 = _
    rw [getD_map _ _ p 0 0 (by simpa using hl), getD_map capCurrent _ p 0 0 hl]
  rw [ho]
  have hb : (update s).bitA65 = (if s.currentSet then over s.current else s.bitA65) := rfl
  cases hov : over s.current with
  | true =>
    have hcs : s.currentSet = true := by
      cases hc : s.currentSet with
      | true => rfl
      | false => rw [hi.zc hc] at hov; revert hov; decide
    rw [hb, hcs, hov]
    rfl
  | false =>
    have hf := any_getD (fun x => decide (x > 65534)) hl hov
    have hle : s.current.getD p 0 ≤ 65534 := by simpa using hf
    have hcap : capCurrent (s.current.getD p 0) = s.current.getD p 0 := by
      unfold capCurrent
      rw [if_neg (by omega)]
    rw [hb, hcap]
    cases hc : s.currentSet with
    | true => rw [hov]; simp
    | false =>
      have hz : s.current.getD p 0 = 0 := by
        rw [hi.zc hc]
        have : p = 0 ∨ p = 1 ∨ p = 2 := by omega
        rcases this with rfl | rfl | rfl <;> rfl
      rw [hz]
      simp

/-- The current that was set is the current that the server reads, within the scale, for every history of the
driver before it. -/
theorem current_shown (ops : List Op) (p v : Nat) (hp : p < 3) :
    CurrentOk v (readCurrent (update (run (ops ++ [.setCurrent p v]) {})) p)
      ((run (ops ++ [.setCurrent p v]) {}).current.all (· ≤ 65534)) := by
  have hi := run_inv (ops ++ [.setCurrent p v]) {} init_inv
  rw [readCurrent_update hi p hp]
  have hv : (run (ops ++ [.setCurrent p v]) {}).current.getD p 0 = v := by
    have hi0 := run_inv ops {} init_inv
    have : run (ops ++ [.setCurrent p v]) {} = setCurrent p v (run ops {}) := by
      simp [run, List.foldl_append, step]
    rw [this]
    unfold setCurrent
    rw [if_pos hp]
    have hl : p < (run ops {}).current.length := by rw [hi0.lc]; exact hp
    show ((run ops {}).current.set p v).getD p 0 = v
    rw [List.getD_eq_getElem?_getD, List.getElem?_set_self hl]
    rfl
  generalize run (ops ++ [.setCurrent p v]) {} = s at hi hv
  rw [hv]
  have hall : s.current.all (· ≤ 65534) = true → over s.current = false := by
    intro h
    rw [List.all_eq_true] at h
    unfold over
    rw [List.any_eq_false]
    intro x hx
    have := h x hx
    simp at this ⊢
    exact this
  have hov : over s.current = false → v ≤ 65534 := by
    intro h
    have := any_getD (p := p) (fun x => decide (x > 65534)) (by rw [hi.lc]; exact hp) h
    rw [hv] at this
    simpa using this
  generalize over s.current = o at hall hov
  have hcap : capCurrent v = v ∧ v ≤ 655359 ∨ capCurrent v = 655350 ∧ 655360 ≤ v := by
    unfold capCurrent
    split
    · split
      · right; exact ⟨rfl, by omega⟩
      · left; exact ⟨rfl, by omega⟩
    · left; exact ⟨rfl, by omega⟩
  cases o with
  | true =>
    refine ⟨fun h => ?_, fun h => ?_, fun h => ?_⟩
    · cases hall h
    · rw [if_pos rfl]
      rcases hcap with ⟨hc, _⟩ | ⟨_, hc⟩
      · rw [hc]; omega
      · omega
    · rw [if_pos rfl]
      rcases hcap with ⟨_, hc⟩ | ⟨hc, _⟩
      · omega
      · rw [hc]
  | false =>
    have := hov rfl
    rw [if_neg (by simp)]
    refine ⟨fun _ => ?_, fun _ => ?_, fun h => ?_⟩
    · omega
    · omega
    · omega

example : readCurrent (update (run [.setCurrent 0 70001, .setCurrent 1 5] {})) 0 = 70000 := by decide +kernel

/-- A current that was set is announced, in one scale. -/
theorem current_announced (ops : List Op) (p v : Nat) (hp : p < 3) :
    currentUsed (update (run (ops ++ [.setCurrent p v]) {})) = true ∧
    (update (run (ops ++ [.setCurrent p v]) {})).bitA ≠ (update (run (ops ++ [.setCurrent p v]) {})).bitA65 := by
  have : (run (ops ++ [.setCurrent p v]) {}).currentSet = true := by
    have : run (ops ++ [.setCurrent p v]) {} = setCurrent p v (run ops {}) := by
      simp [run, List.foldl_append, step]
    rw [this]
    unfold setCurrent
    rw [if_pos hp]
  generalize run (ops ++ [.setCurrent p v]) {} = s at this
  have h1 : (update s).bitA = !over s.current := by
    show (if s.currentSet then !over s.current else s.bitA) = _
    rw [this]; rfl
  have h2 : (update s).bitA65 = over s.current := by
    show (if s.currentSet then over s.current else s.bitA65) = _
    rw [this]; rfl
  unfold currentUsed
  rw [h1, h2]
  cases over s.current <;> decide

/-! ## Powers -/

theorem toI32_id {x : Int} (h1 : -2147483648 ≤ x) (h2 : x ≤ 2147483647) : toI32 x = x := by
  unfold toI32
  omega

theorem readPower_update {s : S} (hi : Inv s) (p : Nat) (hp : p < 3) :
    readPower (update s) p =
      if overKW s.power then toI32 ((capPower (s.power.getD p 0)).tdiv 1000) * 1000 else toI32 (s.power.getD p 0) := by
  have hl : p < s.power.length := by rw [hi.lp]; exact hp
  unfold readPower
  have ho : (update s).outPower.getD p 0 =
      (if overKW s.power then toI32 ((capPower (s.power.getD p 0)).tdiv 1000) else toI32 (capPower (s.power.getD p 0))) := by
    show (((s.power.map capPower).map fun r => if overKW s.power then toI32 (r.tdiv 1000) else toI32 r)).getD p 0 = _
    rw [getD_map _ _ p 0 0 (by simpa using hl), getD_map capPower _ p 0 0 hl]
  rw [ho]
  have hb : (update s).bitKW = (if s.powerSet then overKW s.power else s.bitKW) := rfl
  cases hov : overKW s.power with
  | true =>
    have hcs : s.powerSet = true := by
      cases hc : s.powerSet with
      | true => rfl
      | false => rw [hi.zp hc] at hov; revert hov; decide
    rw [hb, hcs, hov]
    rfl
  | false =>
    have hf := any_getDi (fun r => decide (r > 2147483647 ∨ r < -2147483648)) hl hov
    have hle : ¬ (s.power.getD p 0 > 2147483647 ∨ s.power.getD p 0 < -2147483648) := by simpa using hf
    have hcap : capPower (s.power.getD p 0) = s.power.getD p 0 := by
      unfold capPower
      rw [if_neg hle]
    rw [hb, hcap]
    cases hc : s.powerSet with
    | true => rw [hov]; simp
    | false =>
      have hz : s.power.getD p 0 = 0 := by
        rw [hi.zp hc]
        have : p = 0 ∨ p = 1 ∨ p = 2 := by omega
        rcases this with rfl | rfl | rfl <;> rfl
      rw [hz]
      simp [toI32]

theorem setPower_val (ops : List Op) (p : Nat) (v : Int) (hp : p < 3) :
    (run (ops ++ [.setPower p v]) {}).power.getD p 0 = v ∧ (run (ops ++ [.setPower p v]) {}).powerSet = true := by
  have hi0 := run_inv ops {} init_inv
  have : run (ops ++ [.setPower p v]) {} = setPower p v (run ops {}) := by
    simp [run, List.foldl_append, step]
  rw [this]
  unfold setPower
  rw [if_pos hp]
  have hl : p < (run ops {}).power.length := by rw [hi0.lp]; exact hp
  refine ⟨?_, rfl⟩
  show ((run ops {}).power.set p v).getD p 0 = v
  rw [List.getD_eq_getElem?_getD, List.getElem?_set_self hl]
  rfl

/-- The power that was set is the power that the server reads, within the scale, for every history before it, unless
it is below -21474.83648 kW. -/
theorem power_shown_partial (ops : List Op) (p : Nat) (v : Int) (hp : p < 3) (hv1 : -2147483648999 ≤ v)
    (hv2 : v ≤ 9223372036854775807) :
    PowerOk v (readPower (update (run (ops ++ [.setPower p v]) {})) p)
      ((run (ops ++ [.setPower p v]) {}).power.all fun r => -2147483648 ≤ r ∧ r ≤ 2147483647) := by
  have hi := run_inv (ops ++ [.setPower p v]) {} init_inv
  rw [readPower_update hi p hp]
  have hv := (setPower_val ops p v hp).1
  generalize run (ops ++ [.setPower p v]) {} = s at hi hv
  rw [hv]
  have hall : (s.power.all fun r => decide (-2147483648 ≤ r ∧ r ≤ 2147483647)) = true → overKW s.power = false := by
    intro h
    rw [List.all_eq_true] at h
    unfold overKW
    rw [List.any_eq_false]
    intro x hx
    have := h x hx
    simp at this ⊢
    omega
  have hov : overKW s.power = false → -2147483648 ≤ v ∧ v ≤ 2147483647 := by
    intro h
    have := any_getDi (p := p) (fun r => decide (r > 2147483647 ∨ r < -2147483648)) (by rw [hi.lp]; exact hp) h
    rw [hv] at this
    have := of_decide_eq_false this
    omega
  generalize overKW s.power = o at hall hov
  have hcap : capPower v = v ∧ v ≤ 2147483647999 ∨ capPower v = 2147483647000 ∧ 2147483648000 ≤ v := by
    have hd : v.tdiv 1000 > 2147483647 ↔ 2147483648000 ≤ v := by
      rcases Int.le_total 0 v with h | h
      · rw [Int.tdiv_eq_ediv_of_nonneg h]; omega
      · have : v.tdiv 1000 ≤ 0 := by
          rw [Int.tdiv_eq_ediv]
          rw [show Int.sign 1000 = 1 from rfl]
          split <;> omega
        omega
    unfold capPower
    split
    · split
      · right
        rename_i h
        have := hd.mp h
        rw [if_neg (by omega)]
        exact ⟨by decide, this⟩
      · left
        rename_i h
        rw [hd] at h
        exact ⟨rfl, by omega⟩
    · left; exact ⟨rfl, by omega⟩
  have htd : ∀ w : Int, -2147483648999 ≤ w → w ≤ 2147483647999 → toI32 (w.tdiv 1000) = w.tdiv 1000 ∧
      w.tdiv 1000 * 1000 - w < 1000 ∧ w - w.tdiv 1000 * 1000 < 1000 ∧ (0 ≤ w → w.tdiv 1000 * 1000 ≤ w) ∧ (w ≤ 0 → w ≤ w.tdiv 1000 * 1000) := by
    intro w h1 h2
    have hq : ∃ q : Int, w.tdiv 1000 = q ∧ -2147483648 ≤ q ∧ q ≤ 2147483647 ∧ q * 1000 - w < 1000 ∧ w - q * 1000 < 1000 ∧
        (0 ≤ w → q * 1000 ≤ w) ∧ (w ≤ 0 → w ≤ q * 1000) := by
      refine ⟨_, rfl, ?_⟩
      rw [Int.tdiv_eq_ediv, show Int.sign 1000 = 1 from rfl]
      split <;> omega
    obtain ⟨q, hq, h3, h4, h5, h6, h7, h8⟩ := hq
    rw [hq]
    exact ⟨toI32_id h3 h4, h5, h6, h7, h8⟩
  cases o with
  | true =>
    rw [if_pos rfl]
    refine ⟨fun h => ?_, fun a b => ?_, fun a => ?_, fun a => ?_⟩
    · cases hall h
    · rcases hcap with ⟨hc, _⟩ | ⟨_, hc⟩
      · rw [hc]
        obtain ⟨e, e1, e2, _⟩ := htd v hv1 b
        rw [e]
        exact ⟨e1, e2⟩
      · omega
    · rcases hcap with ⟨_, hc⟩ | ⟨hc, _⟩
      · omega
      · rw [hc]; decide
    · rcases hcap with ⟨hc, hb⟩ | ⟨_, hc⟩
      · rw [hc]
        obtain ⟨e, e1, e2, e3, e4⟩ := htd v hv1 hb
        rw [e]
        omega
      · omega
  | false =>
    obtain ⟨h1, h2⟩ := hov rfl
    rw [if_neg (by simp), toI32_id h1 h2]
    refine ⟨fun _ => rfl, fun _ _ => ?_, fun _ => ?_, fun _ => ?_⟩ <;> omega

example : readPower (update (run [.setPower 2 (-3000000500)] {})) 2 = -3000000000 := by decide +kernel

/-- A power below that wraps around: -21474.84 kW is shown as +21474.83 kW. -/
theorem negative_power_violation : ¬ PowerShown := by
  intro h
  have := (h [] 0 (-2147484648000) (by decide) (by decide) (by decide)).2.2.2 (by decide)
  revert this
  decide +kernel

/-- A power that was set is announced to MQTT. -/
def PowerAnnounced : Prop := ∀ ops p v, p < 3 → powerUsed (update (run (ops ++ [.setPower p v]) {})) = true

/-- It is, when the three powers fit the fine scale. -/
theorem power_announced_partial (ops : List Op) (p : Nat) (v : Int) (hp : p < 3)
    (h : ∀ r ∈ (run (ops ++ [.setPower p v]) {}).power, -2147483648 ≤ r ∧ r ≤ 2147483647) :
    powerUsed (update (run (ops ++ [.setPower p v]) {})) = true := by
  have hs := (setPower_val ops p v hp).2
  generalize run (ops ++ [.setPower p v]) {} = s at hs h
  have ho : overKW s.power = false := by
    unfold overKW
    rw [List.any_eq_false]
    intro x hx
    have := h x hx
    simp
    omega
  show (if s.powerSet then !overKW s.power else s.bitW) = true
  rw [hs, ho]
  rfl

example : ∀ r ∈ (run ([.setPower 1 7] ++ [.setPower 0 2147483647]) {}).power, -2147483648 ≤ r ∧ r ≤ 2147483647 := by decide +kernel

/-- As soon as one phase is above 21.47483647 kW, the power of no phase is announced. -/
theorem power_hidden_violation : ¬ PowerAnnounced := by
  intro h
  have := h [.setPower 1 100] 0 2147483648 (by decide)
  revert this
  decide +kernel

/-- The function that reads the power is defined whatever was measured. -/
def PowerDefined : Prop := ∀ ops p, (getPower (update (run ops {})) p).isSome

/-- Reading it above 21.474836 kW overflows. -/
theorem power_overflow_violation : ¬ PowerDefined := by
  intro h
  have := h [.setPower 0 2147484000] 0
  revert this
  decide +kernel

/-- In the fine scale it is defined and right. -/
theorem power_defined_partial (s : S) (hi : Inv s) (p : Nat) (hp : p < 3) (hs : s.powerSet = true)
    (h : ∀ r ∈ s.power, -2147483648 ≤ r ∧ r ≤ 2147483647) :
    getPower (update s) p = some (s.power.getD p 0) := by
  have ho : overKW s.power = false := by
    unfold overKW
    rw [List.any_eq_false]
    intro x hx
    have := h x hx
    simp
    omega
  have hb : (update s).bitKW = false := by
    show (if s.powerSet then overKW s.power else s.bitKW) = _
    rw [hs, ho]; rfl
  have hr := readPower_update hi p hp
  unfold readPower at hr
  rw [hb, ho] at hr
  unfold getPower
  rw [hb, if_neg (by simp)]
  simp only [Bool.false_eq_true, if_false, Int.mul_one] at hr
  rw [hr]
  have hl : p < s.power.length := by rw [hi.lp]; exact hp
  have hm : s.power.getD p 0 ∈ s.power := by
    rw [List.getD_eq_getElem?_getD, List.getElem?_eq_getElem hl]; exact List.getElem_mem hl
  have := h _ hm
  rw [toI32_id this.1 this.2]

/-! ## Publication -/

/-- After each reading the channel has the value that was read. -/
def Published (rate : Nat) : Prop := ∀ es d v, due rate (prun rate es {}) = true →
  (prun rate (es ++ [.pass d v]) {}).pub = some v

/-- The state when all readings take `d0` ms, since a registration. -/
structure Steady (d0 : Nat) (s : P) : Prop where
  shown : s.lastUpd ≠ 0 → s.pub = some s.cur
  clean : s.lastUpd ≠ 0 → s.changed = false
  time : s.lastUpd ≠ 0 → ∃ t t', t' ≤ t ∧ t ≤ s.now ∧ s.lastRead = clk t ∧ s.lastUpd = clk (t' + d0) ∧ s.pubAt = t' + d0

theorem since_shift (a b d : Nat) : since (clk (a + d)) (clk (b + d)) = since (clk a) (clk b) := by
  unfold since clk
  omega

theorem pass_steady {rate d v : Nat} {s : P} (h : Steady d s) (hd : due rate s = true)
    (ht : s.lastUpd ≠ 0 → s.now + d - s.pubAt < 2 ^ 32) :
    Steady d (pstep rate s (.pass d v)) ∧ (pstep rate s (.pass d v)).pub = some v := by
  have hdu : since (clk s.now) s.lastRead > rate * 1000 := by simpa [due] using hd
  show Steady d (if due rate s then publish rate (measure d v { s with lastRead := clk s.now }) else s) ∧
    (if due rate s then publish rate (measure d v { s with lastRead := clk s.now }) else s).pub = some v
  rw [if_pos hd]
  unfold publish
  by_cases hc : (s.changed || v ≠ s.cur) = false ∧ s.lastUpd ≠ 0
  · rw [if_pos (by exact hc)]
    obtain ⟨hch, hu⟩ := hc
    simp only [Bool.or_eq_false_iff, decide_eq_false_iff_not, Classical.not_not] at hch
    have hsh := h.shown hu
    obtain ⟨t, t', t1, t2, t3, t4, t5⟩ := h.time hu
    have hp : s.pub = some v := by rw [hsh, hch.2]
    exact ⟨⟨fun _ => hp, fun _ => by show (s.changed || v ≠ s.cur) = false; simp [hch.1, hch.2],
      fun _ => ⟨s.now, t', Nat.le_trans t1 t2, Nat.le_add_right _ _, rfl, t4, t5⟩⟩, hp⟩
  · rw [if_neg (by exact hc)]
    have hyes : s.lastUpd = 0 ∨ since (clk (s.now + d)) s.lastUpd ≥ rate * 1000 := by
      by_cases hu : s.lastUpd = 0
      · exact .inl hu
      · obtain ⟨t, t', t1, t2, t3, t4, t5⟩ := h.time hu
        have ht := ht hu
        right
        rw [t4, since_shift]
        rw [t3] at hdu
        have h1 := since_clk_le s.now t t2
        have h2 := since_clk_eq s.now t' (Nat.le_trans t1 t2) (by omega)
        omega
    rw [if_pos (by exact hyes)]
    exact ⟨⟨fun _ => rfl, fun _ => rfl, fun _ => ⟨s.now, s.now, Nat.le_refl _, Nat.le_add_right _ _, rfl, rfl, rfl⟩⟩, rfl⟩

/-- The conditions of the partial claim: readings take `d` ms, and less than 2^32 ms pass between two values given
to the channel. -/
def Regular (rate d : Nat) : List PEv → P → Prop
  | [], _ => True
  | e :: es, s => (∀ d' v, e = .pass d' v → d' = d ∧ (s.lastUpd ≠ 0 → s.now + d - s.pubAt < 2 ^ 32)) ∧
      (∀ d' v, e ≠ .init d' v) ∧ Regular rate d es (pstep rate s e)

theorem steady_run {rate d : Nat} (es : List PEv) (s : P) (h : Steady d s) (hr : Regular rate d es s) :
    Steady d (prun rate es s) := by
  induction es generalizing s with
  | nil => exact h
  | cons e es ih =>
    refine ih _ ?_ hr.2.2
    cases e with
    | wait ms =>
      refine ⟨h.shown, h.clean, fun a => ?_⟩
      obtain ⟨t, t', t1, t2, t3⟩ := h.time a
      exact ⟨t, t', t1, Nat.le_trans t2 (Nat.le_add_right _ _), t3⟩
    | registered => exact ⟨fun a => absurd rfl a, fun a => absurd rfl a, fun a => absurd rfl a⟩
    | init d' v => exact absurd rfl (hr.2.1 d' v)
    | pass d' v =>
      obtain ⟨hd, ht⟩ := hr.1 d' v rfl
      subst hd
      cases hdue : due rate s with
      | true => exact (pass_steady h hdue ht).1
      | false =>
        show Steady d' (if due rate s then publish rate (measure d' v { s with lastRead := clk s.now }) else s)
        rw [hdue]
        exact h

/-- Since a registration, in whatever state the device was then, each reading is given to the channel, when the
readings take equally long. Missing for `Published`: see the violations. -/
theorem published_partial (rate d : Nat) (s : P) (es : List PEv) (v : Nat)
    (hr : Regular rate d (es ++ [.pass d v]) (pstep rate s .registered))
    (hd : due rate (prun rate es (pstep rate s .registered)) = true) :
    (prun rate (es ++ [.pass d v]) (pstep rate s .registered)).pub = some v := by
  have h0 : Steady d (pstep rate s .registered) :=
    ⟨fun a => absurd rfl a, fun a => absurd rfl a, fun a => absurd rfl a⟩
  generalize pstep rate s .registered = s0 at h0 hr hd
  have hsplit : ∀ es s, Regular rate d (es ++ [.pass d v]) s → Regular rate d es s ∧
      ((prun rate es s).lastUpd ≠ 0 → (prun rate es s).now + d - (prun rate es s).pubAt < 2 ^ 32) := by
    intro es
    induction es with
    | nil => intro s h; exact ⟨trivial, (h.1 d v rfl).2⟩
    | cons e es ih =>
      intro s h
      exact ⟨⟨h.1, h.2.1, (ih _ h.2.2).1⟩, (ih _ h.2.2).2⟩
  obtain ⟨h1, h2⟩ := hsplit es s0 hr
  have := (pass_steady (v := v) (steady_run es s0 h0 h1) hd h2).2
  unfold prun at this ⊢
  rw [List.foldl_append, List.foldl_cons, List.foldl_nil]
  exact this

/-- Readings of 300 ms, some with a change. -/
example : due 5 (prun 5 [.wait 9000, .pass 300 4, .wait 5100, .pass 300 4, .wait 5200] {}) = true ∧
    (prun 5 [.wait 9000, .pass 300 4, .wait 5100, .pass 300 4, .wait 5200, .pass 300 9] {}).pub = some 9 := by decide +kernel

/-- The channel has `p`, the meter reads `v`, and nothing is marked. -/
def Stuck (p v : Nat) (s : P) : Prop := s.pub = some p ∧ s.changed = false ∧ s.cur = v ∧ s.lastUpd ≠ 0

theorem stuck_wait {p v ms rate : Nat} {s : P} (h : Stuck p v s) : Stuck p v (pstep rate s (.wait ms)) := h

theorem pass_cases (rate d v : Nat) (s : P) :
    pstep rate s (.pass d v) = s ∨ pstep rate s (.pass d v) = publish rate (measure d v { s with lastRead := clk s.now }) := by
  show (if due rate s then publish rate (measure d v { s with lastRead := clk s.now }) else s) = _ ∨
    (if due rate s then publish rate (measure d v { s with lastRead := clk s.now }) else s) = _
  cases due rate s
  · exact .inl rfl
  · exact .inr rfl

theorem stuck_pass {p v d rate : Nat} {s : P} (h : Stuck p v s) : Stuck p v (pstep rate s (.pass d v)) := by
  rcases pass_cases rate d v s with e | e
  · rw [e]; exact h
  · rw [e]
    obtain ⟨a, b, c, e⟩ := h
    have hch : (s.changed || v ≠ s.cur) = false := by simp [b, c]
    unfold publish
    rw [if_pos (by exact ⟨hch, e⟩)]
    exact ⟨a, hch, rfl, e⟩

/-- A reading that is 150 ms faster than the last one is not published: after a constant 10 the meter reads 20 from
then on, and the channel keeps 10 however long one waits. -/
theorem jitter_violation : ¬ Published 5 ∧
    ∀ n, (prun 5 ([.wait 9000, .pass 200 10, .wait 4801, .pass 50 20] ++
      (List.replicate n [PEv.wait 5001, .pass 50 20]).flatten) {}).pub = some 10 := by
  have h1 : Stuck 10 20 (prun 5 [.wait 9000, .pass 200 10, .wait 4801, .pass 50 20] {}) := by
    unfold Stuck
    decide +kernel
  refine ⟨fun h => ?_, fun n => ?_⟩
  · have := h [.wait 9000, .pass 200 10, .wait 4801] 50 20 (by decide +kernel)
    revert this
    decide +kernel
  · unfold prun at h1 ⊢
    rw [List.foldl_append]
    generalize List.foldl (pstep 5) {} [.wait 9000, .pass 200 10, .wait 4801, .pass 50 20] = s at h1
    induction n generalizing s with
    | zero => exact h1.1
    | succ n ih =>
      rw [List.replicate_succ, List.flatten_cons, List.foldl_append, List.foldl_cons, List.foldl_cons, List.foldl_nil]
      exact ih _ (stuck_pass (stuck_wait h1))

/-- With a reading at the start, as the library tells a driver to do, the next one is not published. -/
theorem start_violation : (prun 5 [.wait 100, .init 50 10, .wait 4851, .pass 50 20] {}).cur = 20 ∧
    (prun 5 [.wait 100, .init 50 10, .wait 4851, .pass 50 20] {}).pub = some 10 := by decide +kernel

end Verif.Em
