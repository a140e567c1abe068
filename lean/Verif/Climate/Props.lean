import Verif.Climate.Model
import Mathlib.Tactic.Linarith
import Mathlib.Tactic.NormNum
import Mathlib.Data.List.Basic

/-!
# Thermometers and hygrometers
-/

namespace Verif.Climate
open Verif

/-! ## Corrections -/

theorem get_add_same (t : Table) (q : Nat × Bool) (c : Rat) : get (add t q c) q = c := by
  induction t with
  | nil => simp [add, get]
  | cons e l ih =>
    obtain ⟨k, d⟩ := e
    unfold add
    by_cases h : k = q
    · rw [if_pos h, get, if_pos h]
    · rw [if_neg h, get, if_neg h]; exact ih

theorem get_add_other (t : Table) (q p : Nat × Bool) (c : Rat) (hp : p ≠ q) : get (add t q c) p = get t p := by
  induction t with
  | nil => unfold add; unfold get; rw [if_neg (show ¬ q = p from fun h => hp h.symm)]; rfl
  | cons e l ih =>
    obtain ⟨k, d⟩ := e
    unfold add
    by_cases h : k = q
    · rw [if_pos h, get, get, if_neg (by rw [h]; exact fun e => hp e.symm), if_neg (by rw [h]; exact fun e => hp e.symm)]
    · rw [if_neg h, get, get]
      by_cases h2 : k = p
      · rw [if_pos h2, if_pos h2]
      · rw [if_neg h2, if_neg h2]; exact ih

/-- Full claim: a correction belongs to a channel, whatever number it has later (`m`; the table is not touched when channels are renumbered, C 115-134). -/
def Follows : Prop := ∀ (t : Table) (n m : Int) (c : Rat), 0 ≤ n → n < 256 → 0 ≤ m → m < 256 → get (setCorrection t n false c) (key m false) = c

/-- The corrections put into effect for a channel are the configured ones, limited to fifty units, and those of other channels stay. -/
theorem correction_partial (t : Table) (n m : Int) (ct ch : Int) (n0 : 0 ≤ n) (n1 : n < 256) (m0 : 0 ≤ m) (m1 : m < 256) :
    get (load t n ct ch) (key n false) = (max (-500) (min 500 ct) : Int) / 10 ∧ get (load t n ct ch) (key n true) = (max (-500) (min 500 ch) : Int) / 10 ∧
    (m ≠ n → get (load t n ct ch) (key m false) = get t (key m false) ∧ get (load t n ct ch) (key m true) = get t (key m true)) := by
  have L : ∀ c : Int, limit c = max (-500) (min 500 c) := by
    intro c
    unfold limit
    repeat' split
    all_goals omega
  have ne : key n false ≠ key n true := by unfold key; intro h; injection h with _ h2; cases h2
  unfold load setCorrection
  refine ⟨?_, ?_, fun hm => ?_⟩
  · rw [get_add_other _ _ _ _ ne, get_add_same, L]
  · rw [get_add_same, L]
  · have k1 : ∀ a b, key m a ≠ key n b := by
      intro a b h
      unfold key at h
      injection h with h1 _
      omega
    rw [get_add_other _ _ _ _ (k1 _ _), get_add_other _ _ _ _ (k1 _ _), get_add_other _ _ _ _ (k1 _ _), get_add_other _ _ _ _ (k1 _ _)]
    exact ⟨rfl, rfl⟩

example : get (load [] 3 (-900) 25) (key 3 false) = -50 ∧ get (load [] 3 (-900) 25) (key 3 true) = 25 / 10 := by decide +kernel

/-- The correction stays with the number. -/
theorem renumbered_violation : ¬ Follows := by
  intro h
  have := h [] 0 1 2 (by decide) (by decide) (by decide) (by decide)
  revert this
  decide +kernel

/-! ## Truncation -/

theorem trunc_near (x : Rat) : |(trunc x : Rat) - x| < 1 ∧ |(trunc x : Rat)| ≤ |x| := by
  unfold trunc
  split
  · rename_i h
    have h1 := Int.floor_le x
    have h2 := Int.lt_floor_add_one x
    have h3 : (0 : Rat) ≤ (⌊x⌋ : Int) := by exact_mod_cast Int.floor_nonneg.mpr h
    rw [abs_of_nonneg h, abs_of_nonneg h3, abs_lt]
    exact ⟨⟨by linarith, by linarith⟩, h1⟩
  · rename_i h
    have h := not_le.mp h
    have h1 := Int.floor_le (-x)
    have h2 := Int.lt_floor_add_one (-x)
    have h3 : (0 : Rat) ≤ (⌊-x⌋ : Int) := by exact_mod_cast Int.floor_nonneg.mpr (by linarith)
    push_cast
    rw [abs_of_neg h, abs_neg, abs_of_nonneg h3, abs_lt]
    exact ⟨⟨by linarith, by linarith⟩, h1⟩

theorem trunc_int (n : Int) : trunc (n : Rat) = n := by
  unfold trunc
  split
  · exact Int.floor_intCast n
  · rw [← Int.cast_neg, Int.floor_intCast]; omega

theorem trunc_nonneg (x : Rat) (h : 0 ≤ x) : 0 ≤ trunc x := by
  unfold trunc
  rw [if_pos h]
  exact Int.floor_nonneg.mpr h

/-! ## What is reported -/

/-- The numbers in the channel stand for a temperature and a humidity to within a thousandth. -/
def Stands (v : Int) (x : Rat) : Prop := |(v : Rat) / 1000 - x| < 1 / 1000

theorem toInt32_stands (x : Rat) (h1 : -2000000 ≤ x) (h2 : x ≤ 2000000) : ∃ a, toInt32 ((some x).map (· * 1000)) = some a ∧ Stands a x ∧ a = trunc (x * 1000) := by
  refine ⟨trunc (x * 1000), ?_, ?_, rfl⟩
  · show (if -2147483649 < x * 1000 ∧ x * 1000 < 2147483648 then some (trunc (x * 1000)) else none) = _
    rw [if_pos ⟨by linarith, by linarith⟩]
  · unfold Stands
    obtain ⟨h, _⟩ := trunc_near (x * 1000)
    rw [abs_lt] at h ⊢
    obtain ⟨a, b⟩ := h
    constructor
    · rw [lt_sub_iff_add_lt, lt_div_iff₀ (by norm_num)]; linarith
    · rw [sub_lt_iff_lt_add, div_lt_iff₀ (by norm_num)]; linarith

theorem temp_eq (t : Table) (n : Int) (x : Rat) (h : -273 < x) : temp t n (some x) = some (x + get t (key n false)) := by
  unfold temp
  rw [if_neg (by
    show ¬ decide (x ≤ -273) = true
    rw [decide_eq_true_eq]
    linarith)]
  rfl

/-- The humidity with its correction, limited to 0-100 %. -/
def humidity (h c : Rat) : Rat := max 0 (min 100 (h + c))

theorem humi_eq (t : Table) (n : Int) (h : Rat) (k : Int) (hk : get t (key n true) = (k : Rat) / 10) (h0 : 0 ≤ h) (h1 : h ≤ 100) :
    humi t n (some h) = some (humidity h ((k : Rat) / 10)) := by
  unfold humi
  rw [if_neg (by
    show ¬ decide (h < 0) = true
    rw [decide_eq_true_eq]
    linarith), hk]
  unfold humidity bounded plus
  by_cases c : k = 0
  · rw [c]
    rw [if_neg (by norm_num)]
    show some (h + ((0 : Int) : Rat) / 10) = _
    congr 1
    rw [show ((0 : Int) : Rat) / 10 = 0 by norm_num, add_zero, min_eq_right h1, max_eq_right h0]
  · rw [if_pos (by
      rcases lt_or_gt_of_ne c with hc | hc
      · right
        have : (k : Rat) ≤ -1 := by exact_mod_cast (by omega : k ≤ -1)
        rw [div_lt_iff₀ (by norm_num)]
        linarith
      · left
        have : (1 : Rat) ≤ k := by exact_mod_cast (by omega : 1 ≤ k)
        rw [gt_iff_lt, lt_div_iff₀ (by norm_num)]
        linarith)]
    generalize (k : Rat) / 10 = r
    show (if decide (h + r < 0) = true then some 0 else if decide (-(h + r) < -100) = true then some 100 else some (h + r)) = _
    by_cases a : h + r < 0
    · rw [if_pos (decide_eq_true a)]
      congr 1
      rw [min_eq_right (by linarith), max_eq_left (by linarith)]
    · rw [if_neg (by rw [decide_eq_true_eq]; exact a)]
      by_cases b : -(h + r) < -100
      · rw [if_pos (decide_eq_true b)]
        congr 1
        rw [min_eq_left (by linarith), max_eq_right (by norm_num)]
      · rw [if_neg (by rw [decide_eq_true_eq]; exact b)]
        congr 1
        rw [min_eq_right (by linarith), max_eq_right (by linarith)]

/-- A reading is reported with its corrections (tenths, at most fifty units), to a thousandth; the humidity stays within 0-100 %. -/
theorem reported (t : Table) (n : Int) (x h : Rat) (j k : Int) (hj : get t (key n false) = (j : Rat) / 10) (hk : get t (key n true) = (k : Rat) / 10)
    (j1 : -500 ≤ j) (j2 : j ≤ 500) (x1 : -273 < x) (x2 : x ≤ 1000000) (h0 : 0 ≤ h) (h1 : h ≤ 100) :
    ∃ a b, pair t n (some x) (some h) = some (a, b) ∧ Stands a (x + (j : Rat) / 10) ∧ Stands b (humidity h ((k : Rat) / 10)) ∧ 0 ≤ b ∧ b ≤ 100000 := by
  have e1 : (-500 : Rat) ≤ j := by exact_mod_cast j1
  have e2 : (j : Rat) ≤ 500 := by exact_mod_cast j2
  have d1 : (-50 : Rat) ≤ (j : Rat) / 10 := by rw [le_div_iff₀ (by norm_num)]; linarith
  have d2 : (j : Rat) / 10 ≤ 50 := by rw [div_le_iff₀ (by norm_num)]; linarith
  obtain ⟨a, ha, sa, _⟩ := toInt32_stands (x + (j : Rat) / 10) (by linarith) (by linarith)
  have hh0 : 0 ≤ humidity h ((k : Rat) / 10) := le_max_left _ _
  have hh1 : humidity h ((k : Rat) / 10) ≤ 100 := max_le (by norm_num) (min_le_left _ _)
  obtain ⟨b, hb, sb, eb⟩ := toInt32_stands (humidity h ((k : Rat) / 10)) (by linarith) (by linarith)
  refine ⟨a, b, ?_, sa, sb, ?_, ?_⟩
  · unfold pair
    rw [temp_eq t n x x1, hj, humi_eq t n h k hk h0 h1, ha, hb]
  · rw [eb]; exact trunc_nonneg _ (mul_nonneg hh0 (by norm_num))
  · have := (trunc_near (humidity h ((k : Rat) / 10) * 1000)).2
    rw [eb]
    have p : (0 : Rat) ≤ (trunc (humidity h ((k : Rat) / 10) * 1000) : Int) := by exact_mod_cast trunc_nonneg _ (mul_nonneg hh0 (by norm_num))
    rw [abs_of_nonneg p, abs_of_nonneg (mul_nonneg hh0 (by norm_num))] at this
    have : (trunc (humidity h ((k : Rat) / 10) * 1000) : Rat) ≤ (100000 : Int) := by push_cast; linarith
    exact_mod_cast this

/-- A thermometer reports its reading with the correction, exactly. -/
theorem thermometer (t : Table) (n : Int) (x : Rat) (h : -273 < x) : single .thermometer t n (some x) = some (x + get t (key n false)) := by
  unfold single
  rw [if_neg (by
    intro c
    have : x ≤ -273 := of_decide_eq_true c.2
    linarith)]
  rfl

/-- 21.5 °C and 96 % with corrections of -2.5 and +10: 19 °C and 100 %. -/
example : pair (load [] 3 (-25) 100) 3 (some (43 / 2)) (some 96) = some (19000, 100000) := by decide +kernel

/-- A sensor that gives no value is reported as giving none, whatever the corrections. -/
theorem unavailable (t : Table) (n : Int) : pair t n (some noTemp) (some noHumi) = some (-275000, -1000) ∧ single .thermometer t n (some noTemp) = some noTemp ∧
    int16 noTemp ((-275000 : Int) / 1000) = -32768 ∧ int16 noHumi ((-1000 : Int) / 1000) = -32768 := by
  refine ⟨?_, ?_, by decide +kernel, by decide +kernel⟩
  · have e1 : temp t n (some noTemp) = some noTemp := by unfold temp; rw [if_pos (by decide)]
    have e2 : humi t n (some noHumi) = some noHumi := by unfold humi; rw [if_pos (by decide)]
    unfold pair
    rw [e1, e2]
    decide +kernel
  · unfold single
    rw [if_pos ⟨rfl, by decide⟩]

/-- Full claim: a reading is never reported as "not available" to the thermostat. -/
def Available : Prop := ∀ (t : Table) (n : Int) (x : Rat) (j : Int), get t (key n false) = (j : Rat) / 10 → -500 ≤ j → j ≤ 500 → -273 < x → x ≤ 1000000 →
  ∀ a, toInt32 ((temp t n (some x)).map (· * 1000)) = some a → int16 noTemp ((a : Rat) / 1000) ≠ -32768

/-- The thermostat sees the reported temperature in hundredths; it is "not available" to it only at -275 degrees and below. -/
theorem thermostat_partial (a : Int) (h1 : -275000 < a) (h2 : a ≤ 327670) : int16 noTemp ((a : Rat) / 1000) = a.tdiv 10 ∧ int16 noTemp ((a : Rat) / 1000) ≠ -32768 := by
  have r1 : (-275000 : Rat) < a := by exact_mod_cast h1
  have r2 : (a : Rat) ≤ 327670 := by exact_mod_cast h2
  have e : (a : Rat) / 1000 * 100 = (a : Rat) / 10 := by ring
  have ht : trunc ((a : Rat) / 10) = a.tdiv 10 := by
    unfold trunc
    split
    · rename_i h
      have h0 : 0 ≤ a := by
        have : (0 : Rat) ≤ a := by
          rw [le_div_iff₀ (by norm_num)] at h
          linarith
        exact_mod_cast this
      rw [Int.tdiv_eq_ediv_of_nonneg h0, Int.floor_eq_iff]
      have hq : ((a / 10 : Int) : Rat) * 10 ≤ a := by exact_mod_cast (by omega : a / 10 * 10 ≤ a)
      have hr : (a : Rat) < (((a / 10 : Int) : Rat) + 1) * 10 := by exact_mod_cast (by omega : a < (a / 10 + 1) * 10)
      constructor
      · rw [le_div_iff₀ (by norm_num)]; exact hq
      · rw [div_lt_iff₀ (by norm_num)]; exact hr
    · rename_i h
      have h0 : a < 0 := by
        have : (a : Rat) < 0 := by
          rw [not_le, div_lt_iff₀ (by norm_num)] at h
          linarith
        exact_mod_cast this
      have e2 : a.tdiv 10 = -((-a) / 10) := by
        rw [← Int.neg_neg a, Int.neg_tdiv, Int.tdiv_eq_ediv_of_nonneg (by omega)]
        simp
      rw [e2]
      congr 1
      rw [Int.floor_eq_iff]
      have hq : (((-a) / 10 : Int) : Rat) * 10 ≤ -a := by exact_mod_cast (by omega : (-a) / 10 * 10 ≤ -a)
      have hr : (-a : Rat) < ((((-a) / 10 : Int) : Rat) + 1) * 10 := by exact_mod_cast (by omega : -a < ((-a) / 10 + 1) * 10)
      constructor
      · rw [← neg_div, le_div_iff₀ (by norm_num)]; exact hq
      · rw [← neg_div, div_lt_iff₀ (by norm_num)]; exact hr
  have hi : int16 noTemp ((a : Rat) / 1000) = a.tdiv 10 := by
    unfold int16 noTemp
    rw [if_neg (by rw [not_le, lt_div_iff₀ (by norm_num)]; linarith), e, if_neg (by rw [gt_iff_lt, not_lt, div_le_iff₀ (by norm_num)]; linarith),
      if_neg (by rw [not_le, lt_div_iff₀ (by norm_num)]; linarith), ht]
  refine ⟨hi, ?_⟩
  rw [hi]
  rcases Int.le_total 0 a with h0 | h0
  · rw [Int.tdiv_eq_ediv_of_nonneg h0]
    omega
  · have e2 : a.tdiv 10 = -((-a) / 10) := by
      rw [← Int.neg_neg a, Int.neg_tdiv, Int.tdiv_eq_ediv_of_nonneg (by omega)]
      simp
    rw [e2]
    omega

example : int16 noTemp ((21456 : Int) / 1000) = 2145 ∧ int16 noTemp ((-1259 : Int) / 1000) = -125 := by decide +kernel

/-- A reading of -240 degrees with a correction of -50 is "not available". -/
theorem cold_violation : ¬ Available := by
  intro h
  have := h (load [] 0 (-500) 0) 0 (-240) (-500) (by decide +kernel) (by decide) (by decide) (by norm_num) (by norm_num) (-290000) (by decide +kernel)
  revert this
  decide +kernel

/-- A humidity is never reported as "not available". -/
theorem humidity_available (b : Int) (h0 : 0 ≤ b) (h1 : b ≤ 100000) : int16 noHumi ((b : Rat) / 1000) ≠ -32768 := by
  have r1 : (0 : Rat) ≤ b := by exact_mod_cast h0
  have r2 : (b : Rat) ≤ 100000 := by exact_mod_cast h1
  have e : (b : Rat) / 1000 * 100 = (b : Rat) / 10 := by ring
  unfold int16 noHumi
  rw [if_neg (by rw [not_le, lt_div_iff₀ (by norm_num)]; linarith), e, if_neg (by rw [gt_iff_lt, not_lt, div_le_iff₀ (by norm_num)]; linarith),
    if_neg (by rw [not_le, lt_div_iff₀ (by norm_num)]; linarith)]
  have := trunc_nonneg ((b : Rat) / 10) (div_nonneg r1 (by norm_num))
  omega

/-! ## Sensors that fail -/

/-- A usable reading. -/
def good (na : Rat) (r : Num) : Option Rat := if r = some na then none else r

/-- What is to be shown: the newest usable reading among the last four, if there is one. -/
def newest (na : Rat) (rs : List Num) : Option Rat := ((rs.reverse.take 4).map (good na)).findSome? id

theorem good_cases (na : Rat) (r : Num) : (good na r = none ∧ (r = none ∨ r = some na)) ∨ ∃ v, good na r = some v ∧ r = some v ∧ v ≠ na := by
  unfold good
  cases r with
  | none => exact .inl ⟨by rw [if_neg (by intro h; cases h)], .inl rfl⟩
  | some v =>
    by_cases h : v = na
    · exact .inl ⟨by rw [if_pos (by rw [h])], .inr (by rw [h])⟩
    · exact .inr ⟨v, by rw [if_neg (by intro e; cases e; exact h rfl)], rfl, h⟩

theorem bridge_eq (na : Rat) (s : Bridge) (r : Num) : bridge na s r =
    match good na r with | none => (if s.count + 1 > 3 then ⟨none, 0⟩ else ⟨s.last, s.count + 1⟩) | some v => ⟨some v, 0⟩ := rfl

/-- The newest readings `l` (newest first) and the state. -/
def Told (s : Bridge) (l : List (Option Rat)) : Prop :=
  (s.last = none ∧ ∀ o ∈ l.take 4, o = none) ∨ ∃ v rest, s.last = some v ∧ s.count ≤ 3 ∧ l = List.replicate s.count none ++ some v :: rest

theorem told_step (na : Rat) (s : Bridge) (l : List (Option Rat)) (r : Num) (h : Told s l) : Told (bridge na s r) (good na r :: l) := by
  rw [bridge_eq]
  cases hg : good na r with
  | some v => exact .inr ⟨v, l, rfl, Nat.zero_le _, rfl⟩
  | none =>
    dsimp only
    rcases h with ⟨h1, h2⟩ | ⟨v, rest, h1, h2, h3⟩
    · left
      constructor
      · split
        · rfl
        · exact h1
      · intro o ho
        rw [List.take_succ_cons, List.mem_cons] at ho
        rcases ho with rfl | ho
        · rfl
        · refine h2 o ?_
          have : l.take 3 = (l.take 4).take 3 := by rw [List.take_take]; rfl
          rw [this] at ho
          exact List.mem_of_mem_take ho
    · by_cases c : s.count + 1 > 3
      · rw [if_pos c]
        left
        have : s.count = 3 := by omega
        rw [this] at h3
        refine ⟨rfl, ?_⟩
        rw [h3]
        intro o ho
        simp [List.replicate] at ho
        exact ho
      · rw [if_neg c]
        right
        refine ⟨v, rest, h1, by dsimp only; omega, ?_⟩
        rw [h3, List.replicate_succ]
        rfl

theorem told_newest (s : Bridge) (l : List (Option Rat)) (h : Told s l) : s.last = (l.take 4).findSome? id := by
  rcases h with ⟨h1, h2⟩ | ⟨v, rest, h1, h2, h3⟩
  · rw [h1]
    symm
    rw [List.findSome?_eq_none_iff]
    intro o ho
    exact h2 o ho
  · rw [h1, h3]
    have : s.count = 0 ∨ s.count = 1 ∨ s.count = 2 ∨ s.count = 3 := by omega
    rcases this with e | e | e | e <;> rw [e] <;> rfl

/-- A DHT shows the newest usable reading of the last four, and otherwise "not available". -/
theorem bridged (na : Rat) (rs : List Num) : (dht na rs).last = newest na rs := by
  have h : ∀ (rs : List Num) (s : Bridge) (l : List (Option Rat)), Told s l → Told (rs.foldl (bridge na) s) ((rs.map (good na)).reverse ++ l) := by
    intro rs
    induction rs with
    | nil => intro s l h; exact h
    | cons r rs ih =>
      intro s l h
      have := ih _ _ (told_step na s l r h)
      rw [List.foldl_cons, List.map_cons, List.reverse_cons, List.append_assoc]
      exact this
  have := told_newest _ _ (h rs ⟨none, 0⟩ [] (.inl ⟨rfl, by intro o ho; cases ho⟩))
  unfold dht newest
  rw [this, List.append_nil, ← List.map_reverse, List.map_take]

/-- One good reading, four bad ones. -/
example : newest noTemp [some 20, none, none, none] = some 20 ∧ newest noTemp [some 20, none, none, none, none] = none := by decide +kernel

/-- Full claim for the AHT: four failed readings in a row and it shows "not available". -/
def Gives : Prop := ∀ (first : Num) (rs : List (Option Num)), (aht first (rs ++ List.replicate 4 none)).b.last = none

theorem aht_none (n : Nat) : ∀ (s : Aht) (v : Rat), s.event = some v → v ≠ noTemp → s.b.last = some v → s.b.count = 0 →
    (List.replicate n none).foldl ahtStep s = s := by
  induction n with
  | zero => intros; rfl
  | succ n ih =>
    intro s v h1 h2 h3 h4
    rw [List.replicate_succ, List.foldl_cons]
    have e : ahtStep s none = s := by
      obtain ⟨ev, b, k⟩ := s
      dsimp only at h1 h3 h4
      rw [h1, h3, h4]
      unfold ahtStep
      dsimp only [Option.getD]
      rw [bridge_eq]
      have : good noTemp (some v) = some v := by unfold good; rw [if_neg (by intro e; cases e; exact h2 rfl)]
      rw [this]
    rw [e]
    exact ih s v h1 h2 h3 h4

/-- An AHT that is taken away shows its last temperature for ever. -/
theorem stale (first : Num) (rs : List (Option Num)) (v : Rat) (hv : v ≠ noTemp) (n : Nat) :
    (aht first (rs ++ some (some v) :: List.replicate n none)).b.last = some v := by
  unfold aht
  rw [List.foldl_append, List.foldl_cons]
  generalize rs.foldl ahtStep ⟨first, ⟨none, 0⟩⟩ = s
  have e : ahtStep s (some (some v)) = ⟨some v, ⟨some v, 0⟩⟩ := by
    unfold ahtStep
    dsimp only [Option.getD]
    rw [bridge_eq]
    have : good noTemp (some v) = some v := by unfold good; rw [if_neg (by intro e; cases e; exact hv rfl)]
    rw [this]
  rw [e, aht_none n _ v rfl hv rfl rfl]

theorem stale_violation : ¬ Gives := by
  intro h
  have h1 := h none [some (some 20)]
  have h2 := stale none [] 20 (by decide +kernel) 4
  have e : (([] : List (Option Num)) ++ some (some 20) :: List.replicate 4 none) = [some (some 20)] ++ List.replicate 4 none := rfl
  rw [e, h1] at h2
  cases h2

/-- When the library says that it failed by "not a number", the AHT is as good as the DHT. -/
theorem gives_partial (first : Num) (rs : List Num) : (aht first (rs.map some)).b.last = newest noTemp rs := by
  have h : ∀ (rs : List Num) (s : Aht), ((rs.map some).foldl ahtStep s).b = rs.foldl (bridge noTemp) s.b := by
    intro rs
    induction rs with
    | nil => intro s; rfl
    | cons r rs ih => intro s; rw [List.map_cons, List.foldl_cons, List.foldl_cons, ih]; rfl
  rw [← bridged]
  unfold aht dht
  rw [h]

/-! ## BME280 -/

/-- Full claim: what a BME280 gives, a temperature or "not a number", never leads to undefined behaviour. -/
def Defined : Prop := ∀ (t : Table) (n : Int) (ok1 ok2 : Bool) (l1 l2 : Lib), pair t n (bme noTemp ok1 l1).2 (bme noHumi ok2 l2).2 ≠ none

/-- A reading that is usable at the second attempt is used; a sensor that is not found is "not available". -/
theorem retried (na : Rat) (ok : Bool) (l : Lib) (v : Rat) :
    (l.read1 = some v → ok = true → bme na ok l = (true, some v)) ∧
    (l.read1 = none → ok = true → l.begin2 = true → l.read2 = some v → bme na ok l = (true, some v)) ∧
    (ok = false → l.begin1 = true → l.read1 = some v → bme na ok l = (true, some v)) ∧
    (ok = false → l.begin1 = false → bme na ok l = (false, some na)) ∧
    (l.read1 = none → ok = true → l.begin2 = false → bme na ok l = (false, some na)) := by
  obtain ⟨b1, r1, b2, r2⟩ := l
  dsimp only
  refine ⟨?_, ?_, ?_, ?_, ?_⟩
  · rintro rfl rfl; simp [bme]
  · rintro rfl rfl rfl rfl; simp [bme]
  · rintro rfl rfl rfl; simp [bme]
  · rintro rfl rfl; simp [bme]
  · rintro rfl rfl rfl; simp [bme]

/-- "Not a number" is converted to an integer. -/
theorem nan_undefined (t : Table) (n : Int) (h : Num) : pair t n none h = none := by
  unfold pair temp
  rw [if_neg (by decide)]
  rfl

/-- A sensor that was not there, answers, and gives no number: the behaviour is undefined. -/
theorem nan_violation : ¬ Defined := by
  intro h
  exact h [] 0 false true ⟨true, none, true, none⟩ ⟨true, some 50, true, some 50⟩ (nan_undefined [] 0 _)

/-- It is defined when both are numbers within a million of zero and the corrections at most fifty. -/
theorem defined_partial (t : Table) (n : Int) (x h : Rat) (hj : |get t (key n false)| ≤ 50) (hk : |get t (key n true)| ≤ 50) (hx : |x| ≤ 1000000) (hh : |h| ≤ 1000000) :
    pair t n (some x) (some h) ≠ none := by
  rw [abs_le] at hj hk hx hh
  have h1 : ∃ y, temp t n (some x) = some y ∧ -2000000 ≤ y ∧ y ≤ 2000000 := by
    unfold temp
    split
    · exact ⟨x, rfl, by linarith, by linarith⟩
    · exact ⟨x + get t (key n false), rfl, by linarith, by linarith⟩
  have h2 : ∃ y, humi t n (some h) = some y ∧ -2000000 ≤ y ∧ y ≤ 2000000 := by
    unfold humi
    split
    · exact ⟨h, rfl, by linarith, by linarith⟩
    · unfold bounded plus
      split
      · split
        · exact ⟨0, rfl, by norm_num, by norm_num⟩
        split
        · exact ⟨100, rfl, by norm_num, by norm_num⟩
        · exact ⟨h + get t (key n true), rfl, by linarith, by linarith⟩
      · exact ⟨h + get t (key n true), rfl, by linarith, by linarith⟩
  obtain ⟨y, ey, y1, y2⟩ := h1
  obtain ⟨z, ez, z1, z2⟩ := h2
  obtain ⟨a, ha, _⟩ := toInt32_stands y y1 y2
  obtain ⟨b, hb, _⟩ := toInt32_stands z z1 z2
  unfold pair
  rw [ey, ez, ha, hb]
  intro c
  cases c

/-- Full claim: a pressure sensor that is not found is reported as -1. -/
def PressureHonest : Prop := ∀ (t : Table) (n : Int) (sea : Option (Rat → Rat)) (l : Lib), l.begin1 = false → single .pressure t n (pressure sea false l) = some noPress

/-- It is, with no altitude and no correction. -/
theorem pressure_partial (t : Table) (n : Int) (l : Lib) (hl : l.begin1 = false) (hc : get t (key n false) = 0) :
    single .pressure t n (pressure none false l) = some noPress := by
  have e : bme noPress false l = (false, some noPress) := (retried noPress false l 0).2.2.2.1 rfl hl
  unfold single pressure
  dsimp only
  rw [e, if_neg (by intro h; cases h.1), hc]
  decide +kernel

/-- With an altitude the missing pressure is converted like a pressure. -/
theorem missing_pressure (t : Table) (n : Int) (f : Rat → Rat) (l : Lib) (hl : l.begin1 = false) :
    single .pressure t n (pressure (some f) false l) = some (f (-1) + get t (key n false)) := by
  have e : bme noPress false l = (false, some noPress) := (retried noPress false l 0).2.2.2.1 rfl hl
  unfold single pressure
  dsimp only
  rw [e, if_neg (by intro h; cases h.1)]
  rfl

theorem pressure_violation : ¬ PressureHonest := by
  intro h
  have h1 := h [] 0 (some (fun p => p * (105 / 100))) ⟨false, none, false, none⟩ rfl
  rw [missing_pressure [] 0 _ _ rfl] at h1
  revert h1
  decide +kernel

/-! ## How old a reading is -/

/-- The state and the real time of the last reading. -/
def passAt (interval : Nat) (s : Poll × Nat) (now : Nat) : Poll × Nat := (iterate interval s.1 now, if due interval s.1 now then now else s.2)

/-- Passes at the times `ts`. -/
def passes (interval : Nat) (s : Poll × Nat) (ts : List Nat) : Poll × Nat := ts.foldl (passAt interval) s

/-- Times that follow each other with at most `gap` between them, from `t` on. -/
def Steady (gap : Nat) : Nat → List Nat → Prop
  | _, [] => True
  | t, u :: l => t ≤ u ∧ u ≤ t + gap ∧ Steady gap u l

/-- After every pass the last reading is at most `interval` old, and before the next pass at most `interval + gap`. -/
theorem fresh (interval gap : Nat) (h : interval + gap < 2 ^ 32) : ∀ (ts : List Nat) (t r : Nat), r ≤ t → t ≤ r + interval → Steady gap t ts →
    let s := passes interval (⟨clk r⟩, r) ts
    let now := ts.getLastD t
    s.1.last = clk s.2 ∧ s.2 ≤ now ∧ now ≤ s.2 + interval := by
  intro ts
  induction ts with
  | nil => intro t r h1 h2 _; exact ⟨rfl, h1, h2⟩
  | cons u l ih =>
    intro t r h1 h2 hs
    have hs' : t ≤ u ∧ u ≤ t + gap ∧ Steady gap u l := hs
    obtain ⟨a, b, c⟩ := hs'
    have e := since_clk_eq u r (by omega) (by omega)
    have key : passAt interval (⟨clk r⟩, r) u = if u - r > interval then (⟨clk u⟩, u) else (⟨clk r⟩, r) := by
      unfold passAt iterate due
      dsimp only
      rw [e]
      by_cases hd : u - r > interval
      · simp [hd]
      · simp [hd]
    have hl : (u :: l).getLastD t = l.getLastD u := by cases l <;> rfl
    dsimp only
    rw [hl]
    unfold passes
    rw [List.foldl_cons, key]
    by_cases hd : u - r > interval
    · rw [if_pos hd]
      exact ih u u (by omega) (by omega) c
    · rw [if_neg hd]
      exact ih u r (by omega) (by omega) c

example : Steady 100 5000 [5050, 5150] ∧ (passes 10000 (⟨clk 0⟩, 0) [5000, 10000, 10050, 10100]).2 = 10050 := by
  refine ⟨⟨by decide, by decide, by decide, by decide, trivial⟩, by decide⟩

/-- A sensor is not read more often than every `interval`. -/
theorem rare (interval : Nat) (r now : Nat) (h : r ≤ now) (hd : due interval ⟨clk r⟩ now = true) : now > r + interval := by
  unfold due at hd
  have := of_decide_eq_true hd
  have l := since_clk_le now r h
  dsimp only at this
  omega

end Verif.Climate
