import Verif.ChanCfg.Link

/-!
# The configuration of an electricity meter

`/repo/src/supla/sensor/electricity_meter.cpp` (cited as M) as an instance of `Elem`.

Simplified: the store gives back what was written; messages have the size and the type that the class expects (the
others are refused without effect, M 495-516); the meter has at least one type to choose (otherwise nothing is
loaded, M 370).
-/

namespace Verif.ChanCfg

/-- The settings: the number of the type of current transformer and of the phase LED, -1 for none, and the two
pairs of thresholds of the LED. -/
structure Em where
  ct : Int := -1
  led : Int := -1
  vLow : Int := 21000
  vHigh : Int := 25000
  pLow : Int := -5000
  pHigh : Int := 5000
deriving DecidableEq, Repr

/-- `TChannelConfig_ElectricityMeter` (`proto.h`). -/
structure EmMsg where
  avCt : Nat
  avLed : Nat
  ct : Nat
  led : Nat
  p1 : Int
  p2 : Int
deriving DecidableEq, Repr

/-- The loop of `getBitNumber` (`tools.cpp` 444-448) for a number of 64 bits. -/
def lowBit : Nat → Nat → Nat
  | 0, _ => 0
  | n + 1, v => if v % 2 = 1 then 0 else lowBit n (v / 2) + 1

/-- `getBitNumber` (`tools.cpp` 439-451). -/
def bitNumber (v : Nat) : Int := if v = 0 ∨ v &&& (v - 1) ≠ 0 then -1 else lowBit 64 v

/-- The mask of a type (M 628-630, 633-635). -/
def mask (k : Int) : Nat := if 0 ≤ k ∧ k ≤ 63 then 2 ^ k.toNat else 0

/-- The limits of a lower threshold (M 425-435, 451-461). -/
def fixLow (lo min max : Int) : Int := if lo < min then min else if lo > max - 1000 then max - 1000 else lo

/-- The limits of an upper threshold (M 437-448, 463-474). -/
def fixHigh (hi lo max : Int) : Int := if hi > max then max else if hi < lo then lo + 1000 else hi

/-- The thresholds after `onLoadConfig` (M 417-475). -/
def load (c : Em) : Em :=
  { c with
    pLow := fixLow c.pLow (-2000000000) 2000000000
    pHigh := fixHigh c.pHigh (fixLow c.pLow (-2000000000) 2000000000) 2000000000
    vLow := fixLow c.vLow 15000 100000
    vHigh := fixHigh c.vHigh (fixLow c.vLow 15000 100000) 100000 }

/-- Taking a type of `m` (M 526-542, 544-560); `none`: not supported. -/
def takeType (av used : Nat) (old : Int) : Option Int :=
  if old ≠ bitNumber used then if av &&& used ≠ 0 then some (bitNumber used) else none else some old

/-- Taking the thresholds (M 562-603). -/
def takeParams (p1 p2 : Int) (c : Em) : Em :=
  if c.led = 3 then { c with vLow := p1, vHigh := p2 }
  else if c.led = 4 then { c with pLow := p1, pHigh := p2 }
  else c

/-- The settings before they are loaded again. -/
def takeAll (avCt avLed : Nat) (m : EmMsg) (c : Em) : Em :=
  takeParams m.p1 m.p2
    { c with ct := (takeType avCt m.ct c.ct).getD c.ct, led := (takeType avLed m.led c.led).getD c.led }

/-- `configValid` and the lists of types agree (M 611-613). -/
def agreed (avCt avLed : Nat) (m : EmMsg) (c : Em) : Bool :=
  m.avLed = avLed && m.avCt = avCt && (takeType avCt m.ct c.ct).isSome && (takeType avLed m.led c.led).isSome

/-- The settings in the end (M 605-609). -/
def emTake (avCt avLed : Nat) (m : EmMsg) (c : Em) : Em :=
  if takeAll avCt avLed m c = c then c else load (takeAll avCt avLed m c)

/-- What is done to the state (M 605-627): the settings are read again when something changed; a threshold that had
to be corrected (M 476-479) and a refused type mark the configuration as changed. -/
def emAfter (avCt avLed : Nat) (m : EmMsg) (c : Em) : After :=
  if agreed avCt avLed m c = false then .mark
  else if takeAll avCt avLed m c = c then .keep
  else if load (takeAll avCt avLed m c) = takeAll avCt avLed m c then .reload
  else .mark

/-- `fillChannelConfig` (M 630-657) and `applyChannelConfig` (M 493-628) of a meter with the types `avCt`,
`avLed`. -/
def em (avCt avLed : Nat) : Elem Em EmMsg where
  fill c := some
    { avCt := avCt
      avLed := avLed
      ct := mask c.ct
      led := mask c.led
      p1 := if c.led = 3 then c.vLow else if c.led = 4 then c.pLow else 0
      p2 := if c.led = 3 then c.vHigh else if c.led = 4 then c.pHigh else 0 }
  apply m c := (emTake avCt avLed m c, emAfter avCt avLed m c)

/-- A well-formed message names at most one type of each kind, and has thresholds only with an LED that uses
them. -/
def EmWf (m : EmMsg) : Prop :=
  (m.ct = 0 ∨ ∃ k < 64, m.ct = 2 ^ k) ∧ (m.led = 0 ∨ ∃ k < 64, m.led = 2 ^ k) ∧
  (m.led ≠ 8 → m.led ≠ 16 → m.p1 = 0 ∧ m.p2 = 0)

theorem bitNumber_pow : ∀ k : Nat, k < 64 → bitNumber (2 ^ k) = k := by decide +kernel

theorem mask_bitNumber {v : Nat} (h : v = 0 ∨ ∃ k < 64, v = 2 ^ k) : mask (bitNumber v) = v := by
  rcases h with rfl | ⟨k, hk, rfl⟩
  · rfl
  · rw [bitNumber_pow k hk]
    unfold mask
    rw [if_pos (by omega)]
    rfl

theorem takeType_some {av used : Nat} {old x : Int} (h : takeType av used old = some x) : x = bitNumber used := by
  unfold takeType at h
  split at h
  · split at h
    · injection h with h; exact h.symm
    · cases h
  · rename_i hn
    injection h with h
    rw [← h]
    exact Classical.not_not.mp hn

theorem takeParams_fields (p1 p2 : Int) (c : Em) : (takeParams p1 p2 c).ct = c.ct ∧ (takeParams p1 p2 c).led = c.led ∧
    (c.led = 3 → (takeParams p1 p2 c).vLow = p1 ∧ (takeParams p1 p2 c).vHigh = p2) ∧
    (c.led = 4 → (takeParams p1 p2 c).pLow = p1 ∧ (takeParams p1 p2 c).pHigh = p2) := by
  unfold takeParams
  split
  · rename_i h
    exact ⟨rfl, rfl, fun _ => ⟨rfl, rfl⟩, fun a => by omega⟩
  · split
    · exact ⟨rfl, rfl, fun a => by omega, fun _ => ⟨rfl, rfl⟩⟩
    · exact ⟨rfl, rfl, fun a => by omega, fun a => by omega⟩

/-- A configuration that the meter takes without asking for more is the one it then reports. -/
theorem em_faithful (avCt avLed : Nat) : Faithful (em avCt avLed) EmWf := by
  have hmask : ∀ k : Int, mask k = 0 ∨ ∃ j < 64, mask k = 2 ^ j := by
    intro k
    unfold mask
    split
    · right; exact ⟨k.toNat, by omega, rfl⟩
    · left; rfl
  refine ⟨fun c => ⟨_, rfl, hmask _, hmask _, fun h1 h2 => ?_⟩, fun m c hm h => ?_, rfl⟩
  · have e3 : c.led ≠ 3 := fun a => h1 (by show mask c.led = 8; rw [a]; rfl)
    have e4 : c.led ≠ 4 := fun a => h2 (by show mask c.led = 16; rw [a]; rfl)
    show (if c.led = 3 then c.vLow else if c.led = 4 then c.pLow else 0) = 0 ∧
      (if c.led = 3 then c.vHigh else if c.led = 4 then c.pHigh else 0) = 0
    rw [if_neg e3, if_neg e4, if_neg e3, if_neg e4]
    exact ⟨rfl, rfl⟩
  · have h : emAfter avCt avLed m c = .keep ∨ emAfter avCt avLed m c = .clear ∨ emAfter avCt avLed m c = .reload := h
    have hb : agreed avCt avLed m c = true ∧ emTake avCt avLed m c = takeAll avCt avLed m c := by
      unfold emAfter at h
      unfold emTake
      by_cases h1 : agreed avCt avLed m c = false
      · rw [if_pos h1] at h
        rcases h with h | h | h <;> cases h
      · rw [if_neg h1] at h
        have h1 : agreed avCt avLed m c = true := by simpa using h1
        by_cases h2 : takeAll avCt avLed m c = c
        · rw [if_pos h2]
          exact ⟨h1, h2.symm⟩
        · rw [if_neg h2] at h ⊢
          by_cases h3 : load (takeAll avCt avLed m c) = takeAll avCt avLed m c
          · exact ⟨h1, h3⟩
          · rw [if_neg h3] at h
            rcases h with h | h | h <;> cases h
    obtain ⟨hag, ht⟩ := hb
    show some (_ : EmMsg) = some m
    have hx : ((em avCt avLed).apply m c).1 = takeAll avCt avLed m c := ht
    rw [hx]
    unfold agreed at hag
    simp only [Bool.and_eq_true, decide_eq_true_eq] at hag
    obtain ⟨⟨⟨a1, a2⟩, a3⟩, a4⟩ := hag
    obtain ⟨x, hx⟩ := Option.isSome_iff_exists.mp a3
    obtain ⟨y, hy⟩ := Option.isSome_iff_exists.mp a4
    have hxe := takeType_some hx
    have hye := takeType_some hy
    obtain ⟨w1, w2, w3⟩ := hm
    obtain ⟨f1, f2, f3, f4⟩ := takeParams_fields m.p1 m.p2
      { c with ct := (takeType avCt m.ct c.ct).getD c.ct, led := (takeType avLed m.led c.led).getD c.led }
    have g1 : (takeAll avCt avLed m c).ct = bitNumber m.ct := by
      unfold takeAll
      rw [f1, hx]; exact hxe
    have g2 : (takeAll avCt avLed m c).led = bitNumber m.led := by
      unfold takeAll
      rw [f2, hy]; exact hye
    have hl : (takeType avLed m.led c.led).getD c.led = bitNumber m.led := by rw [hy]; exact hye
    have g3 : bitNumber m.led = 3 → (takeAll avCt avLed m c).vLow = m.p1 ∧ (takeAll avCt avLed m c).vHigh = m.p2 :=
      fun a => f3 (hl.trans a)
    have g4 : bitNumber m.led = 4 → (takeAll avCt avLed m c).pLow = m.p1 ∧ (takeAll avCt avLed m c).pHigh = m.p2 :=
      fun a => f4 (hl.trans a)
    have g5 : bitNumber m.led ≠ 3 → bitNumber m.led ≠ 4 → m.p1 = 0 ∧ m.p2 = 0 := by
      intro h3 h4
      apply w3
      · intro a; rw [a] at h3; exact h3 (by decide)
      · intro a; rw [a] at h4; exact h4 (by decide)
    generalize takeAll avCt avLed m c = t at g1 g2 g3 g4
    congr 1
    obtain ⟨m1, m2, m3, m4, m5, m6⟩ := m
    dsimp only at *
    rw [g1, g2, mask_bitNumber w1, mask_bitNumber w2, ← a1, ← a2]
    by_cases e3 : bitNumber m4 = 3
    · rw [if_pos e3, if_pos e3, (g3 e3).1, (g3 e3).2]
    · rw [if_neg e3, if_neg e3]
      by_cases e4 : bitNumber m4 = 4
      · rw [if_pos e4, if_pos e4, (g4 e4).1, (g4 e4).2]
      · rw [if_neg e4, if_neg e4, (g5 e3 e4).1, (g5 e3 e4).2]

/-- Without crossing changes the meter and the server agree whenever nothing is under way. -/
theorem em_converges_partial (avCt avLed : Nat) (v : Em) (srv : Option EmMsg) (es : List (Ev Em EmMsg))
    (hs : ∀ m, srv = some m → EmWf m) (hw : ∀ m, .edit m ∈ es → EmWf m)
    (hc : AllNoCrossing (em avCt avLed) es { dev := { val := v }, srv := srv })
    (hq : Quiet (play (em avCt avLed) es { dev := { val := v }, srv := srv })) :
    (play (em avCt avLed) es { dev := { val := v }, srv := srv }).srv =
      (em avCt avLed).fill (play (em avCt avLed) es { dev := { val := v }, srv := srv }).dev.val :=
  converges_partial (em_faithful avCt avLed) v srv es hs hw hc hq

/-- An LED threshold that the meter corrects comes back to the server. -/
example : (play (em 3 31) [.connect, .deliver, .deliver, .pass false, .take, .deliver]
    { dev := { val := { ct := 1, led := 3 } }, srv := some ⟨3, 31, 1, 8, 200, 200000⟩ }).srv = some ⟨3, 31, 1, 8, 15000, 100000⟩ ∧
    (play (em 3 31) [.connect, .deliver, .deliver, .pass false, .take, .deliver]
    { dev := { val := { ct := 1, led := 3 } }, srv := some ⟨3, 31, 1, 8, 200, 200000⟩ }).dev.val.ct = 0 := by decide +kernel

/-- The claim for all messages: no type that the meter does not have is ever set. -/
def TypeSupported (avCt avLed : Nat) : Prop := ∀ (c : Em) (m : EmMsg), avCt &&& mask c.ct ≠ 0 →
  avCt &&& mask (emTake avCt avLed m c).ct ≠ 0

/-- A message with two types of current transformer, one of them known, leaves the meter with none, and this is not
marked: the server keeps its two types. -/
theorem two_types_violation : ¬ TypeSupported 1 0 ∧
    (emTake 1 0 ⟨1, 0, 3, 0, 0, 0⟩ { ct := 0 }).ct = -1 ∧ emAfter 1 0 ⟨1, 0, 3, 0, 0, 0⟩ { ct := 0 } = .reload := by
  refine ⟨fun h => ?_, by decide +kernel, by decide +kernel⟩
  have := h { ct := 0 } ⟨1, 0, 3, 0, 0, 0⟩ (by decide +kernel)
  revert this
  decide +kernel

/-- Well-formed messages only set types that the meter has. -/
theorem type_supported_partial (avCt avLed : Nat) (c : Em) (m : EmMsg) (hm : EmWf m) (h : avCt &&& mask c.ct ≠ 0) :
    avCt &&& mask (emTake avCt avLed m c).ct ≠ 0 := by
  unfold emTake
  split
  · exact h
  · show avCt &&& mask (takeAll avCt avLed m c).ct ≠ 0
    have hf : (takeAll avCt avLed m c).ct = (takeType avCt m.ct c.ct).getD c.ct := by
      unfold takeAll
      rw [(takeParams_fields _ _ _).1]
    rw [hf]
    unfold takeType
    split
    · split
      · rename_i hs
        show avCt &&& mask (bitNumber m.ct) ≠ 0
        rw [mask_bitNumber hm.1]
        exact hs
      · exact h
    · exact h

/-! ## Thresholds -/

/-- The thresholds are in their ranges and in order. -/
def Ordered (c : Em) : Prop :=
  -2000000000 ≤ c.pLow ∧ c.pLow ≤ c.pHigh ∧ c.pHigh ≤ 2000000000 ∧ 15000 ≤ c.vLow ∧ c.vLow ≤ c.vHigh ∧ c.vHigh ≤ 100000

/-- Whatever is stored. -/
theorem load_ordered (c : Em) : Ordered (load c) := by
  have h : ∀ lo hi min max : Int, min + 1000 ≤ max → min ≤ fixLow lo min max ∧
      fixLow lo min max ≤ fixHigh hi (fixLow lo min max) max ∧ fixHigh hi (fixLow lo min max) max ≤ max := by
    intro lo hi min max hmm
    have h1 : min ≤ fixLow lo min max ∧ fixLow lo min max ≤ max - 1000 := by
      unfold fixLow
      repeat' split
      all_goals omega
    generalize fixLow lo min max = l at h1
    unfold fixHigh
    repeat' split
    all_goals omega
  have h1 := h c.pLow c.pHigh (-2000000000) 2000000000 (by decide)
  have h2 := h c.vLow c.vHigh 15000 100000 (by decide)
  exact ⟨h1.1, h1.2.1, h1.2.2, h2.1, h2.2.1, h2.2.2⟩

/-- A start with sane thresholds changes nothing. -/
theorem load_idem (c : Em) : load (load c) = load c := by
  have h : ∀ lo hi min max : Int, min + 1000 ≤ max →
      fixLow (fixLow lo min max) min max = fixLow lo min max ∧
      fixHigh (fixHigh hi (fixLow lo min max) max) (fixLow lo min max) max = fixHigh hi (fixLow lo min max) max := by
    intro lo hi min max hmm
    have h1 : min ≤ fixLow lo min max ∧ fixLow lo min max ≤ max - 1000 := by
      unfold fixLow
      repeat' split
      all_goals omega
    generalize fixLow lo min max = l at h1
    refine ⟨?_, ?_⟩
    · unfold fixLow
      rw [if_neg (by omega), if_neg (by omega)]
    · have h2 : l ≤ fixHigh hi l max ∧ fixHigh hi l max ≤ max := by
        unfold fixHigh
        repeat' split
        all_goals omega
      generalize fixHigh hi l max = k at h2
      unfold fixHigh
      rw [if_neg (by omega), if_neg (by omega)]
  have h1 := h c.pLow c.pHigh (-2000000000) 2000000000 (by decide)
  have h2 := h c.vLow c.vHigh 15000 100000 (by decide)
  show ({ c with pLow := _, pHigh := _, vLow := _, vHigh := _ } : Em) = { c with pLow := _, pHigh := _, vLow := _, vHigh := _ }
  have e1 : (load c).pLow = fixLow c.pLow (-2000000000) 2000000000 := rfl
  have e2 : (load c).pHigh = fixHigh c.pHigh (fixLow c.pLow (-2000000000) 2000000000) 2000000000 := rfl
  have e3 : (load c).vLow = fixLow c.vLow 15000 100000 := rfl
  have e4 : (load c).vHigh = fixHigh c.vHigh (fixLow c.vLow 15000 100000) 100000 := rfl
  rw [e1, e2, e3, e4, h1.1, h1.2, h2.1, h2.2]

/-- The distance of 1000 that the program wants between them (`MinValuesDistance`). -/
def Apart (c : Em) : Prop := c.pLow + 1000 ≤ c.pHigh ∧ c.vLow + 1000 ≤ c.vHigh

/-- Two equal thresholds stay. -/
theorem apart_violation : ¬ ∀ c, Apart (load c) := by
  intro h
  have := (h { pLow := 7, pHigh := 7 }).1
  revert this
  decide

/-- What the meter has after any message has the thresholds in order, if it had them so. -/
theorem take_ordered (avCt avLed : Nat) (m : EmMsg) (c : Em) (h : Ordered c) : Ordered (emTake avCt avLed m c) := by
  unfold emTake
  split
  · exact h
  · exact load_ordered _

example : Ordered {} ∧ Ordered (emTake 3 31 ⟨3, 31, 1, 16, 9, -9⟩ {}) := by
  refine ⟨by unfold Ordered; decide, take_ordered _ _ _ _ (by unfold Ordered; decide)⟩

end Verif.ChanCfg
