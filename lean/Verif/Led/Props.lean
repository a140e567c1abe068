import Verif.Led.Model

/-!
# A LED shows what it is told to show
-/

namespace Verif.Led

/-! ## Specification -/

/-- The LED is lit. -/
def lit (s : Led) : Bool := s.level != s.invert

/-- The timer runs at these times. -/
def run (s : Led) (ts : List Nat) : Led := ts.foldl (fun s t => updatePin t s) s

/-- When the LED goes on or off. -/
def flips : Led → List Nat → List (Nat × Bool)
  | _, [] => []
  | s, t :: l => (if lit (updatePin t s) ≠ lit s then [(t, lit (updatePin t s))] else []) ++ flips (updatePin t s) l

/-- How often it goes on. -/
def blinks (s : Led) (ts : List Nat) : Nat := ((flips s ts).filter (·.2)).length

/-- The timer runs at least every `g` milliseconds. -/
def Ticks (g : Nat) : Nat → List Nat → Prop
  | _, [] => True
  | t, t' :: l => t ≤ t' ∧ t' - t ≤ g ∧ Ticks g t' l

/-- The last time. -/
def lastTime : Nat → List Nat → Nat
  | t, [] => t
  | _, t' :: l => lastTime t' l

/-- Every phase is as long as it should be, to `g` milliseconds. -/
def Phases (on off g : Nat) : Nat × Bool → List (Nat × Bool) → Prop
  | _, [] => True
  | (t, b), (t', b') :: l =>
    b' = !b ∧ (if b then on else off) < t' - t ∧ t' - t ≤ (if b then on else off) + g ∧ Phases on off g (t', b') l

/-- The pin shows the state. -/
def Shown (s : Led) : Prop := (s.state = .on ∧ lit s = true) ∨ (s.state = .off ∧ lit s = false)

theorem lit_on (t : Nat) (s : Led) : lit (turnOn t s) = true := by simp [lit, turnOn]

theorem lit_off (t : Nat) (s : Led) : lit (turnOff t s) = false := by simp [lit, turnOff]

/-! ## Steady -/

/-- **C75.** After the start the LED shows its state. -/
theorem shown_init (now : Nat) (invert level : Bool) : Shown (onInit now (fresh invert level)) := by
  right
  simp [onInit, updatePin, fresh, steadyOn, steadyOff, turnOff, lit]

theorem shown_update (t : Nat) (s : Led) (h : Shown s) : Shown (updatePin t s) := by
  have hon : ∀ s', Shown (turnOn t s') := fun s' => Or.inl ⟨rfl, lit_on t s'⟩
  have hoff : ∀ s', Shown (turnOff t s') := fun s' => Or.inr ⟨rfl, lit_off t s'⟩
  unfold updatePin
  split
  · unfold steadyOn
    split
    · exact hon _
    · unfold steadyOff
      split
      · exact hoff _
      · exact h
  · split
    · split
      · exact hoff _
      · exact h
    · split
      · rename_i hs
        split
        · exact h
        · split
          · unfold next
            split
            · split
              · rcases h with h | h
                · exact absurd (h.1.symm.trans hs) (by decide)
                · exact Or.inr ⟨h.1, h.2⟩
              · exact hon _
            · exact hon _
          · exact h
      · exact h

/-- **C75.** It goes on doing so, also when the durations are changed in between. -/
theorem shown_run (s : Led) (h : Shown s) (l : List (Nat × Option (Nat × Nat))) :
    Shown (l.foldl (fun s x => updatePin x.1 (match x.2 with | some (a, b) => { s with onMs := a, offMs := b } | none => s)) s) := by
  induction l generalizing s with
  | nil => exact h
  | cons x l ih =>
    rw [List.foldl_cons]
    refine ih _ (shown_update _ _ ?_)
    split
    · exact h
    · exact h

/-- **C75.** With on-time 0 the LED is off from the next tick on, with off-time 0 on. -/
theorem steady (s : Led) (h : Shown s) (t : Nat) (ts : List Nat) :
    (s.onMs = 0 → 0 < s.offMs → lit (run s (t :: ts)) = false) ∧ (s.offMs = 0 → lit (run s (t :: ts)) = true) := by
  have key : ∀ (s : Led) (t : Nat), Shown s → (s.onMs = 0 → 0 < s.offMs → Shown (updatePin t s) ∧ (updatePin t s).onMs = 0 ∧ 0 < (updatePin t s).offMs ∧ lit (updatePin t s) = false) ∧
      (s.offMs = 0 → Shown (updatePin t s) ∧ (updatePin t s).offMs = 0 ∧ lit (updatePin t s) = true) := by
    intro s t h
    refine ⟨fun h1 h2 => ⟨shown_update t s h, ?_⟩, fun h1 => ⟨shown_update t s h, ?_⟩⟩
    · unfold updatePin
      rw [if_pos (Or.inl h1)]
      have hq : steadyOn t (steadyOff t s) = steadyOff t s := by
        unfold steadyOn
        refine if_neg (fun hc => ?_)
        have : (steadyOff t s).offMs = s.offMs := by unfold steadyOff; split <;> rfl
        omega
      rw [hq]
      unfold steadyOff
      split
      · exact ⟨h1, h2, lit_off t s⟩
      · rename_i hn
        refine ⟨h1, h2, ?_⟩
        rcases h with h | h
        · exact absurd ⟨by rw [h.1]; decide, h1⟩ hn
        · exact h.2
    · unfold updatePin
      rw [if_pos (Or.inr h1)]
      have hq : (steadyOff t s).offMs = 0 := by unfold steadyOff; split <;> exact h1
      have hs : Shown (steadyOff t s) := by
        unfold steadyOff
        split
        · exact Or.inr ⟨rfl, lit_off t s⟩
        · exact h
      unfold steadyOn
      split
      · exact ⟨hq, lit_on t _⟩
      · rename_i hn
        refine ⟨hq, ?_⟩
        rcases hs with hs | hs
        · exact hs.2
        · exact absurd ⟨by rw [hs.1]; decide, hq⟩ hn
  induction ts generalizing s t with
  | nil =>
    exact ⟨fun h1 h2 => ((key s t h).1 h1 h2).2.2.2, fun h1 => ((key s t h).2 h1).2.2⟩
  | cons t' ts ih =>
    refine ⟨fun h1 h2 => ?_, fun h1 => ?_⟩
    · obtain ⟨a, b, c, _⟩ := (key s t h).1 h1 h2
      exact (ih _ a t').1 b c
    · obtain ⟨a, b, _⟩ := (key s t h).2 h1
      exact (ih _ a t').2 b

example : Shown (onInit 5 (fresh true false)) ∧ lit (run (onInit 5 (fresh true false)) [15, 25]) = false := by
  refine ⟨shown_init .., by decide⟩

/-- The full claim: the same for a LED that is told so by a custom sequence. -/
def CustomOff : Prop :=
  ∀ (s : Led) (now off : Nat) (ts : List Nat), Shown s → 0 < off → lit (run (setCustom now 0 off 0 0 0 s) ts) = false

theorem custom_stuck (s : Led) (now off : Nat) (h0 : 0 < off) (ts : List Nat) :
    run (setCustom now 0 off 0 0 0 s) ts = { s with onMs := 0, offMs := off, pauseMs := 0, limit := 0, counter := 0, repeats := 0, state := .off, last := 0 } := by
  have key : ∀ (t : Nat) (s : Led), s.onMs = 0 → s.offMs = off → s.state = .off → updatePin t s = s := by
    intro t s h1 h2 h3
    unfold updatePin
    rw [if_pos (Or.inl h1)]
    have hq : steadyOff t s = s := if_neg (fun hc => hc.1 h3)
    rw [hq]
    exact if_neg (fun hc => by have := hc.2; omega)
  have h1 : setCustom now 0 off 0 0 0 s = { s with onMs := 0, offMs := off, pauseMs := 0, limit := 0, counter := 0, repeats := 0, state := .off, last := 0 } :=
    key now _ rfl rfl rfl
  rw [h1]
  induction ts with
  | nil => rfl
  | cons t ts ih =>
    show run (updatePin t _) ts = _
    rw [key t _ rfl rfl rfl]
    exact ih

/-- **Finding.** A custom sequence takes the LED for off without switching it off: "always off" leaves a lit LED
lit forever. -/
theorem custom_off_violation : ¬ CustomOff := by
  intro h
  have := h ⟨1000, 0, 0, 0, 0, 0, false, true, 5, .on⟩ 100 1000 [110, 5000] (Or.inl ⟨rfl, rfl⟩) (by decide)
  rw [custom_stuck _ _ _ (by decide)] at this
  revert this; decide

/-- The full claim: a change of the logic is shown. -/
def InvertShown : Prop := ∀ (s : Led) (now : Nat) (v : Bool), Shown s → Shown (setInverted now v s)

/-- **Finding.** It is not, until the LED is switched next: a steady LED shows the opposite. -/
theorem invert_shown_violation : ¬ InvertShown := by
  intro h
  have := h ⟨0, 1000, 0, 0, 0, 0, false, false, 5, .off⟩ 100 true (Or.inr ⟨rfl, rfl⟩)
  revert this
  rintro (h | h)
  · exact absurd h.1 (by decide)
  · exact absurd h.2 (by decide)

/-! ## Blinking -/

/-- A LED that blinks without limit. -/
structure Plain (on off : Nat) (s : Led) : Prop where
  on : s.onMs = on
  off : s.offMs = off
  limit : s.limit = 0
  shown : Shown s

theorem phases_run (on off g : Nat) (h1 : 0 < on) (h2 : 0 < off) (h3 : on + g < 2 ^ 32) (h4 : off + g < 2 ^ 32) (ts : List Nat) (s : Led) (t r : Nat)
    (hp : Plain on off s) (hr : s.last = clk r) (hle : r ≤ t) (hd : t - r ≤ if lit s then on else off) (ht : Ticks g t ts) :
    Phases on off g (r, lit s) (flips s ts) := by
  induction ts generalizing s t r with
  | nil => trivial
  | cons t' ts ih =>
    obtain ⟨a, b, ht'⟩ := ht
    obtain ⟨p1, p2, p3, p4⟩ := hp
    have hsince : since (clk t') s.last = t' - r := by
      rw [hr]
      refine since_clk_eq _ _ (by omega) ?_
      split at hd <;> omega
    have hng : ¬ groupOver s := fun hc => by have := hc.1; omega
    unfold flips
    rcases p4 with ⟨hs, hl⟩ | ⟨hs, hl⟩
    · rw [hl, if_pos rfl] at hd
      by_cases hx : t' - r > on
      · have hu : updatePin t' s = turnOff t' s := by
          unfold updatePin
          rw [if_neg (by omega), if_pos hs, hsince, if_pos (by omega)]
        rw [hu, lit_off, hl, if_pos (by decide)]
        refine ⟨rfl, ?_, ?_, ?_⟩
        · rw [if_pos rfl]; omega
        · rw [if_pos rfl]; omega
        · have := ih (turnOff t' s) t' t' ⟨p1, p2, p3, Or.inr ⟨rfl, lit_off t' s⟩⟩ rfl (Nat.le_refl _) (by omega) ht'
          rwa [lit_off] at this
      · have hu : updatePin t' s = s := by
          unfold updatePin
          rw [if_neg (by omega), if_pos hs, hsince, if_neg (by omega)]
        rw [hu, if_neg (fun hc => hc rfl)]
        exact ih s t' r ⟨p1, p2, p3, Or.inl ⟨hs, hl⟩⟩ hr (by omega) (by rw [hl, if_pos rfl]; omega) ht'
    · rw [hl] at hd
      simp only [Bool.false_eq_true, if_false] at hd
      have hno : s.state ≠ .on := by rw [hs]; decide
      by_cases hx : t' - r > off
      · have hu : updatePin t' s = blink t' s := by
          unfold updatePin
          rw [if_neg (by omega), if_neg hno, if_pos hs, if_neg (fun hc => hng hc.1), hsince, if_pos (by omega)]
          unfold next
          rw [if_neg hng]
        have hlb : lit (blink t' s) = true := lit_on t' _
        rw [hu, hlb, hl, if_pos (by decide)]
        refine ⟨rfl, ?_, ?_, ?_⟩
        · simp only [Bool.false_eq_true, if_false]; omega
        · simp only [Bool.false_eq_true, if_false]; omega
        · have := ih (blink t' s) t' t' ⟨p1, p2, p3, Or.inl ⟨rfl, hlb⟩⟩ rfl (Nat.le_refl _) (by omega) ht'
          rwa [hlb] at this
      · have hu : updatePin t' s = s := by
          unfold updatePin
          rw [if_neg (by omega), if_neg hno, if_pos hs, if_neg (fun hc => hng hc.1), hsince, if_neg (by omega)]
        rw [hu, if_neg (fun hc => hc rfl)]
        refine ih s t' r ⟨p1, p2, p3, Or.inr ⟨hs, hl⟩⟩ hr (by omega) ?_ ht'
        rw [hl]
        simp only [Bool.false_eq_true, if_false]
        omega

/-- **C75.** A LED that blinks without limit is on and off for its on- and off-time, longer by at most the time
between two ticks of the timer, over any time, also when the millisecond clock wraps around. -/
theorem blink_phases (on off g : Nat) (h1 : 0 < on) (h2 : 0 < off) (h3 : on + g < 2 ^ 32) (h4 : off + g < 2 ^ 32) (ts : List Nat) (s : Led) (t : Nat)
    (hp : Plain on off s) (hr : s.last = clk t) (ht : Ticks g t ts) : Phases on off g (t, lit s) (flips s ts) :=
  phases_run on off g h1 h2 h3 h4 ts s t t hp hr (Nat.le_refl _) (by omega) ht

example : Plain 20 30 ⟨20, 30, 0, 0, 0, 0, true, true, clk (2 ^ 32 - 25), .off⟩ ∧
    flips ⟨20, 30, 0, 0, 0, 0, true, true, clk (2 ^ 32 - 25), .off⟩ [2 ^ 32 - 10, 2 ^ 32, 2 ^ 32 + 10, 2 ^ 32 + 20, 2 ^ 32 + 32] =
      [(2 ^ 32 + 10, true), (2 ^ 32 + 32, false)] := by
  refine ⟨⟨rfl, rfl, rfl, Or.inr ⟨rfl, rfl⟩⟩, by decide +kernel⟩

/-! ## A limited sequence -/

/-- The limited sequence is running. -/
structure Running (on off pause n R : Nat) (s : Led) : Prop where
  onMs : s.onMs = on
  offMs : s.offMs = off
  pauseMs : s.pauseMs = pause
  limit : s.limit = n
  counter : s.counter ≤ n
  repeats : 1 ≤ s.repeats
  shown : Shown s

/-- It is over. -/
structure Over (s : Led) : Prop where
  onMs : s.onMs = 0
  offMs : s.offMs = 1000
  repeats : s.repeats = 1
  state : s.state = .off
  dark : lit s = false

/-- How often it will still go on. -/
def todo (n : Nat) (s : Led) : Nat := s.counter + (s.repeats - 1) * n

/-- The phases that are left. -/
def phasesLeft (n : Nat) (s : Led) : Nat := 2 * todo n s + (if lit s then 1 else 0)

/-- One tick of a running sequence. -/
inductive Tick (on off pause n R : Nat) (s s' : Led) (t r : Nat) : Prop
  | same (h : s' = s) (hd : t - r ≤ max on (max off pause))
  | off (h : Running on off pause n R s') (h1 : lit s = true) (h2 : lit s' = false) (h3 : todo n s' = todo n s) (h4 : s'.last = clk t)
  | on (h : Running on off pause n R s') (h1 : lit s = false) (h2 : lit s' = true) (h3 : todo n s' + 1 = todo n s) (h4 : s'.last = clk t)
  | over (h : Over s') (h1 : lit s = false) (h3 : todo n s = 0)

theorem tick (on off pause n R : Nat) (h1 : 0 < on) (h2 : 0 < off) (h3 : 0 < pause) (h4 : 0 < n) (s : Led) (t r : Nat) (hs : Running on off pause n R s)
    (hr : s.last = clk r) (hle : r ≤ t) (hd : t - r < 2 ^ 32) : Tick on off pause n R s (updatePin t s) t r := by
  obtain ⟨e1, e2, e3, e4, e5, e6, e7⟩ := hs
  have hsince : since (clk t) s.last = t - r := by rw [hr]; exact since_clk_eq _ _ hle hd
  rcases e7 with ⟨hs, hl⟩ | ⟨hs, hl⟩
  · by_cases hx : t - r > on
    · have hu : updatePin t s = turnOff t s := by
        unfold updatePin
        rw [if_neg (by omega), if_pos hs, hsince, if_pos (by omega)]
      rw [hu]
      exact .off ⟨e1, e2, e3, e4, e5, e6, Or.inr ⟨rfl, lit_off t s⟩⟩ hl (lit_off t s) rfl rfl
    · have hu : updatePin t s = s := by
        unfold updatePin
        rw [if_neg (by omega), if_pos hs, hsince, if_neg (by omega)]
      exact .same hu (by omega)
  · have hno : s.state ≠ .on := by rw [hs]; decide
    by_cases hg : groupOver s
    · by_cases hx : t - r < pause
      · have hu : updatePin t s = s := by
          unfold updatePin
          rw [if_neg (by omega), if_neg hno, if_pos hs, hsince, if_pos ⟨hg, by omega⟩]
        exact .same hu (by omega)
      · by_cases hy : t - r > off
        · have hu : updatePin t s = next t s := by
            unfold updatePin
            rw [if_neg (by omega), if_neg hno, if_pos hs, hsince, if_neg (fun hc => by have := hc.2; omega), if_pos (by omega)]
          rw [hu]
          unfold next
          rw [if_pos hg]
          have hc0 : s.counter = 0 := hg.2.2
          split
          · rename_i hrep
            refine .over ⟨rfl, rfl, hrep, hs, hl⟩ hl ?_
            unfold todo
            rw [hc0, hrep]
            simp
          · rename_i hrep
            have hlb : lit (blink t { s with counter := s.limit, repeats := s.repeats - 1 }) = true := lit_on t _
            refine .on ⟨e1, e2, e3, e4, ?_, ?_, Or.inl ⟨rfl, hlb⟩⟩ hl hlb ?_ rfl
            · show s.limit - 1 ≤ n; omega
            · show 1 ≤ s.repeats - 1; omega
            · show s.limit - 1 + (s.repeats - 1 - 1) * n + 1 = s.counter + (s.repeats - 1) * n
              obtain ⟨k, hk⟩ : ∃ k, s.repeats = k + 2 := ⟨s.repeats - 2, by omega⟩
              rw [hk, hc0, show k + 2 - 1 - 1 = k by omega, show k + 2 - 1 = k + 1 by omega, Nat.add_mul]
              omega
        · have hu : updatePin t s = s := by
            unfold updatePin
            rw [if_neg (by omega), if_neg hno, if_pos hs, hsince, if_neg (fun hc => by have := hc.2; omega), if_neg (by omega)]
          exact .same hu (by omega)
    · by_cases hy : t - r > off
      · have hu : updatePin t s = blink t s := by
          unfold updatePin
          rw [if_neg (by omega), if_neg hno, if_pos hs, hsince, if_neg (fun hc => hg hc.1), if_pos (by omega)]
          unfold next
          rw [if_neg hg]
        rw [hu]
        have hlb : lit (blink t s) = true := lit_on t _
        have hc0 : 0 < s.counter := by
          refine Nat.pos_of_ne_zero (fun hc => hg ⟨by omega, by omega, hc⟩)
        refine .on ⟨e1, e2, e3, e4, ?_, e6, Or.inl ⟨rfl, hlb⟩⟩ hl hlb ?_ rfl
        · show s.counter - 1 ≤ n; omega
        · show s.counter - 1 + (s.repeats - 1) * n + 1 = s.counter + (s.repeats - 1) * n
          omega
      · have hu : updatePin t s = s := by
          unfold updatePin
          rw [if_neg (by omega), if_neg hno, if_pos hs, hsince, if_neg (fun hc => hg hc.1), if_neg (by omega)]
        exact .same hu (by omega)

theorem over_tick (s : Led) (t : Nat) (h : Over s) : updatePin t s = s := by
  obtain ⟨h1, h2, _, h4, _⟩ := h
  unfold updatePin
  rw [if_pos (Or.inl h1)]
  have hq : steadyOff t s = s := if_neg (fun hc => hc.1 h4)
  rw [hq]
  exact if_neg (fun hc => by have := hc.2; omega)

theorem over_run (ts : List Nat) (s : Led) (h : Over s) : run s ts = s ∧ flips s ts = [] := by
  induction ts with
  | nil => exact ⟨rfl, rfl⟩
  | cons t ts ih =>
    refine ⟨?_, ?_⟩
    · show run (updatePin t s) ts = s
      rw [over_tick s t h]; exact ih.1
    · unfold flips
      rw [over_tick s t h, if_neg (fun hc => hc rfl)]
      exact ih.2

theorem blinks_cons (s : Led) (t : Nat) (ts : List Nat) :
    blinks s (t :: ts) = (if lit s = false ∧ lit (updatePin t s) = true then 1 else 0) + blinks (updatePin t s) ts := by
  unfold blinks
  rw [flips]
  cases h1 : lit s <;> cases h2 : lit (updatePin t s) <;> simp <;> omega

theorem limited_run (on off pause n R g : Nat) (h1 : 0 < on) (h2 : 0 < off) (h3 : 0 < pause) (h4 : 0 < n) (hg : max on (max off pause) + g < 2 ^ 32)
    (ts : List Nat) (s : Led) (t r : Nat) (hs : Running on off pause n R s) (hr : s.last = clk r) (hle : r ≤ t) (hd : t - r ≤ max on (max off pause))
    (ht : Ticks g t ts) :
    (Running on off pause n R (run s ts) ∧ blinks s ts + todo n (run s ts) = todo n s ∧
      lastTime t ts ≤ r + phasesLeft n s * (max on (max off pause) + g) + max on (max off pause)) ∨
    (Over (run s ts) ∧ blinks s ts = todo n s) := by
  induction ts generalizing s t r with
  | nil =>
    left
    refine ⟨hs, by simp [blinks, flips, run], ?_⟩
    show t ≤ _
    omega
  | cons t' ts ih =>
    obtain ⟨a, b, ht'⟩ := ht
    rw [blinks_cons, show run s (t' :: ts) = run (updatePin t' s) ts from rfl, show lastTime t (t' :: ts) = lastTime t' ts from rfl]
    rcases tick on off pause n R h1 h2 h3 h4 s t' r hs hr (by omega) (by omega) with ⟨h, hd'⟩ | ⟨h, l1, l2, hq, hl⟩ | ⟨h, l1, l2, hq, hl⟩ | ⟨h, l1, hq⟩
    · rw [h, if_neg (fun hc => by rw [hc.1] at hc; exact absurd hc.2 (by decide))]
      rcases ih s t' r hs hr (by omega) hd' ht' with ⟨i1, i2, i3⟩ | ⟨i1, i2⟩
      · exact Or.inl ⟨i1, by omega, i3⟩
      · exact Or.inr ⟨i1, by omega⟩
    · rw [l1, if_neg (fun hc => absurd hc.1 (by decide))]
      rcases ih _ t' t' h hl (Nat.le_refl _) (by omega) ht' with ⟨i1, i2, i3⟩ | ⟨i1, i2⟩
      · refine Or.inl ⟨i1, by omega, ?_⟩
        have e : phasesLeft n s = phasesLeft n (updatePin t' s) + 1 := by
          unfold phasesLeft
          rw [hq, l1, l2]
          simp
        rw [e, Nat.add_mul]
        omega
      · exact Or.inr ⟨i1, by omega⟩
    · rw [l1, l2, if_pos ⟨rfl, rfl⟩]
      rcases ih _ t' t' h hl (Nat.le_refl _) (by omega) ht' with ⟨i1, i2, i3⟩ | ⟨i1, i2⟩
      · refine Or.inl ⟨i1, by omega, ?_⟩
        have e : phasesLeft n s = phasesLeft n (updatePin t' s) + 1 := by
          unfold phasesLeft
          rw [← hq, l1, l2]
          simp
          omega
        rw [e, Nat.add_mul]
        omega
      · exact Or.inr ⟨i1, by omega⟩
    · right
      rw [l1, h.dark, if_neg (fun hc => absurd hc.2 (by decide)), (over_run ts _ h).1]
      refine ⟨h, ?_⟩
      unfold blinks
      rw [(over_run ts _ h).2]
      simpa using hq.symm

/-- A LED that is off, told to blink `n` times in each of `R` groups. -/
theorem custom_start (on off pause n R : Nat) (h1 : 0 < on) (h2 : 0 < off) (h4 : 0 < n) (h5 : 0 < R) (s : Led) (hl : lit s = false) (now : Nat) :
    ∃ r, r ≤ now ∧ now - r ≤ max on (max off pause) ∧ (setCustom now on off pause n R s).last = clk r ∧ Running on off pause n R (setCustom now on off pause n R s) ∧
      (if lit (setCustom now on off pause n R s) then 1 else 0) + todo n (setCustom now on off pause n R s) = n * R := by
  have hng : ¬ groupOver { s with onMs := on, offMs := off, pauseMs := pause, limit := n, counter := n, repeats := R, state := .off, last := 0 } := by
    intro hc
    have : n = 0 := hc.2.2
    omega
  have hsince : since (clk now) 0 = clk now := by
    have := clk_lt now
    unfold since; omega
  have hR : ∃ k, R = k + 1 := ⟨R - 1, by omega⟩
  obtain ⟨k, hk⟩ := hR
  by_cases hx : clk now > off
  · have hu : setCustom now on off pause n R s = blink now { s with onMs := on, offMs := off, pauseMs := pause, limit := n, counter := n, repeats := R, state := .off, last := 0 } := by
      unfold setCustom updatePin
      rw [if_neg (by simp; omega), if_neg (by simp), if_pos rfl, if_neg (fun hc => hng hc.1), hsince, if_pos hx]
      unfold next
      rw [if_neg hng]
    rw [hu]
    have hlb : lit (blink now { s with onMs := on, offMs := off, pauseMs := pause, limit := n, counter := n, repeats := R, state := .off, last := 0 }) = true := lit_on now _
    refine ⟨now, Nat.le_refl _, by omega, rfl, ⟨rfl, rfl, rfl, rfl, ?_, h5, Or.inl ⟨rfl, hlb⟩⟩, ?_⟩
    · show n - 1 ≤ n; omega
    · rw [hlb, if_pos rfl]
      show 1 + (n - 1 + (R - 1) * n) = n * R
      rw [hk, show k + 1 - 1 = k by omega, Nat.mul_add, Nat.mul_comm k n]
      omega
  · have hu : setCustom now on off pause n R s = { s with onMs := on, offMs := off, pauseMs := pause, limit := n, counter := n, repeats := R, state := .off, last := 0 } := by
      unfold setCustom updatePin
      rw [if_neg (by simp; omega), if_neg (by simp), if_pos rfl, if_neg (fun hc => hng hc.1), hsince, if_neg hx]
    rw [hu]
    refine ⟨now - clk now, by omega, by omega, ?_, ⟨rfl, rfl, rfl, rfl, Nat.le_refl _, h5, Or.inr ⟨rfl, hl⟩⟩, ?_⟩
    · show 0 = clk (now - clk now)
      unfold clk; omega
    · rw [show lit { s with onMs := on, offMs := off, pauseMs := pause, limit := n, counter := n, repeats := R, state := .off, last := 0 } = false from hl]
      show 0 + (n + (R - 1) * n) = n * R
      rw [hk, show k + 1 - 1 = k by omega, Nat.mul_add, Nat.mul_comm k n]
      omega

/-- **C75.** Told to blink `n` times in each of `R` groups, a LED that was off blinks at most `n * R` times in any
time, and exactly `n * R` times once enough time has passed, and is off then. -/
theorem limited (on off pause n R g : Nat) (h1 : 0 < on) (h2 : 0 < off) (h3 : 0 < pause) (h4 : 0 < n) (h5 : 0 < R) (hg : max on (max off pause) + g < 2 ^ 32)
    (s : Led) (hl : lit s = false) (now : Nat) (ts : List Nat) (ht : Ticks g now ts) :
    (if lit (setCustom now on off pause n R s) then 1 else 0) + blinks (setCustom now on off pause n R s) ts ≤ n * R ∧
    (now + 2 * (n * R) * (max on (max off pause) + g) + max on (max off pause) < lastTime now ts →
      (if lit (setCustom now on off pause n R s) then 1 else 0) + blinks (setCustom now on off pause n R s) ts = n * R ∧
      Over (run (setCustom now on off pause n R s) ts)) := by
  obtain ⟨r, r1, r2, r3, r4, r5⟩ := custom_start on off pause n R h1 h2 h4 h5 s hl now
  rcases limited_run on off pause n R g h1 h2 h3 h4 hg ts _ now r r4 r3 r1 r2 ht with ⟨i1, i2, i3⟩ | ⟨i1, i2⟩
  · refine ⟨by omega, fun hbig => ?_⟩
    exfalso
    have hle : phasesLeft n (setCustom now on off pause n R s) ≤ 2 * (n * R) := by
      unfold phasesLeft
      split at r5
      · rename_i hq; rw [if_pos hq]; omega
      · rename_i hq; rw [if_neg hq]; omega
    have := Nat.mul_le_mul_right (max on (max off pause) + g) hle
    omega
  · exact ⟨by omega, fun _ => ⟨by omega, i1⟩⟩

example : lit (onInit 5 (fresh false true)) = false ∧ Ticks 10 100 [110, 120, 130] := by
  refine ⟨by decide, by simp [Ticks]⟩

/-! ## The status LED -/

/-- What the documentation of the sequences says: on- and off-time of each condition. -/
def wanted (m : Mode) : Seq → Nat × Nat
  | .network => (2000, 2000)
  | .server => (500, 500)
  | .ready => if m = .onWhenConnected then (1000, 0) else (0, 1000)
  | .config => (100, 100)
  | .download => (20, 20)
  | .problem => (300, 100)
  | .testing => (50, 50)
  | .custom => (0, 1000)

/-- The statuses whose sequence depends on the protocols. -/
def Connected (st : Status) : Prop := st = .registering ∨ st = .offline ∨ st = .registered ∨ st = .suplaDisabled

theorem layers_eq (sl : Bool) (l : List Layer) (q : Seq) :
    layers sl l q = if l.any (·.error) then .problem else if sl = false ∧ l.any (·.connecting) = true then .server else q := by
  induction l generalizing q with
  | nil => simp [layers]
  | cons p l ih =>
    unfold layers
    cases he : p.error
    · rw [if_neg (by decide), ih]
      cases hc : p.connecting <;> cases sl <;> simp [he, hc]
    · simp [he]

/-- **C76.** Of all protocols, an error of any is shown first, then that any is connecting, then that all are
ready. -/
theorem priority (sl : Bool) (l : List Layer) (st : Status) (h : Connected st) :
    autoSeq sl l st =
      if l.any (·.error) then .problem
      else if sl = false ∧ l.any (·.connecting) = true then .server
      else if st = .registering then .server else .ready := by
  unfold autoSeq
  rcases h with rfl | rfl | rfl | rfl <;> simp only [statusSeq, if_true, layers_eq] <;> rfl

/-- **C76.** The LED of a device in automatic mode has exactly the times of its condition. -/
theorem auto_exact (sl : Bool) (l : List Layer) (st : Status) (s : StatusLed) (hs : s.seq ≠ .custom) (hm : s.mode = .onWhenConnected ∨ s.mode = .offWhenConnected) :
    ((iterate sl l st s).led.onMs, (iterate sl l st s).led.offMs) = wanted s.mode (autoSeq sl l st) := by
  have h1 : s.mode ≠ .alwaysOff := by rcases hm with h | h <;> rw [h] <;> decide
  have h2 : s.mode ≠ .configOnly := by rcases hm with h | h <;> rw [h] <;> decide
  unfold iterate
  rw [if_neg (fun hc => h1 hc.1), if_neg hs]
  unfold automatic
  rw [if_neg (fun hc => h2 hc.1)]
  by_cases hr : st = .softwareReset
  · subst hr
    rw [if_pos rfl]
    rfl
  · rw [if_neg hr]
    unfold apply
    have hnc : autoSeq sl l st ≠ .custom := by
      unfold autoSeq
      split
      · rw [layers_eq]
        split
        · decide
        · split
          · decide
          · revert hr; cases st <;> cases sl <;> simp [statusSeq]
      · revert hr; cases st <;> cases sl <;> simp [statusSeq]
    generalize autoSeq sl l st = q at hnc
    cases q with
    | custom => exact absurd rfl hnc
    | ready =>
      simp only [durations, wanted]
      by_cases hq : s.mode = .onWhenConnected
      · simp [hq, setDurations]
      · simp [hq, setDurations]
    | _ => rfl

/-- **C76.** With "always off" the LED is dark but for a download, configuration mode or a custom sequence. -/
theorem always_off (sl : Bool) (l : List Layer) (st : Status) (s : StatusLed) (hm : s.mode = .alwaysOff) (h1 : st ≠ .download) (h2 : st ≠ .configMode) (h3 : s.seq ≠ .custom) :
    (iterate sl l st s).led.onMs = 0 ∧ (iterate sl l st s).led.offMs = 1000 := by
  unfold iterate
  rw [if_pos ⟨hm, h1, h2, h3⟩]
  exact ⟨rfl, rfl⟩

/-- **C76.** Configuration mode and a download are shown in this mode too. -/
theorem always_off_shows (sl : Bool) (l : List Layer) (st : Status) (s : StatusLed) (hm : s.mode = .alwaysOff) (h : st = .download ∨ st = .configMode) (h3 : s.seq ≠ .custom) :
    ((iterate sl l st s).led.onMs, (iterate sl l st s).led.offMs) = wanted s.mode (if st = .download then .download else .config) := by
  have h2 : s.mode ≠ .configOnly := by rw [hm]; decide
  rcases h with rfl | rfl
  · unfold iterate
    rw [if_neg (fun hc => hc.2.1 rfl), if_neg h3]
    unfold automatic
    rw [if_neg (fun hc => h2 hc.1), if_neg (by decide)]
    rfl
  · unfold iterate
    rw [if_neg (fun hc => hc.2.2.1 rfl), if_neg h3]
    unfold automatic
    rw [if_neg (fun hc => h2 hc.1), if_neg (by decide)]
    rfl

/-- **C76.** With "in configuration mode only" it is dark in every other condition. -/
theorem config_only (sl : Bool) (l : List Layer) (st : Status) (s : StatusLed) (hm : s.mode = .configOnly) (h1 : st ≠ .configMode) (h3 : s.seq ≠ .custom) :
    (iterate sl l st s).led.onMs = 0 ∧ (iterate sl l st s).led.offMs = 1000 := by
  unfold iterate
  rw [if_neg (fun hc => by rw [hm] at hc; exact absurd hc.1 (by decide)), if_neg h3]
  unfold automatic
  rw [if_pos]
  · exact ⟨rfl, rfl⟩
  · refine ⟨hm, ?_⟩
    unfold autoSeq
    split
    · rw [layers_eq]
      split
      · decide
      · split
        · decide
        · revert h1; cases st <;> cases sl <;> simp [statusSeq]
    · revert h1; cases st <;> cases sl <;> simp [statusSeq]

theorem autoSeq_ne (sl : Bool) (l : List Layer) (st : Status) (hst : st ≠ .softwareReset) : autoSeq sl l st ≠ .custom := by
  unfold autoSeq
  split
  · rw [layers_eq]
    split
    · decide
    · split
      · decide
      · revert hst; cases st <;> cases sl <;> simp [statusSeq]
  · revert hst; cases st <;> cases sl <;> simp [statusSeq]

/-- **C76.** "Identify" blinks 15 times, and once it is over the status is shown again. -/
theorem identify_then_status (s : StatusLed) (hm : s.mode = .onWhenConnected ∨ s.mode = .offWhenConnected) (hl : lit s.led = false) (now : Nat) (ts : List Nat)
    (ht : Ticks 10 now ts) (hlong : now + 30 * 410 + 400 < lastTime now ts) (sl : Bool) (l : List Layer) (st : Status) :
    (if lit (identify now s).led then 1 else 0) + blinks (identify now s).led ts = 15 ∧
    ((iterate sl l st { identify now s with led := run (identify now s).led ts }).led.onMs,
      (iterate sl l st { identify now s with led := run (identify now s).led ts }).led.offMs) = wanted s.mode (autoSeq sl l st) := by
  obtain ⟨_, h2⟩ := limited 150 150 400 3 5 10 (by decide) (by decide) (by decide) (by decide) (by decide) (by decide) s.led hl now ts ht
  have e : now + 2 * (3 * 5) * (max 150 (max 150 400) + 10) + max 150 (max 150 400) = now + 30 * 410 + 400 := by
    rw [show max 150 (max 150 400) = 400 by decide]
  obtain ⟨h3, h4⟩ := h2 (by rw [e]; exact hlong)
  have hid : (identify now s).led = setCustom now 150 150 400 3 5 s.led := by rw [identify, setCustomStatus]
  have hseq : (identify now s).seq = .custom := by rw [identify, setCustomStatus]
  have hmode : (identify now s).mode = s.mode := by rw [identify, setCustomStatus]
  refine ⟨by rw [hid]; exact h3, ?_⟩
  dsimp only
  rw [hid, hseq, hmode]
  generalize hx : (⟨run (setCustom now 150 150 400 3 5 s.led) ts, .custom, s.mode⟩ : StatusLed) = x
  have hr : ranOut x := by rw [← hx]; exact ⟨h4.repeats, h4.onMs, h4.offMs⟩
  have hc : x.seq = .custom := by rw [← hx]
  have hxm : x.mode = s.mode := by rw [← hx]
  have hi : iterate sl l st x = automatic sl l st (setAuto x) := by
    unfold iterate
    rw [if_neg (fun h => h.2.2.2 hc), if_pos hc, if_pos hr]
  have hj : iterate sl l st (setAuto x) = automatic sl l st (setAuto x) := by
    unfold iterate
    have hma : (setAuto x).mode ≠ .alwaysOff := by
      show x.mode ≠ .alwaysOff
      rw [hxm]
      rcases hm with h | h <;> rw [h] <;> decide
    rw [if_neg (fun h => hma h.1), if_neg (by show Seq.network ≠ Seq.custom; decide)]
  rw [hi, ← hj, auto_exact sl l st (setAuto x) (by show Seq.network ≠ Seq.custom; decide) (by show x.mode = _ ∨ x.mode = _; rw [hxm]; exact hm)]
  show wanted x.mode _ = _
  rw [hxm]

example : lit (⟨fresh false false, .network, .onWhenConnected⟩ : StatusLed).led = false := by decide

instance decTicks (g : Nat) : (t : Nat) → (ts : List Nat) → Decidable (Ticks g t ts)
  | _, [] => isTrue trivial
  | t, t' :: l => by
    have := decTicks g t' l
    exact inferInstanceAs (Decidable (t ≤ t' ∧ t' - t ≤ g ∧ Ticks g t' l))

instance decPhases (on off g : Nat) : (x : Nat × Bool) → (l : List (Nat × Bool)) → Decidable (Phases on off g x l)
  | _, [] => isTrue trivial
  | (t, b), (t', b') :: l => by
    have := decPhases on off g (t', b') l
    exact inferInstanceAs (Decidable (b' = !b ∧ (if b then on else off) < t' - t ∧ t' - t ≤ (if b then on else off) + g ∧ Phases on off g (t', b') l))

/-- The full claim: back in automatic mode (here: configuration mode, 100 ms on and off), the LED blinks at the
rate of its condition. -/
def AutoRate : Prop :=
  ∀ (s : StatusLed) (on off pause limit now g : Nat) (ts : List Nat), Shown s.led → Ticks g now ts →
    Phases 100 100 g (now, lit (iterate false [] .configMode (setAuto (setCustomStatus now on off pause limit 0 s))).led)
      (flips (iterate false [] .configMode (setAuto (setCustomStatus now on off pause limit 0 s))).led ts)

/-- The LED after a custom sequence of 1 ms flashes with pauses of a second, and the return to automatic mode. -/
def grouped : Led := (iterate false [] .configMode (setAuto (setCustomStatus 10 1 1 1000 1 0 ⟨⟨0, 1000, 0, 0, 0, 0, false, false, 0, .off⟩, .network, .onWhenConnected⟩))).led

/-- A tick every 110 ms. -/
def beat : List Nat := [10, 120, 230, 340, 450, 560, 670, 780, 890, 1000, 1110, 1220]

/-- **Finding.** The limit and the pause of the custom sequence stay: the automatic sequences then blink in groups
with pauses. -/
theorem auto_rate_violation : ¬ AutoRate := by
  intro h
  have h1 : Phases 100 100 110 (10, lit grouped) (flips grouped beat) := h _ 1 1 1000 1 10 110 beat (Or.inr ⟨rfl, rfl⟩) (by decide)
  revert h1
  decide +kernel

end Verif.Led
