import Verif.Timekeep.Model

/-!
# Counted time is true time
-/

namespace Verif.Timekeep

/-! ## Operating time of a light: specification -/

/-- What really happened: whether the light is on, how many milliseconds it was on since the last reset, how often
it was switched (on again or off) while on since then, and the time since the main loop came by. -/
structure Truth where
  on : Bool
  total : Nat
  cuts : Nat
  gap : Nat
deriving DecidableEq, Repr

/-- One event. -/
def truth (h : Truth) : LightOp → Truth
  | .wait d => { h with total := h.total + (if h.on then d else 0), gap := h.gap + d }
  | .turnOn => { h with on := true, cuts := h.cuts + (if h.on then 1 else 0) }
  | .turnOff => { h with on := false, cuts := h.cuts + (if h.on then 1 else 0) }
  | .pass => { h with gap := 0 }
  | .reset => { h with total := 0, cuts := 0 }

/-- The light is off at first. -/
def truthInit : Truth := ⟨false, 0, 0, 0⟩

/-- The main loop comes by at least every `g` milliseconds. -/
def Dense (g : Nat) : Truth → List LightOp → Prop
  | h, [] => h.gap ≤ g
  | h, o :: l => h.gap ≤ g ∧ Dense g (truth h o) l

/-! ## Operating time of a light: proof -/

theorem back (n s : Nat) (h : s ≤ n) : (clk n + 2 ^ 32 - s % 2 ^ 32) % 2 ^ 32 = clk (n - s) := by
  unfold clk; omega

theorem pass_off (s : Light) (h : s.on = false) : lightStep s .pass = s := by simp [lightStep, h]

theorem pass_on (s : Light) (h : s.on = true) : lightStep s .pass = countSeconds s := by simp [lightStep, h]

/-- The relation kept: `r` is the true time of the timestamp. -/
structure Kept (g : Nat) (s : Light) (h : Truth) (r : Nat) : Prop where
  on : s.on = h.on
  le : h.on = true → r ≤ s.now ∧ s.ts = clk r ∧ s.now - r ≤ 999 + h.gap
  up : 1000 * s.cum + (if h.on then s.now - r else 0) ≤ h.total + (999 + g)
  low : h.total ≤ 1000 * s.cum + (if h.on then s.now - r else 0) + h.cuts * (999 + g)

theorem kept_step {g : Nat} (hg : 999 + g < 2 ^ 32) {s : Light} {h : Truth} {r : Nat} (k : Kept g s h r) (hgap : h.gap ≤ g) (o : LightOp) :
    ∃ r', Kept g (lightStep s o) (truth h o) r' := by
  obtain ⟨hon, hle, hup, hlow⟩ := k
  cases o with
  | wait d =>
    refine ⟨r, hon, ?_, ?_, ?_⟩
    · intro h1
      obtain ⟨a, b, c⟩ := hle h1
      refine ⟨?_, b, ?_⟩
      · show r ≤ s.now + d; omega
      · show s.now + d - r ≤ 999 + (h.gap + d); omega
    · show 1000 * s.cum + (if h.on then s.now + d - r else 0) ≤ h.total + (if h.on then d else 0) + (999 + g)
      by_cases h1 : h.on = true
      · have := hle h1
        simp only [h1, if_true] at hup ⊢
        omega
      · simp only [h1] at hup ⊢
        simpa using hup
    · show h.total + (if h.on then d else 0) ≤ 1000 * s.cum + (if h.on then s.now + d - r else 0) + h.cuts * (999 + g)
      by_cases h1 : h.on = true
      · have := hle h1
        simp only [h1, if_true] at hlow ⊢
        omega
      · simp only [h1] at hlow ⊢
        simpa using hlow
  | turnOn =>
    refine ⟨s.now, rfl, ?_, ?_, ?_⟩
    · intro _
      refine ⟨Nat.le_refl _, rfl, ?_⟩
      show s.now - s.now ≤ _; omega
    · show 1000 * s.cum + (if true then s.now - s.now else 0) ≤ h.total + (999 + g)
      simp only [if_true, Nat.sub_self]
      omega
    · show h.total ≤ 1000 * s.cum + (if true then s.now - s.now else 0) + (h.cuts + (if h.on then 1 else 0)) * (999 + g)
      simp only [if_true, Nat.sub_self]
      by_cases h1 : h.on = true
      · have := hle h1
        simp only [h1, if_true] at hlow ⊢
        rw [Nat.add_mul]
        omega
      · simp only [h1] at hlow ⊢
        simpa using hlow
  | turnOff =>
    refine ⟨r, rfl, ?_, ?_, ?_⟩
    · intro h1; cases h1
    · show 1000 * s.cum + (if false then s.now - r else 0) ≤ h.total + (999 + g)
      simp only [Bool.false_eq_true, if_false]
      omega
    · show h.total ≤ 1000 * s.cum + (if false then s.now - r else 0) + (h.cuts + (if h.on then 1 else 0)) * (999 + g)
      simp only [Bool.false_eq_true, if_false]
      by_cases h1 : h.on = true
      · have := hle h1
        simp only [h1, if_true] at hlow ⊢
        rw [Nat.add_mul]
        omega
      · simp only [h1] at hlow ⊢
        simpa using hlow
  | reset =>
    refine ⟨r, hon, hle, ?_, ?_⟩
    · show 1000 * 0 + (if h.on then s.now - r else 0) ≤ 0 + (999 + g)
      by_cases h1 : h.on = true
      · have := hle h1
        simp only [h1, if_true]
        omega
      · simp [h1]
    · show 0 ≤ _; omega
  | pass =>
    by_cases h1 : h.on = true
    · obtain ⟨a, b, c⟩ := hle h1
      have hs : since (clk s.now) s.ts = s.now - r := by
        rw [b]; exact since_clk_eq _ _ a (by omega)
      simp only [h1, if_true] at hup hlow
      rw [pass_on s (hon.trans h1), show truth h .pass = { h with gap := 0 } from rfl]
      unfold countSeconds
      rw [hs]
      split
      · refine ⟨s.now - (s.now - r) % 1000, hon, ?_, ?_, ?_⟩
        · intro _
          refine ⟨?_, ?_, ?_⟩
          · show s.now - (s.now - r) % 1000 ≤ s.now; omega
          · show (clk s.now + 2 ^ 32 - (s.now - r) % 1000) % 2 ^ 32 = _
            have := back s.now ((s.now - r) % 1000) (by omega)
            rwa [Nat.mod_eq_of_lt (show (s.now - r) % 1000 < 2 ^ 32 by omega)] at this
          · show s.now - (s.now - (s.now - r) % 1000) ≤ 999 + 0; omega
        · show 1000 * (s.cum + (s.now - r) / 1000) + (if h.on then s.now - (s.now - (s.now - r) % 1000) else 0) ≤ h.total + (999 + g)
          simp only [h1, if_true]
          omega
        · show h.total ≤ 1000 * (s.cum + (s.now - r) / 1000) + (if h.on then s.now - (s.now - (s.now - r) % 1000) else 0) + h.cuts * (999 + g)
          simp only [h1, if_true]
          omega
      · rename_i hz
        refine ⟨r, hon, ?_, ?_, ?_⟩
        · intro _
          refine ⟨a, b, ?_⟩
          show s.now - r ≤ 999 + 0; omega
        · show 1000 * s.cum + (if h.on then s.now - r else 0) ≤ h.total + (999 + g)
          simp only [h1, if_true]
          exact hup
        · show h.total ≤ 1000 * s.cum + (if h.on then s.now - r else 0) + h.cuts * (999 + g)
          simp only [h1, if_true]
          exact hlow
    · have h2 : h.on = false := by simpa using h1
      rw [pass_off s (hon.trans h2)]
      refine ⟨r, hon, ?_, hup, hlow⟩
      intro h3; exact absurd h3 h1

theorem kept_run {g : Nat} (hg : 999 + g < 2 ^ 32) (ops : List LightOp) (s : Light) (h : Truth) (r : Nat) (k : Kept g s h r) (hd : Dense g h ops) :
    ∃ r', Kept g (ops.foldl lightStep s) (ops.foldl truth h) r' ∧ (ops.foldl truth h).gap ≤ g := by
  induction ops generalizing s h r with
  | nil => exact ⟨r, k, hd⟩
  | cons o ops ih =>
    obtain ⟨r', k'⟩ := kept_step hg k hd.1 o
    exact ih _ _ r' k' hd.2

/-- **C71.** If the main loop comes by at least every `g` milliseconds, the seconds counted exceed the time the
light was on since the last reset by at most one second and one pass, and miss at most that much for now and for
every time it was switched while on. -/
theorem operating_time_partial (g : Nat) (hg : 999 + g < 2 ^ 32) (now ts : Nat) (ops : List LightOp) (hd : Dense g truthInit ops) :
    1000 * (ops.foldl lightStep (lightInit now ts)).cum ≤ (ops.foldl truth truthInit).total + (999 + g) ∧
    (ops.foldl truth truthInit).total ≤ 1000 * (ops.foldl lightStep (lightInit now ts)).cum + ((ops.foldl truth truthInit).cuts + 1) * (999 + g) := by
  obtain ⟨r, k, hgap⟩ := kept_run hg ops (lightInit now ts) truthInit 0 ⟨rfl, (fun h => by cases h), (by simp [lightInit, truthInit]), (by simp [lightInit, truthInit])⟩ hd
  obtain ⟨_, hle, hup, hlow⟩ := k
  refine ⟨by omega, ?_⟩
  rw [Nat.add_mul]
  by_cases h1 : (ops.foldl truth truthInit).on = true
  · have := hle h1
    simp only [h1, if_true] at hlow
    omega
  · simp only [h1] at hlow
    simp only [Bool.false_eq_true, if_false, Nat.add_zero] at hlow
    omega

example : Dense 1500 truthInit [.turnOn, .wait 1500, .pass, .wait 1400, .pass, .turnOff] ∧
    ([LightOp.turnOn, .wait 1500, .pass, .wait 1400, .pass, .turnOff].foldl lightStep (lightInit (2 ^ 32 - 700) 5)).cum = 2 := by
  refine ⟨by simp [Dense, truth, truthInit], by decide⟩

/-- No reset of the counter. -/
def NoReset (ops : List LightOp) : Prop := LightOp.reset ∉ ops

theorem never_more_run (ops : List LightOp) (hn : NoReset ops) (s : Light) (h : Truth) (r : Nat) (hon : s.on = h.on)
    (hle : h.on = true → r ≤ s.now ∧ s.ts = clk r) (hup : 1000 * s.cum + (if h.on then s.now - r else 0) ≤ h.total) :
    1000 * (ops.foldl lightStep s).cum ≤ (ops.foldl truth h).total := by
  induction ops generalizing s h r with
  | nil =>
    show 1000 * s.cum ≤ h.total
    omega
  | cons o ops ih =>
    have hn' : NoReset ops := fun hm => hn (List.mem_cons_of_mem _ hm)
    rw [List.foldl_cons, List.foldl_cons]
    cases o with
    | wait d =>
      refine ih hn' _ _ r hon ?_ ?_
      · intro h1
        obtain ⟨a, b⟩ := hle h1
        refine ⟨?_, b⟩
        show r ≤ s.now + d; omega
      · show 1000 * s.cum + (if h.on then s.now + d - r else 0) ≤ h.total + (if h.on then d else 0)
        by_cases h1 : h.on = true
        · have := hle h1
          simp only [h1, if_true] at hup ⊢
          omega
        · simp only [h1] at hup ⊢
          simpa using hup
    | turnOn =>
      refine ih hn' _ _ s.now rfl (fun _ => ⟨Nat.le_refl _, rfl⟩) ?_
      show 1000 * s.cum + (if true then s.now - s.now else 0) ≤ h.total
      simp only [if_true, Nat.sub_self]
      omega
    | turnOff =>
      refine ih hn' _ _ r rfl (fun h1 => by cases h1) ?_
      show 1000 * s.cum + (if false then s.now - r else 0) ≤ h.total
      simp only [Bool.false_eq_true, if_false]
      omega
    | reset => exact absurd (List.mem_cons_self ..) hn
    | pass =>
      by_cases h1 : h.on = true
      · obtain ⟨a, b⟩ := hle h1
        have hs : since (clk s.now) s.ts ≤ s.now - r := by rw [b]; exact since_clk_le _ _ a
        simp only [h1, if_true] at hup
        rw [pass_on s (hon.trans h1)]
        unfold countSeconds
        generalize hx : since (clk s.now) s.ts = x at hs ⊢
        have hx2 : x < 2 ^ 32 := by rw [← hx]; exact since_lt _ _
        split
        · refine ih hn' _ _ (s.now - x % 1000) hon (fun _ => ⟨?_, ?_⟩) ?_
          · show s.now - x % 1000 ≤ s.now; omega
          · show (clk s.now + 2 ^ 32 - x % 1000) % 2 ^ 32 = _
            have := back s.now (x % 1000) (by omega)
            rwa [Nat.mod_eq_of_lt (show x % 1000 < 2 ^ 32 by omega)] at this
          · show 1000 * (s.cum + x / 1000) + (if h.on then s.now - (s.now - x % 1000) else 0) ≤ h.total
            simp only [h1, if_true]
            omega
        · refine ih hn' s { h with gap := 0 } r hon hle ?_
          show 1000 * s.cum + (if h.on then s.now - r else 0) ≤ h.total
          simp only [h1, if_true]
          exact hup
      · have h2 : h.on = false := by simpa using h1
        rw [pass_off s (hon.trans h2)]
        exact ih hn' s { h with gap := 0 } r hon hle hup

/-- **C71.** Without a reset never more is counted than the light was on, however rarely the main loop comes by. -/
theorem never_more (now ts : Nat) (ops : List LightOp) (hn : NoReset ops) :
    1000 * (ops.foldl lightStep (lightInit now ts)).cum ≤ (ops.foldl truth truthInit).total :=
  never_more_run ops hn _ _ 0 rfl (fun h => by cases h) (by simp [lightInit, truthInit])

example : NoReset [.turnOn, .wait 5000, .pass, .turnOff] := by simp [NoReset]

/-- The full claim: what is not counted is at most a second and a pass. -/
def Accurate : Prop :=
  ∀ (g now ts : Nat) (ops : List LightOp), 999 + g < 2 ^ 32 → Dense g truthInit ops →
    (ops.foldl truth truthInit).total ≤ 1000 * (ops.foldl lightStep (lightInit now ts)).cum + (999 + g)

/-- A light that is switched on again every 900 ms, as by a repeated command. -/
def again : Nat → List LightOp
  | 0 => []
  | n + 1 => .turnOn :: .wait 900 :: .pass :: again n

theorem again_light (n : Nat) (s : Light) : ((again n).foldl lightStep s).cum = s.cum := by
  induction n generalizing s with
  | zero => rfl
  | succ n ih =>
    simp only [again, List.foldl_cons]
    rw [ih]
    have hs : since (clk (s.now + 900)) (clk s.now) / 1000 = 0 := by
      rw [since_clk_eq _ _ (by omega) (by omega)]; omega
    have hp : lightStep (lightStep (lightStep s .turnOn) (.wait 900)) .pass = lightStep (lightStep s .turnOn) (.wait 900) := by
      rw [pass_on (lightStep (lightStep s .turnOn) (.wait 900)) rfl]
      unfold countSeconds
      exact if_neg (by show ¬ since (clk (s.now + 900)) (clk s.now) / 1000 > 0; omega)
    rw [hp]
    rfl

theorem again_truth (n : Nat) (h : Truth) : ((again n).foldl truth h).total = h.total + 900 * n := by
  induction n generalizing h with
  | zero => rfl
  | succ n ih =>
    simp only [again, List.foldl_cons]
    rw [ih]
    show h.total + (if (true : Bool) = true then 900 else 0) + 900 * n = _
    rw [if_pos rfl]
    omega

theorem again_dense (n : Nat) (h : Truth) (hg : h.gap = 0) : Dense 900 h (again n) := by
  induction n generalizing h with
  | zero => show h.gap ≤ 900; omega
  | succ n ih =>
    refine ⟨by omega, ?_, ?_, ?_⟩
    · show h.gap ≤ 900; omega
    · show h.gap + 900 ≤ 900; omega
    · exact ih _ rfl

/-- **Finding.** A light that is switched on again more often than every second counts nothing at all. -/
theorem repeated_turn_on (n now ts : Nat) :
    ((again n).foldl lightStep (lightInit now ts)).cum = 0 ∧ ((again n).foldl truth truthInit).total = 900 * n := by
  refine ⟨again_light n _, ?_⟩
  rw [again_truth]
  simp [truthInit]

theorem accurate_violation : ¬ Accurate := by
  intro h
  have h1 := h 900 0 0 (again 3) (by decide) (again_dense 3 _ rfl)
  rw [(repeated_turn_on 3 0 0).1, (repeated_turn_on 3 0 0).2] at h1
  omega

/-! ## Uptime -/

theorem addSeconds_eq (n : Nat) (u : Uptime) (h1 : u.device < 2 ^ 32) (h2 : u.connection < 2 ^ 32) (h3 : u.lastMillis < 2 ^ 32) :
    addSeconds n u = { u with device := (u.device + n) % 2 ^ 32, connection := (u.connection + n) % 2 ^ 32, lastMillis := (u.lastMillis + 1000 * n) % 2 ^ 32 } := by
  induction n generalizing u with
  | zero =>
    cases u
    simp only [addSeconds, Uptime.mk.injEq, and_true] at *
    refine ⟨?_, ?_, ?_⟩ <;> omega
  | succ n ih =>
    rw [addSeconds, ih _ (Nat.mod_lt _ (by decide)) (Nat.mod_lt _ (by decide)) (Nat.mod_lt _ (by decide))]
    have e1 : ((u.device + 1) % 2 ^ 32 + n) % 2 ^ 32 = (u.device + (n + 1)) % 2 ^ 32 := by omega
    have e2 : ((u.connection + 1) % 2 ^ 32 + n) % 2 ^ 32 = (u.connection + (n + 1)) % 2 ^ 32 := by omega
    have e3 : ((u.lastMillis + 1000) % 2 ^ 32 + 1000 * n) % 2 ^ 32 = (u.lastMillis + 1000 * (n + 1)) % 2 ^ 32 := by omega
    simp only [e1, e2, e3]

/-- Specification: the time of the last pass and of the last pass before the last connection. -/
structure Seen where
  last : Nat
  conn : Nat
deriving DecidableEq, Repr

/-- One event. -/
def seen (h : Seen) : UpOp → Seen
  | .pass t => { h with last := t }
  | .connected => { h with conn := h.last }
  | .lost _ => h

/-- The passes come in order, at most an hour less a second apart. -/
def Regular : Seen → List UpOp → Prop
  | _, [] => True
  | h, .pass t :: l => h.last ≤ t ∧ t - h.last ≤ 3599001 ∧ Regular (seen h (.pass t)) l
  | h, o :: l => Regular (seen h o) l

/-- The relation kept. -/
structure UpKept (u : Uptime) (h : Seen) : Prop where
  device : u.device = h.last / 1000 % 2 ^ 32
  connection : u.connection = (h.last / 1000 - h.conn / 1000) % 2 ^ 32
  stamp : u.lastMillis = clk (1000 * (h.last / 1000))
  le : h.conn ≤ h.last

theorem pass_kept (u : Uptime) (h : Seen) (t : Nat) (k : UpKept u h) (h1 : h.last ≤ t) (h2 : t - h.last ≤ 3599001) :
    UpKept (iterate (clk t) u) (seen h (.pass t)) := by
  obtain ⟨a, b, c, d⟩ := k
  have hs : since (clk t) u.lastMillis = t - 1000 * (h.last / 1000) := by
    rw [c]; exact since_clk_eq _ _ (by omega) (by omega)
  have hs2 : t - 1000 * (h.last / 1000) ≤ 3600000 := by omega
  have hdiv : 1000 * ((t - 1000 * (h.last / 1000)) / 1000) = 1000 * (t / 1000) - 1000 * (h.last / 1000) := by omega
  unfold iterate
  rw [hs, if_neg (by omega), addSeconds_eq _ _ (by rw [a]; exact Nat.mod_lt _ (by decide)) (by rw [b]; exact Nat.mod_lt _ (by decide)) (by rw [c]; exact clk_lt _)]
  refine ⟨?_, ?_, ?_, ?_⟩
  · show (u.device + _) % 2 ^ 32 = t / 1000 % 2 ^ 32
    rw [a]; omega
  · show (u.connection + _) % 2 ^ 32 = (t / 1000 - h.conn / 1000) % 2 ^ 32
    rw [b]
    omega
  · show (u.lastMillis + _) % 2 ^ 32 = clk (1000 * (t / 1000))
    rw [c, hdiv]
    unfold clk
    omega
  · show h.conn ≤ t; omega

theorem up_run (ops : List UpOp) (u : Uptime) (h : Seen) (k : UpKept u h) (hr : Regular h ops) :
    UpKept (ops.foldl upStep u) (ops.foldl seen h) := by
  induction ops generalizing u h with
  | nil => exact k
  | cons o ops ih =>
    rw [List.foldl_cons, List.foldl_cons]
    cases o with
    | pass t => exact ih _ _ (pass_kept u h t k hr.1 hr.2.1) hr.2.2
    | connected =>
      refine ih _ _ ⟨k.device, ?_, k.stamp, Nat.le_refl _⟩ hr
      show 0 = (h.last / 1000 - h.last / 1000) % 2 ^ 32
      rw [Nat.sub_self]
    | lost c =>
      refine ih _ _ ?_ hr
      obtain ⟨a, b, e, d⟩ := k
      have hq : (lost c u).device = u.device ∧ (lost c u).connection = u.connection ∧ (lost c u).lastMillis = u.lastMillis := by
        unfold lost; split <;> exact ⟨rfl, rfl, rfl⟩
      exact ⟨hq.1.trans a, hq.2.1.trans b, hq.2.2.trans e, d⟩

/-- **C72.** The reported uptime is the whole seconds since the start, and the connection uptime those since the
connection (counted from the pass before it), for any history in which the passes are less than an hour apart,
also when the millisecond clock wraps around. -/
theorem uptime_exact_partial (ops : List UpOp) (hr : Regular ⟨0, 0⟩ ops) :
    (ops.foldl upStep uptimeInit).device = (ops.foldl seen ⟨0, 0⟩).last / 1000 % 2 ^ 32 ∧
    (ops.foldl upStep uptimeInit).connection = ((ops.foldl seen ⟨0, 0⟩).last / 1000 - (ops.foldl seen ⟨0, 0⟩).conn / 1000) % 2 ^ 32 := by
  have := up_run ops uptimeInit ⟨0, 0⟩ ⟨rfl, rfl, rfl, Nat.le_refl _⟩ hr
  exact ⟨this.device, this.connection⟩

example : Regular ⟨0, 0⟩ [.pass 500, .pass 3000, .connected, .pass 10500] ∧
    ([UpOp.pass 500, .pass 3000, .connected, .pass 10500].foldl upStep uptimeInit).connection = 7 := by
  refine ⟨by simp [Regular, seen], by decide +kernel⟩

/-- The passes come in order. -/
def Ordered : Seen → List UpOp → Prop
  | _, [] => True
  | h, .pass t :: l => h.last ≤ t ∧ Ordered (seen h (.pass t)) l
  | h, o :: l => Ordered (seen h o) l

/-- The full claim: the passes may be any time apart. -/
def UptimeExact : Prop :=
  ∀ (ops : List UpOp), Ordered ⟨0, 0⟩ ops → (ops.foldl upStep uptimeInit).device = (ops.foldl seen ⟨0, 0⟩).last / 1000 % 2 ^ 32

/-- **Finding.** After a pause of more than an hour (a download, a debugger, a long setup) the whole pause is
missing. -/
theorem uptime_violation : ¬ UptimeExact := by
  intro h
  have := h [.pass 3600001] ⟨by decide, trivial⟩
  revert this; decide +kernel

/-- No connection in between. -/
def NoConnect (l : List UpOp) : Prop := UpOp.connected ∉ l

/-- No loss. -/
def NoLoss (l : List UpOp) : Prop := ∀ c, UpOp.lost c ∉ l

theorem accept_add (n : Nat) (u : Uptime) : (addSeconds n u).accept = u.accept ∧ (addSeconds n u).cause = u.cause := by
  induction n generalizing u with
  | zero => exact ⟨rfl, rfl⟩
  | succ n ih => rw [addSeconds]; exact ih _

theorem accept_iterate (m : Nat) (u : Uptime) : (iterate m u).accept = u.accept ∧ (iterate m u).cause = u.cause := by
  unfold iterate
  split
  · exact ⟨rfl, rfl⟩
  · exact accept_add _ u

theorem closed_run (l : List UpOp) (hl : NoConnect l) (u : Uptime) (h : u.accept = false) :
    (l.foldl upStep u).accept = false ∧ (l.foldl upStep u).cause = u.cause := by
  induction l generalizing u with
  | nil => exact ⟨h, rfl⟩
  | cons o l ih =>
    have hl' : NoConnect l := fun hm => hl (List.mem_cons_of_mem _ hm)
    rw [List.foldl_cons]
    cases o with
    | pass t =>
      have := ih hl' (iterate (clk t) u) ((accept_iterate _ _).1.trans h)
      exact ⟨this.1, this.2.trans (accept_iterate _ _).2⟩
    | connected => exact absurd (List.mem_cons_self ..) hl
    | lost c =>
      have hq : lost c u = u := by unfold lost; rw [if_neg (by rw [h]; decide)]
      rw [show upStep u (.lost c) = u from hq]
      exact ih hl' u h

theorem open_run (l : List UpOp) (hl : NoLoss l) (u : Uptime) (h : u.accept = true) :
    (l.foldl upStep u).accept = true ∧ (l.foldl upStep u).cause = u.cause := by
  induction l generalizing u with
  | nil => exact ⟨h, rfl⟩
  | cons o l ih =>
    have hl' : NoLoss l := fun c hm => hl c (List.mem_cons_of_mem _ hm)
    rw [List.foldl_cons]
    cases o with
    | pass t =>
      have := ih hl' (iterate (clk t) u) ((accept_iterate _ _).1.trans h)
      exact ⟨this.1, this.2.trans (accept_iterate _ _).2⟩
    | connected => exact ih hl' (resetConnection u) rfl
    | lost c => exact absurd (List.mem_cons_self ..) (hl c)

/-- **C72.** After any history, the cause of the first loss after a connection is reported until the next
connection is lost: not that of later failures to connect. -/
theorem first_cause (before between after : List UpOp) (c : Nat) (h1 : NoLoss between) (h2 : NoConnect after) (u : Uptime) :
    ((before ++ .connected :: between ++ .lost c :: after).foldl upStep u).cause = c := by
  rw [List.foldl_append, List.foldl_append, List.foldl_cons, List.foldl_cons]
  generalize before.foldl upStep u = u1
  have := open_run between h1 (upStep u1 .connected) rfl
  generalize between.foldl upStep (upStep u1 .connected) = u2 at this
  have hq : upStep u2 (.lost c) = { u2 with cause := c, accept := false } := by
    show lost c u2 = _
    unfold lost; rw [if_pos this.1]
  rw [hq]
  exact (closed_run after h2 _ rfl).2

/-- **C72.** A connection that is not lost changes nothing in the reported cause. -/
theorem cause_kept (l : List UpOp) (h : NoLoss l) (u : Uptime) : ((UpOp.connected :: l).foldl upStep u).cause = u.cause := by
  rw [List.foldl_cons]
  exact (open_run l h _ rfl).2

example : ([UpOp.connected, .pass 5000, .lost 3, .lost 2, .pass 6000].foldl upStep uptimeInit).cause = 3 := by decide +kernel

/-! ## The clock -/

/-- The timer runs at these times. -/
def timers (c : Clock) (ts : List Nat) : Clock := ts.foldl (fun c t => onTimer (clk t) c) c

/-- The times come in order, less than 49 days apart. -/
def Steady : Nat → List Nat → Prop
  | _, [] => True
  | t, t' :: l => t ≤ t' ∧ t' - t < 2 ^ 32 - 1000 ∧ Steady t' l

/-- The last of the times. -/
def lastTime : Nat → List Nat → Nat
  | t, [] => t
  | _, t' :: l => lastTime t' l

theorem timers_exact (ts : List Nat) (c : Clock) (t r : Nat) (hr : c.ready = true) (hl : c.lastMillis = clk r) (h1 : r ≤ t) (h2 : t - r < 1000)
    (hs : Steady t ts) :
    (timers c ts).localTime = c.localTime + ((lastTime t ts - r) / 1000 : Nat) ∧ (timers c ts).ready = true ∧ t ≤ lastTime t ts := by
  induction ts generalizing c t r with
  | nil =>
    refine ⟨?_, hr, Nat.le_refl _⟩
    show c.localTime = c.localTime + ((t - r) / 1000 : Nat)
    rw [show (t - r) / 1000 = 0 by omega]
    omega
  | cons t' ts ih =>
    obtain ⟨a, b, hs'⟩ := hs
    have hsi : since (clk t') c.lastMillis = t' - r := by
      rw [hl]; exact since_clk_eq _ _ (by omega) (by omega)
    rw [show timers c (t' :: ts) = timers (onTimer (clk t') c) ts from rfl, show lastTime t (t' :: ts) = lastTime t' ts from rfl]
    unfold onTimer
    rw [hsi]
    by_cases hz : (t' - r) / 1000 > 0
    · rw [if_pos ⟨hr, hz⟩]
      have hl' : (clk t' + 2 ^ 32 - (t' - r) % 1000) % 2 ^ 32 = clk (t' - (t' - r) % 1000) := by
        unfold clk; omega
      obtain ⟨i1, i2, i3⟩ := ih { c with lastMillis := (clk t' + 2 ^ 32 - (t' - r) % 1000) % 2 ^ 32, localTime := c.localTime + ((t' - r) / 1000 : Nat) } t' (t' - (t' - r) % 1000) hr hl' (by omega) (by omega) hs'
      refine ⟨?_, i2, by omega⟩
      refine i1.trans ?_
      show c.localTime + ((t' - r) / 1000 : Nat) + _ = _
      omega
    · rw [if_neg (fun h => hz h.2)]
      obtain ⟨i1, i2, i3⟩ := ih c t' r hr hl (by omega) (by omega) hs'
      exact ⟨i1, i2, by omega⟩

/-- **C73.** If the time `n` arrives at true time `t0`, less than a second after the second the clock last counted,
the clock then shows `n` and the whole seconds since that count, forever. -/
theorem clock_exact_partial (c : Clock) (ts : List Nat) (t0 r : Nat) (n : Int) (hn : n ≠ 0) (hl : c.lastMillis = clk r) (h1 : r ≤ t0) (h2 : t0 - r < 1000)
    (hs : Steady t0 ts) :
    (timers (setTime n c) ts).localTime - n ≤ ((lastTime t0 ts - t0) / 1000 : Nat) + 1 ∧
    ((lastTime t0 ts - t0) / 1000 : Nat) ≤ (timers (setTime n c) ts).localTime - n := by
  obtain ⟨a, _, b⟩ := timers_exact ts (setTime n c) t0 r rfl hl h1 h2 hs
  rw [a]
  show (if n = 0 then c.localTime else n) + _ - n ≤ _ ∧ _ ≤ (if n = 0 then c.localTime else n) + _ - n
  rw [if_neg hn]
  omega

example : clockInit.lastMillis = clk 0 ∧ Steady 400 [900, 1500, 4000] ∧ (timers (setTime 77 clockInit) [900, 1500, 4000]).localTime = 81 := by
  refine ⟨rfl, by simp [Steady], by decide +kernel⟩

/-- The full claim: whenever the time arrives, the clock is right to a second from then on. -/
def ClockRight : Prop :=
  ∀ (ts : List Nat) (t0 : Nat) (n : Int), n ≠ 0 → Steady t0 ts →
    (timers (setTime n clockInit) ts).localTime - n ≤ ((lastTime t0 ts - t0) / 1000 : Nat) + 1

/-- **Finding.** The timer of a clock that was not set yet does not note the time. When the time arrives `t0` after
the start, the next tick adds the whole of `t0` to it (up to 49 days), until the server is asked again. -/
theorem clock_right_violation : ¬ ClockRight := by
  intro h
  have := h [60010] 60000 1700000000 (by decide) ⟨by decide, by decide, trivial⟩
  revert this; decide +kernel

/-- The error, exactly: the first tick after the first setting adds the seconds since the start. -/
theorem first_tick_error (t0 t : Nat) (n : Int) (hn : n ≠ 0) (ht : t < 2 ^ 32) (h1 : 1000 ≤ t) (_ : t0 ≤ t) :
    (onTimer (clk t) (setTime n clockInit)).localTime = n + (t / 1000 : Nat) := by
  have hs : since (clk t) (setTime n clockInit).lastMillis = t := by
    show since (clk t) 0 = t
    unfold since clk; omega
  unfold onTimer
  rw [hs, if_pos ⟨rfl, by omega⟩]
  show (if n = 0 then (0 : Int) else n) + _ = _
  rw [if_neg hn]

/-- The full claim: a clock that says it is ready was set. -/
def ReadySet : Prop := ∀ (n : Int) (c : Clock), (setTime n c).ready = true → (setTime n c).localTime = n

/-- **Finding.** A conversion that fails (result 0) does not set the clock but makes it ready. -/
theorem ready_set_violation : ¬ ReadySet := by
  intro h
  have := h 0 ⟨5, 0, 0, false, true⟩ rfl
  revert this; decide

/-! ### Asking the server -/

/-- The connected passes of the main loop at these times; the times at which the server is asked. -/
def asked : Clock → List Nat → List Nat
  | _, [] => []
  | c, t :: l => (if asks (clk t) c then [t] else []) ++ asked (iterateConnected (clk t) c) l

/-- **C73.** Nobody is asked while automatic setting is off. -/
theorem off_never_asks (l : List Nat) (c : Clock) (h : c.auto = false) : asked c l = [] := by
  induction l generalizing c with
  | nil => rfl
  | cons t l ih =>
    have hq : asks (clk t) c = false := by unfold asks; rw [h]; rfl
    unfold asked iterateConnected
    rw [hq]
    simpa using ih c h

/-- **C73.** After the server was asked at `t0` (not at the clock reading 0) it is asked at the first pass more
than five minutes later and not before, if the passes are less than 49 days apart. -/
theorem asks_again_partial (l : List Nat) (c : Clock) (t0 t : Nat) (ha : c.auto = true) (hl : c.lastUpdate = clk t0) (h0 : clk t0 ≠ 0)
    (hb : ∀ x ∈ l, t0 ≤ x ∧ x - t0 ≤ 300000) (ht : t0 ≤ t) (h1 : t - t0 < 2 ^ 32) :
    asked c (l ++ [t]) = if t - t0 > 300000 then [t] else [] := by
  have key : ∀ x, t0 ≤ x → x - t0 < 2 ^ 32 → asks (clk x) c = decide (x - t0 > 300000) := by
    intro x hx hx2
    unfold asks
    rw [ha, hl, since_clk_eq _ _ hx hx2]
    have : (clk t0 == 0) = false := by simp [h0]
    rw [this]
    rfl
  induction l with
  | nil =>
    show (if asks (clk t) c then [t] else []) ++ [] = _
    rw [key t ht h1, List.append_nil]
    by_cases h : t - t0 > 300000 <;> simp [h]
  | cons x l ih =>
    have hx := hb x (List.mem_cons_self ..)
    have hk := key x hx.1 (by omega)
    rw [show decide (x - t0 > 300000) = false by simp; omega] at hk
    show (if asks (clk x) c then [x] else []) ++ asked (iterateConnected (clk x) c) (l ++ [t]) = _
    unfold iterateConnected
    rw [hk]
    exact ih (fun y hy => hb y (List.mem_cons_of_mem _ hy))

/-- More than five minutes apart. -/
def Apart : List Nat → Prop
  | [] => True
  | [_] => True
  | a :: b :: l => a + 300000 < b ∧ Apart (b :: l)

/-- In order. -/
def Sorted : Nat → List Nat → Prop
  | _, [] => True
  | t, t' :: l => t ≤ t' ∧ Sorted t' l

theorem sorted_le (a b : Nat) (h : a ≤ b) (l : List Nat) (hs : Sorted b l) : Sorted a l := by
  cases l with
  | nil => trivial
  | cons t l => exact ⟨Nat.le_trans h hs.1, hs.2⟩

/-- **C73.** The requests are always more than five minutes apart (except at the clock reading 0). -/
theorem asked_apart_partial (l : List Nat) (c : Clock) (t0 : Nat) (hl : c.lastUpdate = clk t0) (h0 : clk t0 ≠ 0) (hs : Sorted t0 l) (hz : ∀ t ∈ l, clk t ≠ 0) :
    Apart (t0 :: asked c l) := by
  induction l generalizing c t0 with
  | nil => trivial
  | cons t l ih =>
    have hz' : ∀ t ∈ l, clk t ≠ 0 := fun x hx => hz x (List.mem_cons_of_mem _ hx)
    have ht0 := hz t (List.mem_cons_self ..)
    unfold asked
    by_cases ha : asks (clk t) c = true
    · rw [if_pos ha]
      refine ⟨?_, ?_⟩
      · unfold asks at ha
        rw [hl, show (clk t0 == 0) = false by simp [h0]] at ha
        simp only [Bool.false_or, Bool.and_eq_true, decide_eq_true_eq] at ha
        have := since_clk_le t t0 hs.1
        omega
      · refine ih (iterateConnected (clk t) c) t ?_ ht0 hs.2 hz'
        unfold iterateConnected
        rw [if_pos ha]
    · rw [if_neg ha]
      refine ih (iterateConnected (clk t) c) t0 ?_ h0 (sorted_le t0 t hs.1 l hs.2) hz'
      unfold iterateConnected
      rw [if_neg ha]
      exact hl

example : Apart (1000 :: asked ⟨0, 1000, 0, true, true⟩ [1100, 301001, 301002, 700000]) :=
  asked_apart_partial _ _ _ rfl (by decide) (by simp [Sorted]) (by simp [clk])

example : asked ⟨0, 1000, 0, true, true⟩ ([1100, 200000] ++ [301001]) = [301001] := by decide +kernel

/-- The full claim: it is asked at most every five minutes. -/
def AsksRarely : Prop :=
  ∀ (c : Clock) (t t' : Nat), c.auto = true → t ≤ t' → t' - t ≤ 300000 → (asked c [t, t']).length ≤ 1

/-- **Finding.** The clock reading 0 means "never asked", so at a wrap-around it is asked twice. -/
theorem asks_rarely_violation : ¬ AsksRarely := by
  intro h
  have := h ⟨0, 0, 0, true, true⟩ (2 ^ 32) (2 ^ 32 + 1) rfl (by decide) (by decide)
  revert this; decide +kernel

end Verif.Timekeep
