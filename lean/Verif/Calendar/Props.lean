import Verif.Calendar.Lemmas
import Mathlib.Logic.Function.Iterate

/-!
# Date and time of the device
-/

namespace Verif.Calendar

/-! ## The time that was set -/

/-- `n` seconds pass, in any number of portions. -/
def pass (s : Dev) : List Nat → Dev
  | [] => s
  | n :: l => pass (step s (.tick n)) l

theorem pass_frame (l : List Nat) : ∀ (s : Dev), (pass s l).sys = s.sys + l.sum ∧ (pass s l).ready = s.ready := by
  induction l with
  | nil => intro s; exact ⟨by simp [pass], rfl⟩
  | cons n l ih =>
    intro s
    obtain ⟨a, b⟩ := ih (step s (.tick n))
    refine ⟨?_, b⟩
    rw [pass, a, List.sum_cons]
    show s.sys + (n : Int) + _ = _
    omega

theorem localtime_add (n : Int) (k : Nat) : localtime (n + k) = next^[k] (localtime n) := by
  induction k with
  | zero => simp
  | succ k ih =>
    rw [Function.iterate_succ_apply', ← ih, ← localtime_succ]
    congr 1
    omega

/-- The first second of 1970. -/
def epoch : Stamp := ⟨1970, 1, 1, 0, 0, 0⟩

theorem mktime_epoch (t : Stamp) (h : Valid t) (he : t ≠ epoch) : mktime t ≠ 0 := by
  intro h0
  apply he
  rw [← localtime_mktime t h, h0]
  decide

theorem parse_sys (t : Stamp) (s : Dev) (h : mktime t ≠ 0) : (parse t s).sys = mktime t ∧ (parse t s).ready = true := by
  unfold parse
  split
  · unfold parseBase
    rw [if_neg h]
    exact ⟨rfl, rfl⟩
  · exact ⟨rfl, rfl⟩

/-- Full claim: whatever the state, after the server has told a date and time and `n` seconds have passed, the device shows the
date and time `n` seconds later. -/
def Told : Prop := ∀ (s : Dev) (t : Stamp) (l : List Nat), Valid t → shown (pass (step s (.server t)) l) = some (next^[l.sum] t)

/-- It holds for all dates but the first second of 1970. -/
theorem told_partial (s : Dev) (t : Stamp) (l : List Nat) (h : Valid t) (he : t ≠ epoch) :
    shown (pass (step s (.server t)) l) = some (next^[l.sum] t) := by
  obtain ⟨a, b⟩ := parse_sys t s (mktime_epoch t h he)
  obtain ⟨c, d⟩ := pass_frame l (step s (.server t))
  unfold shown
  rw [d, show (step s (.server t)).ready = true from b, if_pos rfl, c, show (step s (.server t)).sys = mktime t from a, localtime_add,
    localtime_mktime t h]

/-- Told the first second of 1970, a device without a chip keeps the time it has and says that it is right. -/
theorem epoch_violation : ¬ Told := by
  intro h
  have := h ⟨86400, false, none⟩ epoch [] (by decide)
  revert this
  decide +kernel

/-- 28 February 2024, two seconds before midnight: three seconds later it is 29 February. -/
example : Valid ⟨2024, 2, 28, 23, 59, 58⟩ ∧ (⟨2024, 2, 28, 23, 59, 58⟩ : Stamp) ≠ epoch ∧ next^[3] ⟨2024, 2, 28, 23, 59, 58⟩ = ⟨2024, 2, 29, 0, 0, 1⟩ := by decide +kernel
example : next ⟨2100, 2, 28, 23, 59, 59⟩ = ⟨2100, 3, 1, 0, 0, 0⟩ ∧ next ⟨2026, 12, 31, 23, 59, 59⟩ = ⟨2027, 1, 1, 0, 0, 0⟩ := by decide

/-- Whatever is shown is a date of the calendar. -/
theorem shown_valid (s : Dev) (t : Stamp) (h : shown s = some t) : Valid t := by
  unfold shown at h
  split at h
  · cases h
    exact (localtime_valid s.sys).1
  · cases h

/-- The day of the week is that of the date shown. -/
theorem weekday (s : Dev) (t : Stamp) (h : shown s = some t) : hvacDay s = zeller t := by
  unfold shown at h
  split at h
  · cases h
    exact weekDay_zeller s.sys
  · cases h

/-- 17 November 2026 is a Tuesday, 1 January 1970 was a Thursday. -/
example : zeller ⟨2026, 11, 17, 0, 0, 0⟩ = 2 ∧ zeller ⟨1970, 1, 1, 0, 0, 0⟩ = 4 := by decide

/-- The quarter of the week, 0 to 671 from Sunday midnight. -/
def slot (s : Dev) : Int := hvacDay s * 96 + quarter s

/-- The quarters of the week: within the range, the same until the quarter is over, then one further, back to the first after the last. -/
theorem quarters (s : Dev) : 0 ≤ slot s ∧ slot s < 672 ∧ (∀ n : Nat, (n : Int) < 900 - s.sys % 900 → slot (step s (.tick n)) = slot s) ∧
    ∀ n : Nat, 900 - s.sys % 900 ≤ n → (n : Int) < 1800 - s.sys % 900 → slot (step s (.tick n)) = (slot s + 1) % 672 := by
  unfold slot hvacDay quarter weekDay localtime step
  dsimp only
  refine ⟨by omega, by omega, fun n hn => by omega, fun n h1 h2 => by omega⟩

/-- Saturday 21 November 2026, 23:50: the last quarter of the week; ten minutes later the first. -/
example : slot ⟨mktime ⟨2026, 11, 21, 23, 50, 0⟩, true, none⟩ = 671 ∧ slot (step ⟨mktime ⟨2026, 11, 21, 23, 50, 0⟩, true, none⟩ (.tick 600)) = 0 := by decide +kernel

/-! ## The page -/

/-- A date and time entered on the page is what the device shows. -/
theorem entered (s : Dev) (t : Stamp) (h : Valid t) (y1 : 2023 ≤ t.year) (y2 : t.year ≤ 2099) : shown (page (some t) s) = some t := by
  have hm : mktime t ≠ 0 := mktime_epoch t h (by intro e; rw [e] at y1; revert y1; decide)
  obtain ⟨m1, m2, d1, d2, h1, h2, i1, i2, s1, s2⟩ := id h
  have hl : length t.year t.month ≤ 31 := by
    unfold length
    repeat' split
    all_goals omega
  have hp : page (some t) s = parse t s := by
    unfold page
    dsimp only
    rw [if_neg (by omega), if_neg (by omega), if_neg (by omega), if_neg (by omega), if_neg (by omega), if_neg (by omega)]
  obtain ⟨a, b⟩ := parse_sys t s hm
  unfold shown
  rw [hp, b, if_pos rfl, a, localtime_mktime t h]

example : Valid ⟨2026, 11, 17, 22, 15, 0⟩ := by decide

/-- Full claim: what is no date is not accepted. -/
def Refused : Prop := ∀ (s : Dev) (t : Stamp), ¬ Valid t → page (some t) s = s

/-- Text that is no date, years outside 2023-2099 and numbers that are outside their range in every month leave the clock as it is. -/
theorem refused_partial (s : Dev) : page none s = s ∧
    ∀ t : Stamp, (t.year < 2023 ∨ t.year > 2099 ∨ t.month < 1 ∨ t.month > 12 ∨ t.day < 1 ∨ t.day > 31 ∨ t.hour < 0 ∨ t.hour > 23 ∨ t.min < 0 ∨
      t.min > 59 ∨ t.sec < 0 ∨ t.sec > 59) → page (some t) s = s := by
  refine ⟨rfl, fun t h => ?_⟩
  unfold page
  dsimp only
  split
  · rfl
  split
  · rfl
  split
  · rfl
  split
  · rfl
  split
  · rfl
  split
  · rfl
  · omega

/-- 31 February of any year but a leap year is accepted, and is 3 March. -/
theorem february (s : Dev) (y h m sec : Int) (y1 : 2023 ≤ y) (y2 : y ≤ 2099) (hy : ¬ 4 ∣ y) (h1 : 0 ≤ h) (h2 : h ≤ 23) (m1 : 0 ≤ m) (m2 : m ≤ 59)
    (s1 : 0 ≤ sec) (s2 : sec ≤ 59) : shown (page (some ⟨y, 2, 31, h, m, sec⟩) s) = some ⟨y, 3, 3, h, m, sec⟩ := by
  have hl : leap y = false := by
    cases c : leap y with
    | false => rfl
    | true => have := (leap_iff y).mp c; omega
  have e : mktime ⟨y, 2, 31, h, m, sec⟩ = mktime ⟨y, 3, 3, h, m, sec⟩ := by
    rw [mktime_valid ⟨y, 2, 31, h, m, sec⟩ (by dsimp only; omega) (by dsimp only; omega), mktime_valid ⟨y, 3, 3, h, m, sec⟩ (by dsimp only; omega) (by dsimp only; omega)]
    dsimp only
    rw [hl]
    have a : monthDays false (2 - 1) = 31 := by decide
    have b : monthDays false (3 - 1) = 59 := by decide
    rw [a, b]
    omega
  have hv : Valid ⟨y, 3, 3, h, m, sec⟩ := by
    unfold Valid length
    dsimp only
    rw [if_neg (by omega), if_neg (by omega)]
    omega
  have hm : mktime ⟨y, 2, 31, h, m, sec⟩ ≠ 0 := by
    rw [e]
    exact mktime_epoch _ hv (by intro c; unfold epoch at c; injection c with c1; omega)
  have hp : page (some ⟨y, 2, 31, h, m, sec⟩) s = parse ⟨y, 2, 31, h, m, sec⟩ s := by
    unfold page
    dsimp only
    rw [if_neg (by omega), if_neg (by omega), if_neg (by omega), if_neg (by omega), if_neg (by omega), if_neg (by omega)]
  obtain ⟨a, b⟩ := parse_sys _ s hm
  unfold shown
  rw [hp, b, if_pos rfl, a, e, localtime_mktime _ hv]

theorem february_violation : ¬ Refused := by
  intro h
  have := h ⟨0, false, none⟩ ⟨2026, 2, 31, 12, 0, 0⟩ (by decide)
  revert this
  decide +kernel

/-! ## The command -/

/-- Data of a request beyond its size are zero. -/
def Zeros (size : Nat) (t : Stamp) : Prop := size = 0 → t = ⟨0, 0, 0, 0, 0, 0⟩

/-- Full claim: a request that is too short for a date is answered as wrong and changes nothing. -/
def ShortRefused : Prop := ∀ (s : Dev) (type size : Nat) (t : Stamp), size < requestSize → Zeros size t → command type size t s = (s, false)

/-- It holds for all types of data but zero; a full request sets the time. -/
theorem command_partial (s : Dev) (type size : Nat) (t : Stamp) :
    (type ≠ 0 → size ≠ requestSize → command type size t s = (s, false)) ∧
    (size = requestSize → Valid t → t ≠ epoch → (command type size t s).2 = true ∧ shown (command type size t s).1 = some t) := by
  constructor
  · intro h1 h2
    unfold command
    rw [if_pos ⟨h1, h2⟩]
  · intro h1 hv he
    obtain ⟨a, b⟩ := parse_sys t s (mktime_epoch t hv he)
    unfold command shown
    rw [if_neg (fun c => c.2 h1)]
    dsimp only
    rw [b, if_pos rfl, a, localtime_mktime t hv]
    exact ⟨rfl, rfl⟩

/-- An empty request of type zero is answered as done: the device is in the year before the first. -/
theorem empty_request (s : Dev) : (command 0 0 ⟨0, 0, 0, 0, 0, 0⟩ s).2 = true ∧ shown (command 0 0 ⟨0, 0, 0, 0, 0, 0⟩ s).1 = some ⟨-1, 11, 30, 0, 0, 0⟩ := by
  have hm : mktime ⟨0, 0, 0, 0, 0, 0⟩ ≠ 0 := by decide
  obtain ⟨a, b⟩ := parse_sys _ s hm
  unfold command shown
  rw [if_neg (fun c => c.1 rfl)]
  dsimp only
  rw [b, if_pos rfl, a]
  exact ⟨rfl, by decide +kernel⟩

theorem command_violation : ¬ ShortRefused := by
  intro h
  have := h ⟨0, false, none⟩ 0 0 ⟨0, 0, 0, 0, 0, 0⟩ (by decide) (fun _ => rfl)
  have e := (empty_request ⟨0, false, none⟩).1
  rw [this] at e
  cases e

/-! ## The chip -/

/-- The device, the true time, whether the chip has been set since it last lost power, and by how many seconds it has run wrong since. -/
structure World where
  dev : Dev
  now : Int
  set : Bool
  off : Nat

/-- The world moves on. -/
def World.step (w : World) : Op → World
  | .server t => { w with dev := Calendar.step w.dev (.server t), set := true, off := 0 }
  | .tick n => { w with dev := Calendar.step w.dev (.tick n), now := w.now + n }
  | .drift k => { w with dev := Calendar.step w.dev (.drift k), off := w.off + k.natAbs }
  | .lose x => { w with dev := Calendar.step w.dev (.lose x), set := false }
  | .restart sys => { w with dev := Calendar.step w.dev (.restart sys) }

/-- Servers tell the true time. -/
def Honest (w : World) : Op → Prop
  | .server t => Valid t ∧ t = localtime w.now ∧ t ≠ epoch
  | _ => True

/-- At a restart a chip that has not been set shows a year before 2023. -/
def Old (w : World) : Op → Prop
  | .restart _ => w.set = true ∨ ∀ c, w.dev.chip = some c → (localtime c.time).year < 2023
  | _ => True

/-- Worlds reached from a device that is started for the first time. -/
inductive Reach (ok : World → Op → Prop) : World → Prop
  | new (sys now : Int) (c : Option Chip) (h : ∀ d, c = some d → (localtime d.time).year < 2023) : Reach ok ⟨start sys c, now, false, 0⟩
  | step (w : World) (op : Op) (h : Reach ok w) (hh : Honest w op) (ho : ok w op) : Reach ok (w.step op)

/-- The clock is right: when the device says it knows the time, it is wrong by no more than five seconds and what the chip gained or lost. -/
def Right (w : World) : Prop := w.dev.ready = true → (w.dev.sys - w.now).natAbs ≤ 5 + w.off

/-- Full claim, with no assumption on chips that lost power. -/
def AlwaysRight : Prop := ∀ w, Reach (fun _ _ => True) w → Right w

theorem near_close (a b : Int) (h : near (localtime a) (localtime b) = true) : (a - b).natAbs ≤ 5 := by
  obtain ⟨va, ea⟩ := localtime_valid a
  obtain ⟨vb, eb⟩ := localtime_valid b
  rw [mktime_valid _ va.1 va.2.1] at ea
  rw [mktime_valid _ vb.1 vb.2.1] at eb
  generalize localtime a = x at *
  generalize localtime b = y at *
  unfold near at h
  simp only [Bool.and_eq_true, beq_iff_eq, decide_eq_true_eq] at h
  obtain ⟨⟨⟨⟨⟨⟨h1, h2⟩, h3⟩, h4⟩, h5⟩, h6⟩, h7⟩ := h
  rw [h1, h2, h3, h4, h5] at ea
  omega

/-- What holds in all worlds. -/
def Inv (w : World) : Prop := Right w ∧ (w.set = true → ∀ c, w.dev.chip = some c → c.found = true → (c.time - w.now).natAbs ≤ 5 + w.off)

theorem start_ready (sys : Int) (c : Option Chip) (h : (start sys c).ready = true) :
    ∃ d, c = some d ∧ d.found = true ∧ (start sys c).sys = d.time ∧ (localtime d.time).year ≥ 2023 := by
  unfold start at *
  cases c with
  | none => cases h
  | some d =>
    dsimp only at *
    by_cases hf : d.found = true
    · rw [if_pos hf] at *
      dsimp only at *
      rw [(localtime_valid d.time).2] at *
      exact ⟨d, rfl, hf, rfl, of_decide_eq_true h⟩
    · rw [if_neg hf] at h
      cases h

theorem start_chip (sys : Int) (c : Option Chip) : (start sys c).chip = c := by
  unfold start
  cases c with
  | none => rfl
  | some d => dsimp only; split <;> rfl

theorem inv_step (w : World) (op : Op) (h : Inv w) (hh : Honest w op) (ho : Old w op) : Inv (w.step op) := by
  obtain ⟨hr, hc⟩ := h
  cases op with
  | server t =>
    have hh' : Valid t ∧ t = localtime w.now ∧ t ≠ epoch := hh
    obtain ⟨hv, ht, he⟩ := hh'
    have hm : mktime t = w.now := by rw [ht]; exact (localtime_valid _).2
    obtain ⟨a, b⟩ := parse_sys t w.dev (mktime_epoch t hv he)
    refine ⟨?_, ?_⟩
    · intro _
      show ((parse t w.dev).sys - w.now).natAbs ≤ 5 + 0
      rw [a, hm]
      omega
    · intro _ c hcc hf
      have hcc' : (parse t w.dev).chip = some c := hcc
      show (c.time - w.now).natAbs ≤ 5 + 0
      unfold parse at hcc'
      split at hcc'
      · rename_i hn
        unfold parseBase at hcc'
        dsimp only at hcc'
        rw [hn] at hcc'
        cases hcc'
      · rename_i d hd
        unfold parseChip at hcc'
        dsimp only at hcc'
        have hcc2 := Option.some.inj hcc'
        split at hcc2
        · rw [← hcc2]
          dsimp only
          omega
        · rename_i hn
          rw [hcc2] at hn
          rw [hf] at hn
          have : near (localtime c.time) (localtime (mktime t)) = true := by
            cases hx : near (localtime c.time) (localtime (mktime t)) with
            | true => rfl
            | false => rw [hx] at hn; exact absurd rfl hn
          have := near_close _ _ this
          omega
  | tick n =>
    refine ⟨?_, ?_⟩
    · intro h
      have := hr h
      show (w.dev.sys + (n : Int) - (w.now + n)).natAbs ≤ 5 + w.off
      omega
    · intro hs c hcc hf
      have hcc' : w.dev.chip.map (fun c => { c with time := c.time + (n : Int) }) = some c := hcc
      cases hd : w.dev.chip with
      | none => rw [hd] at hcc'; cases hcc'
      | some d =>
        rw [hd] at hcc'
        cases hcc'
        have := hc hs d hd hf
        show (d.time + (n : Int) - (w.now + n)).natAbs ≤ 5 + w.off
        omega
  | drift k =>
    refine ⟨?_, ?_⟩
    · intro h
      have := hr h
      show (w.dev.sys - w.now).natAbs ≤ 5 + (w.off + k.natAbs)
      omega
    · intro hs c hcc hf
      have hcc' : w.dev.chip.map (fun c => { c with time := c.time + k }) = some c := hcc
      cases hd : w.dev.chip with
      | none => rw [hd] at hcc'; cases hcc'
      | some d =>
        rw [hd] at hcc'
        cases hcc'
        have := hc hs d hd hf
        show (d.time + k - w.now).natAbs ≤ 5 + (w.off + k.natAbs)
        omega
  | lose x =>
    refine ⟨hr, ?_⟩
    intro hs
    cases hs
  | restart sys =>
    refine ⟨?_, ?_⟩
    · intro h
      obtain ⟨d, h1, h2, h3, h4⟩ := start_ready sys w.dev.chip h
      show ((start sys w.dev.chip).sys - w.now).natAbs ≤ 5 + w.off
      rw [h3]
      have ho' : w.set = true ∨ ∀ c, w.dev.chip = some c → (localtime c.time).year < 2023 := ho
      rcases ho' with hs | hy
      · exact hc hs d h1 h2
      · have := hy d h1
        omega
    · intro hs c hcc hf
      have hcc' : (start sys w.dev.chip).chip = some c := hcc
      rw [start_chip] at hcc'
      exact hc hs c hcc' hf

theorem right_partial (w : World) (h : Reach Old w) : Right w := by
  have : Inv w := by
    induction h with
    | new sys now c hc =>
      refine ⟨?_, fun h => by cases h⟩
      intro h
      obtain ⟨d, h1, _, _, h4⟩ := start_ready sys c h
      have := hc d h1
      omega
    | step w op _ hh ho ih => exact inv_step w op ih hh ho
  exact this.1

/-- A device with a chip is told the time, its power fails for a day, and it starts without network: it knows the time. -/
example : ∃ w, Reach Old w ∧ w.dev.ready = true ∧ shown w.dev = some ⟨2026, 11, 18, 12, 0, 0⟩ ∧ w.now = mktime ⟨2026, 11, 18, 12, 0, 0⟩ := by
  refine ⟨((((⟨start 0 (some ⟨0, true, true⟩), mktime ⟨2026, 11, 17, 12, 0, 0⟩, false, 0⟩ : World).step (.server ⟨2026, 11, 17, 12, 0, 0⟩)).step
    (.tick 86400)).step (.restart 0)), ?_, by decide +kernel, by decide +kernel, by decide +kernel⟩
  refine .step _ _ (.step _ _ (.step _ _ (.new 0 _ _ ?_) ?_ trivial) trivial trivial) trivial (.inl rfl)
  · intro d hd; cases hd; decide
  · exact ⟨by decide, by decide +kernel, by decide⟩

/-- Without a chip, or with one that is not found, the device does not know the time after a restart, whatever it showed before. -/
theorem unknown (s : Dev) (sys : Int) (h : ∀ c, s.chip = some c → c.found = false) : shown (step s (.restart sys)) = none := by
  have hn : (step s (.restart sys)).ready = false := by
    cases hr : (step s (.restart sys)).ready with
    | false => rfl
    | true =>
      obtain ⟨d, h1, h2, _⟩ := start_ready sys s.chip hr
      rw [h d h1] at h2
      cases h2
  unfold shown
  rw [hn]
  rfl

/-- A chip that lost power and says so, but shows a year from 2023 on, is believed: the time of the device is whatever the chip shows. -/
theorem lost_believed (s : Dev) (c : Chip) (x sys : Int) (h : s.chip = some c) (hf : c.found = true) (hx : (localtime x).year ≥ 2023) :
    (step (step s (.lose x)) (.restart sys)).ready = true ∧ (step (step s (.lose x)) (.restart sys)).sys = x ∧
    (step s (.lose x)).chip = some { c with time := x, lost := true } := by
  have hc : (step s (.lose x)).chip = some { c with time := x, lost := true } := by
    show s.chip.map _ = _
    rw [h]
    rfl
  refine ⟨?_, ?_, hc⟩
  · show (start sys (step s (.lose x)).chip).ready = true
    rw [hc]
    unfold start
    dsimp only
    rw [if_pos hf, (localtime_valid x).2]
    exact decide_eq_true hx
  · show (start sys (step s (.lose x)).chip).sys = x
    rw [hc]
    unfold start
    dsimp only
    rw [if_pos hf, (localtime_valid x).2]

theorem lost_violation : ¬ AlwaysRight := by
  intro h
  have hr : Reach (fun _ _ => True) (((⟨start 0 (some ⟨0, true, false⟩), 1790000000, false, 0⟩ : World).step (.lose 1680000000)).step (.restart 0)) := by
    refine .step _ _ (.step _ _ (.new 0 _ _ ?_) trivial trivial) trivial trivial
    intro d hd; cases hd; decide
  have := h _ hr
  unfold Right at this
  revert this
  decide +kernel

end Verif.Calendar
