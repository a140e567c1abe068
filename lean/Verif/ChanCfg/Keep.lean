import Verif.Common.Clock
import Mathlib.Data.List.Basic
/-!
# C145: the function given to a channel is kept over restarts

Models, for one channel, where its function comes from: the default of the firmware, the configuration message of the
server, and the stored value read at a start (/repo/src/supla/element_with_channel_actions.cpp, E, lines 78-103, 142-160,
303-328 and 412-422; /repo/src/supla/channels/channel.cpp, C, lines 313-321 and 1444-1471; the delayed save of
/repo/src/supla/storage/config.cpp, K, lines 383-397).

Simplifications: one key of the storage; the storage itself works (C07, C08, C33 and others treat it), a save puts the whole
configuration into it at once.
-/

namespace Verif.ChanCfg.Keep

/-- What is fixed for a channel. -/
structure Ch where
  /-- The element reads the stored function at a start. Relays (relay.cpp line 72), binary sensors (binary_base.cpp line 41),
  thermostats (hvac_base.cpp line 243) and roller shutters (roller_shutter_interface.cpp line 627) do. Thermometers, electricity
  and impulse meters, general purpose channels, dimmers, valves and containers do not. -/
  loads : Bool
  /-- A binary sensor channel, for which the stored function is checked against a list (C lines 1447-1466). -/
  binary : Bool
  /-- The default of the firmware. -/
  sw : Nat

/-- `isFunctionValid`, C lines 1444-1471, with the numbers of proto.h lines 436-459. -/
def valid (c : Ch) (f : Int) : Bool :=
  if c.binary then [80, 100, 230, 235, 236, 240, 120, 125, 70, 60, 50].contains f else true

/-- `setDefault`, C lines 313-321, into a `uint16_t`. -/
def clamp (f : Int) : Nat := if f > 65535 then 0 else (f % 65536).toNat

/-- The channel and the stored function. -/
structure St where
  /-- `getDefaultFunction` -/
  func : Nat
  /-- the key in the configuration in memory -/
  ram : Option Int := none
  /-- the key in the permanent storage -/
  flash : Option Int := none
  /-- `saveDelayMs` -/
  delay : Nat := 0
  /-- The time at which the pending save was asked for; `saveDelayTimestamp` is its 32-bit reading. -/
  asked : Nat := 0
deriving DecidableEq, Repr

/-- `loadFunctionFromConfig`, E lines 78-103, when the element calls it. -/
def load (c : Ch) (k : Option Int) : Nat :=
  match k with
  | none => c.sw
  | some f => if c.loads = true ∧ valid c f = true then clamp f else c.sw

/-- A start with the stored configuration `k`. -/
def boot (c : Ch) (k : Option Int) : St := { func := load c k, ram := k, flash := k }

/-- `saveWithDelay`, K lines 383-388. -/
def saveWithDelay (t d : Nat) (s : St) : St := if s.delay = 0 then { s with delay := d, asked := t } else s

/-- What happens to the channel. -/
inductive Op
  /-- A configuration message with the function `f` (an `int32`), E lines 303-328. -/
  | server (f : Int)
  /-- Another setting asks for a save within `d` ms. -/
  | other (d : Nat)
  /-- `saveIfNeeded` in an iteration of the device. -/
  | tick
  /-- Other code saves at once. -/
  | commit
  /-- `purgeConfig`, E lines 412-422. -/
  | purge
  /-- The power is cut, or the device restarts. -/
  | restart
deriving DecidableEq, Repr

/-- `setAndSaveFunction`, E lines 142-160. -/
def setAndSave (t : Nat) (f : Int) (s : St) : St :=
  if (s.func : Int) ≠ f then saveWithDelay t 5000 { s with func := clamp f, ram := some f } else s

/-- One operation at the time `t`. -/
def step (c : Ch) (s : St) (e : Nat × Op) : St :=
  match e.2 with
  | .server f => if f = 0 then s else setAndSave e.1 f s
  | .other d => saveWithDelay e.1 d s
  | .tick => if s.delay ≠ 0 ∧ since (clk e.1) (clk s.asked) > s.delay then { s with flash := s.ram, delay := 0 } else s
  | .commit => { s with flash := s.ram }
  | .purge => { s with ram := none }
  | .restart => boot c s.flash

/-- A history. -/
def run (c : Ch) (s : St) (h : List (Nat × Op)) : St := h.foldl (step c) s

/-! ## Specification -/

/-- The function a user of the channel expects: the last one the server named, or the default of the firmware. -/
def lastTold (sw : Int) : List (Nat × Op) → Int
  | [] => sw
  | (_, .server f) :: h => lastTold (if f = 0 then sw else f) h
  | _ :: h => lastTold sw h

/-- A function the server may name for the channel: 16 bits, and for a binary sensor one of its list. -/
def Proper (c : Ch) (f : Int) : Prop := f = 0 ∨ (0 < f ∧ f ≤ 65535 ∧ valid c f = true)

/-- C145 in full, for one channel: after a start the function is the one the server last named, if that was long enough
before. -/
def Kept (c : Ch) : Prop :=
  ∀ h0 f u h1 t h2, f ≠ 0 → Proper c f → (∀ e ∈ h1 ++ (t, .tick) :: h2, ∀ g, e.2 ≠ .server g ∧ e.2 ≠ .purge ∧ e.2 ≠ .restart) →
    (∀ e ∈ h0, e.2 ≠ .purge ∧ (∀ g, e.2 = .server g → Proper c g) ∧ (∀ d, e.2 = .other d → d ≤ 5000)) →
    (∀ e ∈ h1, ∀ d, e.2 = .other d → d ≤ 5000) →
    (run c (boot c none) (h0 ++ [(u, .server f)])).asked ≤ u → u + 5000 < t →
    t < (run c (boot c none) (h0 ++ [(u, .server f)])).asked + 2 ^ 32 →
    ∀ t', (run c (boot c none) (h0 ++ (u, .server f) :: h1 ++ (t, .tick) :: h2 ++ [(t', .restart)])).func = f.toNat

/-! ## Proofs -/

theorem clamp_of {f : Int} (h0 : 0 ≤ f) (h1 : f ≤ 65535) : clamp f = f.toNat := by
  unfold clamp
  rw [if_neg (by omega)]
  congr 1
  omega

theorem saveWithDelay_frame (t d : Nat) (s : St) : (saveWithDelay t d s).func = s.func ∧ (saveWithDelay t d s).ram = s.ram ∧
    (saveWithDelay t d s).flash = s.flash ∧ (s.delay ≠ 0 → (saveWithDelay t d s).delay = s.delay ∧ (saveWithDelay t d s).asked = s.asked) ∧
    (s.delay = 0 → (saveWithDelay t d s).delay = d ∧ (saveWithDelay t d s).asked = t) := by
  unfold saveWithDelay
  split
  · rename_i h; exact ⟨rfl, rfl, rfl, fun x => absurd h x, fun _ => ⟨rfl, rfl⟩⟩
  · rename_i h; exact ⟨rfl, rfl, rfl, fun _ => ⟨rfl, rfl⟩, fun x => absurd x h⟩

/-- The running function is the one the stored value in memory gives; what is not saved has a save pending within 5 s. -/
structure Inv (c : Ch) (s : St) : Prop where
  func : s.func = load c s.ram
  wait : s.delay = 0 → s.flash = s.ram
  short : s.delay ≤ 5000
  both : s.ram = none → s.flash = none
  sane : s.ram = none ∨ ∃ f, s.ram = some f ∧ 0 < f ∧ f ≤ 65535 ∧ valid c f = true
  sanef : s.flash = none ∨ ∃ f, s.flash = some f ∧ 0 < f ∧ f ≤ 65535 ∧ valid c f = true

theorem inv_boot (c : Ch) {k : Option Int} (h : k = none ∨ ∃ f, k = some f ∧ 0 < f ∧ f ≤ 65535 ∧ valid c f = true) :
    Inv c (boot c k) := ⟨rfl, fun _ => rfl, Nat.zero_le _, id, h, h⟩

theorem load_some {c : Ch} {f : Int} (hl : c.loads = true) (h0 : 0 < f) (h1 : f ≤ 65535) (hv : valid c f = true) :
    load c (some f) = f.toNat := by
  show (if c.loads = true ∧ valid c f = true then clamp f else c.sw) = _
  rw [if_pos ⟨hl, hv⟩, clamp_of (by omega) h1]

/-- One operation keeps the invariant. -/
theorem inv_step {c : Ch} {s : St} {e : Nat × Op} (hl : c.loads = true) (hi : Inv c s) (hp : e.2 ≠ .purge)
    (hs : ∀ g, e.2 = .server g → Proper c g) (hd : ∀ d, e.2 = .other d → d ≤ 5000) : Inv c (step c s e) := by
  obtain ⟨t, o⟩ := e
  obtain ⟨i1, i2, i3, i6, i4, i5⟩ := hi
  cases o with
  | server f =>
    show Inv c (if f = 0 then s else setAndSave t f s)
    split
    · exact ⟨i1, i2, i3, i6, i4, i5⟩
    · rename_i hf
      obtain ⟨p1, p2, p3⟩ := (hs f rfl).resolve_left hf
      unfold setAndSave
      split
      · obtain ⟨a1, a2, a3, a4, a5⟩ := saveWithDelay_frame t 5000 { s with func := clamp f, ram := some f }
        refine ⟨?_, ?_, ?_, ?_, ?_, ?_⟩
        · rw [a1, a2]
          show clamp f = load c (some f)
          rw [load_some hl p1 p2 p3, clamp_of (by omega) p2]
        · intro h0
          by_cases hz : s.delay = 0
          · rw [(a5 hz).1] at h0; omega
          · rw [(a4 hz).1] at h0; exact absurd h0 hz
        · by_cases hz : s.delay = 0
          · rw [(a5 hz).1]; decide
          · rw [(a4 hz).1]; exact i3
        · rw [a2]; exact fun x => by cases x
        · rw [a2]; exact .inr ⟨f, rfl, p1, p2, p3⟩
        · rw [a3]; exact i5
      · exact ⟨i1, i2, i3, i6, i4, i5⟩
  | other d =>
    obtain ⟨a1, a2, a3, a4, a5⟩ := saveWithDelay_frame t d s
    show Inv c (saveWithDelay t d s)
    refine ⟨by rw [a1, a2]; exact i1, ?_, ?_, by rw [a2, a3]; exact i6, by rw [a2]; exact i4, by rw [a3]; exact i5⟩
    · intro h0
      rw [a2, a3]
      by_cases hz : s.delay = 0
      · exact i2 hz
      · rw [(a4 hz).1] at h0; exact absurd h0 hz
    · by_cases hz : s.delay = 0
      · rw [(a5 hz).1]; exact hd d rfl
      · rw [(a4 hz).1]; exact i3
  | tick =>
    show Inv c (if s.delay ≠ 0 ∧ since (clk t) (clk s.asked) > s.delay then { s with flash := s.ram, delay := 0 } else s)
    split
    · exact ⟨i1, fun _ => rfl, Nat.zero_le _, id, i4, i4⟩
    · exact ⟨i1, i2, i3, i6, i4, i5⟩
  | commit => exact ⟨i1, fun _ => rfl, i3, id, i4, i4⟩
  | purge => exact absurd rfl hp
  | restart => exact inv_boot c i5

theorem inv_run {c : Ch} (hl : c.loads = true) (h : List (Nat × Op)) : ∀ {s : St}, Inv c s →
    (∀ e ∈ h, e.2 ≠ .purge ∧ (∀ g, e.2 = .server g → Proper c g) ∧ (∀ d, e.2 = .other d → d ≤ 5000)) → Inv c (run c s h) := by
  induction h with
  | nil => intro s hi _; exact hi
  | cons e h ih =>
    intro s hi hh
    obtain ⟨a, b, d⟩ := hh e List.mem_cons_self
    exact ih (inv_step hl hi a b d) fun x hx => hh x (List.mem_cons_of_mem _ hx)

/-- Between the message and the start: the function in memory is `f`, and it is saved or its save is pending. -/
structure Held (f : Int) (a : Nat) (s : St) : Prop where
  ram : s.ram = some f
  kept : s.flash = some f ∨ (s.delay ≠ 0 ∧ s.delay ≤ 5000 ∧ s.asked = a)

theorem held_step {c : Ch} {f : Int} {a : Nat} {s : St} {e : Nat × Op} (h : Held f a s)
    (hn : ∀ g, e.2 ≠ .server g ∧ e.2 ≠ .purge ∧ e.2 ≠ .restart) : Held f a (step c s e) := by
  obtain ⟨t, o⟩ := e
  obtain ⟨h1, h2⟩ := h
  cases o with
  | server g => exact absurd rfl (hn g).1
  | other d =>
    obtain ⟨a1, a2, a3, a4, a5⟩ := saveWithDelay_frame t d s
    show Held f a (saveWithDelay t d s)
    refine ⟨a2.trans h1, ?_⟩
    rcases h2 with h2 | ⟨x, y, z⟩
    · exact .inl (a3.trans h2)
    · right
      rw [(a4 x).1, (a4 x).2]
      exact ⟨x, y, z⟩
  | tick =>
    show Held f a (if s.delay ≠ 0 ∧ since (clk t) (clk s.asked) > s.delay then { s with flash := s.ram, delay := 0 } else s)
    split
    · exact ⟨h1, .inl h1⟩
    · exact ⟨h1, h2⟩
  | commit => exact ⟨h1, .inl h1⟩
  | purge => exact absurd rfl (hn 0).2.1
  | restart => exact absurd rfl (hn 0).2.2

theorem held_run {c : Ch} {f : Int} {a : Nat} (h : List (Nat × Op)) : ∀ {s : St}, Held f a s →
    (∀ e ∈ h, ∀ g, e.2 ≠ .server g ∧ e.2 ≠ .purge ∧ e.2 ≠ .restart) → Held f a (run c s h) := by
  induction h with
  | nil => intro s hi _; exact hi
  | cons e h ih => intro s hi hh; exact ih (held_step hi (hh e List.mem_cons_self)) fun x hx => hh x (List.mem_cons_of_mem _ hx)

theorem flash_run {c : Ch} {f : Int} (h : List (Nat × Op)) : ∀ {s : St}, s.ram = some f → s.flash = some f →
    (∀ e ∈ h, ∀ g, e.2 ≠ .server g ∧ e.2 ≠ .purge ∧ e.2 ≠ .restart) → (run c s h).flash = some f := by
  induction h with
  | nil => intro s _ hf _; exact hf
  | cons e h ih =>
    intro s hr hf hh
    have key : (step c s e).ram = some f ∧ (step c s e).flash = some f := by
      obtain ⟨t, o⟩ := e
      have hn := hh (t, o) List.mem_cons_self
      cases o with
      | server g => exact absurd rfl (hn g).1
      | other d =>
        obtain ⟨a1, a2, a3, -, -⟩ := saveWithDelay_frame t d s
        exact ⟨a2.trans hr, a3.trans hf⟩
      | tick =>
        show (if s.delay ≠ 0 ∧ since (clk t) (clk s.asked) > s.delay then { s with flash := s.ram, delay := 0 } else s).ram = _ ∧
          (if s.delay ≠ 0 ∧ since (clk t) (clk s.asked) > s.delay then { s with flash := s.ram, delay := 0 } else s).flash = _
        split
        · exact ⟨hr, hr⟩
        · exact ⟨hr, hf⟩
      | commit => exact ⟨hr, hr⟩
      | purge => exact absurd rfl (hn 0).2.1
      | restart => exact absurd rfl (hn 0).2.2
    exact ih key.1 key.2 fun x hx => hh x (List.mem_cons_of_mem _ hx)

theorem run_append (c : Ch) (s : St) (a b : List (Nat × Op)) : run c s (a ++ b) = run c (run c s a) b := List.foldl_append ..

/-- The message itself. After it the memory holds the function, unless it is the default of the firmware and nothing was ever
stored. -/
theorem told_held {c : Ch} {s : St} {u : Nat} {f : Int} (hl : c.loads = true) (hi : Inv c s) (hf : f ≠ 0) (hp : Proper c f) :
    (step c s (u, .server f)).func = f.toNat ∧
    (Held f (step c s (u, .server f)).asked (step c s (u, .server f)) ∨ (s.ram = none ∧ step c s (u, .server f) = s ∧ f = c.sw)) := by
  obtain ⟨p1, p2, p3⟩ := hp.resolve_left hf
  obtain ⟨i1, i2, i3, i6, i4, i5⟩ := hi
  have e : step c s (u, .server f) = setAndSave u f s := if_neg hf
  rw [e]
  unfold setAndSave
  by_cases hne : (s.func : Int) = f
  · rw [if_neg (fun x => x hne)]
    refine ⟨by omega, ?_⟩
    rcases i4 with h | ⟨g, h, g1, g2, g3⟩
    · refine .inr ⟨h, rfl, ?_⟩
      rw [h] at i1
      rw [← hne, i1]
      rfl
    · left
      have hg : g = f := by
        rw [h, load_some hl g1 g2 g3] at i1
        omega
      rw [hg] at h
      refine ⟨h, ?_⟩
      by_cases hz : s.delay = 0
      · exact .inl ((i2 hz).trans h)
      · exact .inr ⟨hz, i3, rfl⟩
  · rw [if_pos hne]
    obtain ⟨a1, a2, a3, a4, a5⟩ := saveWithDelay_frame u 5000 { s with func := clamp f, ram := some f }
    refine ⟨?_, .inl ⟨a2, .inr ⟨?_, ?_, rfl⟩⟩⟩
    · rw [a1]; exact clamp_of (by omega) p2
    · by_cases hz : s.delay = 0
      · rw [(a5 hz).1]; decide
      · rw [(a4 hz).1]; exact hz
    · by_cases hz : s.delay = 0
      · rw [(a5 hz).1]; decide
      · rw [(a4 hz).1]; exact i3

/-- Nothing stored, nothing told: nothing is stored. -/
theorem none_run {c : Ch} (h : List (Nat × Op)) : ∀ {s : St}, s.ram = none → s.flash = none →
    (∀ e ∈ h, ∀ g, e.2 ≠ .server g ∧ e.2 ≠ .purge ∧ e.2 ≠ .restart) → (run c s h).flash = none := by
  induction h with
  | nil => intro s _ hf _; exact hf
  | cons e h ih =>
    intro s hr hf hh
    have key : (step c s e).ram = none ∧ (step c s e).flash = none := by
      obtain ⟨t, o⟩ := e
      have hn := hh (t, o) List.mem_cons_self
      cases o with
      | server g => exact absurd rfl (hn g).1
      | other d => exact ⟨(saveWithDelay_frame t d s).2.1.trans hr, (saveWithDelay_frame t d s).2.2.1.trans hf⟩
      | tick =>
        show (if s.delay ≠ 0 ∧ since (clk t) (clk s.asked) > s.delay then { s with flash := s.ram, delay := 0 } else s).ram = _ ∧
          (if s.delay ≠ 0 ∧ since (clk t) (clk s.asked) > s.delay then { s with flash := s.ram, delay := 0 } else s).flash = _
        split
        · exact ⟨hr, hr⟩
        · exact ⟨hr, hf⟩
      | commit => exact ⟨hr, hr⟩
      | purge => exact absurd rfl (hn 0).2.1
      | restart => exact absurd rfl (hn 0).2.2
    exact ih key.1 key.2 fun x hx => hh x (List.mem_cons_of_mem _ hx)

/-- **C145 (partial).** For relays, binary sensors, thermostats and roller shutters: the function the server named is the one
after a start, if the device ran for 5 s after the message. Missing: the other kinds of channels, see `never_kept`; functions
that are not proper for the channel, see `improper_lost`. -/
theorem function_kept_partial (c : Ch) (hl : c.loads = true) : Kept c := by
  intro h0 f u h1 t h2 hf hp hn hh hd1 ha hut ht t'
  have e1 : h0 ++ (u, Op.server f) :: h1 ++ (t, Op.tick) :: h2 ++ [(t', Op.restart)] =
      (h0 ++ [(u, .server f)]) ++ (h1 ++ ([(t, .tick)] ++ (h2 ++ [(t', .restart)]))) := by simp
  rw [e1, run_append, run_append, run_append, run_append]
  have hi := inv_run hl h0 (inv_boot c (k := none) (.inl rfl)) hh
  have es : run c (boot c none) (h0 ++ [(u, Op.server f)]) = step c (run c (boot c none) h0) (u, .server f) := by
    rw [run_append]; rfl
  rw [es] at ha ht ⊢
  obtain ⟨-, hcase⟩ := told_held (u := u) hl hi hf hp
  obtain ⟨p1, p2, p3⟩ := hp.resolve_left hf
  have n1 : ∀ e ∈ h1, ∀ g, e.2 ≠ .server g ∧ e.2 ≠ .purge ∧ e.2 ≠ .restart := fun e he => hn e (List.mem_append_left _ he)
  have n2 : ∀ e ∈ h2, ∀ g, e.2 ≠ .server g ∧ e.2 ≠ .purge ∧ e.2 ≠ .restart :=
    fun e he => hn e (List.mem_append_right _ (List.mem_cons_of_mem _ he))
  have nt : ∀ g, (t, Op.tick).2 ≠ .server g ∧ (t, Op.tick).2 ≠ .purge ∧ (t, Op.tick).2 ≠ .restart :=
    hn (t, .tick) (List.mem_append_right _ List.mem_cons_self)
  rcases hcase with hheld | ⟨hr, hs, hsw⟩
  · generalize step c (run c (boot c none) h0) (u, .server f) = s1 at *
    have hk := held_run (c := c) h1 hheld n1
    generalize run c s1 h1 = s2 at *
    have hfl : (step c s2 (t, .tick)).ram = some f ∧ (step c s2 (t, .tick)).flash = some f := by
      show (if s2.delay ≠ 0 ∧ since (clk t) (clk s2.asked) > s2.delay then { s2 with flash := s2.ram, delay := 0 } else s2).ram = _ ∧
          (if s2.delay ≠ 0 ∧ since (clk t) (clk s2.asked) > s2.delay then { s2 with flash := s2.ram, delay := 0 } else s2).flash = _
      split
      · exact ⟨hk.ram, hk.ram⟩
      · rename_i hc
        refine ⟨hk.ram, hk.kept.resolve_right fun ⟨x, y, z⟩ => hc ⟨x, ?_⟩⟩
        rw [z]
        unfold since clk
        omega
    have hend := flash_run (c := c) h2 hfl.1 hfl.2 n2
    show load c (run c (run c s2 [(t, .tick)]) h2).flash = _
    have er : run c s2 [(t, .tick)] = step c s2 (t, .tick) := rfl
    rw [er, hend]
    exact load_some hl p1 p2 p3
  · rw [hs]
    have hfl := hi.both hr
    generalize run c (boot c none) h0 = s1 at *
    have a1 := none_run (c := c) (h1 ++ ([(t, .tick)] ++ h2)) hr hfl hn
    rw [run_append, run_append] at a1
    show load c (run c (run c (run c s1 h1) [(t, .tick)]) h2).flash = _
    rw [a1]
    show c.sw = f.toNat
    omega

/-- A relay with three functions in turn, a power cut too early, and one after the save. -/
example : let c : Ch := ⟨true, false, 130⟩
    (run c (boot c none) [(0, .server 140), (6000, .tick), (7000, .server 300), (8000, .restart)]).func = 140 ∧
    (run c (boot c none) [(0, .server 140), (6000, .tick), (7000, .server 300), (12001, .tick), (12002, .restart)]).func = 300 ∧
    (run c (boot c none) [(0, .server 130), (6000, .restart)]).func = 130 := by decide +kernel

/-- While the device runs, the function is the one the server last named. -/
theorem function_is_told (c : Ch) (h : List (Nat × Op)) : ∀ (s : St), (∀ e ∈ h, e.2 ≠ .restart ∧ ∀ g, e.2 = .server g → 0 ≤ g ∧ g ≤ 65535) →
    ((run c s h).func : Int) = lastTold s.func h := by
  induction h with
  | nil => intro s _; rfl
  | cons e h ih =>
    intro s hh
    have ih' := ih (step c s e) fun x hx => hh x (List.mem_cons_of_mem _ hx)
    have hr : run c s (e :: h) = run c (step c s e) h := rfl
    rw [hr, ih']
    obtain ⟨t, o⟩ := e
    obtain ⟨n1, n2⟩ := hh (t, o) List.mem_cons_self
    cases o with
    | server f =>
      show lastTold ((step c s (t, .server f)).func : Int) h = lastTold (if f = 0 then (s.func : Int) else f) h
      congr 1
      show ((if f = 0 then s else setAndSave t f s).func : Int) = _
      split
      · rfl
      · obtain ⟨g1, g2⟩ := n2 f rfl
        unfold setAndSave
        split
        · rw [(saveWithDelay_frame t 5000 _).1]
          show (clamp f : Int) = f
          rw [clamp_of g1 g2]
          omega
        · rename_i hx
          exact Decidable.not_not.mp hx
    | other d =>
      show lastTold ((saveWithDelay t d s).func : Int) h = _
      rw [(saveWithDelay_frame t d s).1]
      rfl
    | tick =>
      show lastTold ((if s.delay ≠ 0 ∧ since (clk t) (clk s.asked) > s.delay then { s with flash := s.ram, delay := 0 } else s).func : Int) h = _
      split <;> rfl
    | commit => rfl
    | purge => rfl
    | restart => exact absurd rfl n1

/-- **C145, refuted for the other channels.** Of a channel whose element does not read it, the stored function is never used:
after every start it is the default of the firmware. -/
theorem never_kept (c : Ch) (hl : c.loads = false) (s : St) (h : List (Nat × Op)) (t : Nat) :
    (run c s (h ++ [(t, .restart)])).func = c.sw := by
  rw [run_append]
  show load c (run c s h).flash = c.sw
  cases (run c s h).flash with
  | none => rfl
  | some f =>
    show (if c.loads = true ∧ valid c f = true then clamp f else c.sw) = c.sw
    rw [if_neg (by rw [hl]; exact fun x => absurd x.1 (by decide))]

/-- **C145, refuted.** An impulse counter set to count water (330) is one for electricity (315) again after a restart. -/
theorem function_kept_violation : ¬ Kept ⟨false, false, 315⟩ := by
  intro h
  have := h [] 330 10 [] 6000 [] (by decide) (.inr (by decide)) (by simp) (by simp) (by simp) (by decide) (by decide) (by decide) 7000
  rw [never_kept ⟨false, false, 315⟩ rfl (boot ⟨false, false, 315⟩ none) ([] ++ (10, Op.server 330) :: [] ++ (6000, Op.tick) :: [])] at this
  revert this
  decide

/-- **C145, refuted.** A binary sensor takes any function while it runs, and drops one that is not in its list at the next
start. -/
theorem improper_lost (sw : Nat) (f : Int) (s : St) (u t : Nat) (h0 : 0 < f) (h1 : f ≤ 65535) (hv : valid ⟨true, true, sw⟩ f = false)
    (hne : (s.func : Int) ≠ f) :
    (step ⟨true, true, sw⟩ s (u, .server f)).func = f.toNat ∧
    (run ⟨true, true, sw⟩ s [(u, .server f), (u, .commit), (t, .restart)]).func = sw := by
  have e : step ⟨true, true, sw⟩ s (u, .server f) = saveWithDelay u 5000 { s with func := clamp f, ram := some f } := by
    show (if f = 0 then s else setAndSave u f s) = _
    rw [if_neg (by omega)]
    exact if_pos hne
  obtain ⟨a1, a2, -⟩ := saveWithDelay_frame u 5000 { s with func := clamp f, ram := some f }
  refine ⟨by rw [e, a1]; exact clamp_of (by omega) h1, ?_⟩
  show load ⟨true, true, sw⟩ (step ⟨true, true, sw⟩ s (u, .server f)).ram = sw
  rw [e, a2]
  show (if true = true ∧ valid ⟨true, true, sw⟩ f = true then clamp f else sw) = sw
  rw [if_neg (by rw [hv]; exact fun x => absurd x.2 (by decide))]

/-- A door sensor told it is a thermometer (40). -/
example : valid ⟨true, true, 100⟩ 40 = false ∧ valid ⟨true, true, 100⟩ 230 = true := by decide

/-- After the configuration of a channel has been removed and saved, a start gives the default of the firmware. -/
theorem purged (c : Ch) (s : St) (u t : Nat) : (run c s [(u, .purge), (u, .commit), (t, .restart)]).func = c.sw := rfl

end Verif.ChanCfg.Keep
