import Verif.Button.Model

/-!
# What a user expects of a button

Waveforms are lists of samples (true time, level), times non-decreasing.
-/

namespace Verif.Button

/-- One timer pass: the true time and the pin level. -/
abbrev Sample := Nat × Bool

/-- Times never go backwards. -/
def Sorted (l : List Sample) : Prop := l.Pairwise (fun a b => a.1 ≤ b.1)

/-- Feed a waveform to `ButtonState`; returns the final state and the reported changes (time, new
level), oldest first. -/
def feed (c : DCfg) : DSt → List Sample → DSt × List Sample
  | s, [] => (s, [])
  | s, (t, lvl) :: rest =>
    let u := update c s t lvl
    let r := feed c u.1 rest
    (r.1, if u.2 = .toPressed ∨ u.2 = .toReleased then (t, lvl) :: r.2 else r.2)

/-- The changes reported for a waveform, from a button initialised at level `l0`. -/
def reports (c : DCfg) (l0 : Bool) (w : List Sample) : List Sample := (feed c (dInit l0) w).2

/-- The level last reported: the level of the last report, or the initial one. -/
def reported (l0 : Bool) (rs : List Sample) : Bool := (rs.getLast?.map (·.2)).getD l0

/-- The time of the last report, or of start-up. -/
def reportedAt (rs : List Sample) : Nat := (rs.getLast?.map (·.1)).getD 0

/-- The waveform `w` ends with samples that are all at level `lvl`, over a time that starts more
than `f` milliseconds before `t`. -/
def HeldFor (w : List Sample) (t : Nat) (lvl : Bool) (f : Nat) : Prop :=
  ∃ a t0 b, w = a ++ (t0, lvl) :: b ∧ (∀ s ∈ b, s.2 = lvl) ∧ t - t0 > f

/-! ## Multi-click and hold: passes of a debounced button -/

/-- A pass of the debounced button: true time and debounced state. -/
abbrev Pass := Nat × Res

/-- Feed debounced passes; all events raised, in order, each with the time of its pass. -/
def runPasses (c : Cfg) : St → List Pass → St × List (Nat × Ev)
  | s, [] => (s, [])
  | s, (t, r) :: rest =>
    let l := logic c s t r
    let q := runPasses c l.1 rest
    (q.1, l.2.map (fun e => (t, e)) ++ q.2)

/-- Is the event one of the click events (`ON_CLICK_n`, `ON_LONG_CLICK_n`, `ON_CRAZY_CLICKER`)? -/
def isClickEv : Ev → Bool
  | .click _ => true
  | .longClick _ => true
  | .crazy => true
  | _ => false

/-- Click events of a run, in order. -/
def clicks (l : List (Nat × Ev)) : List Ev := (l.map (·.2)).filter isClickEv

/-- A change the user counts as a click: a press of a monostable button, any change of a bistable
button or motion sensor. -/
def counts (k : Kind) (r : Res) : Bool :=
  match r with
  | .toPressed => true
  | .toReleased => k != .mono
  | _ => false

/-- Passes of one burst of clicks. `last` is the time of the latest change. Between changes the
user never waits longer than the multi-click time, and never holds a pressed monostable button
longer than the hold time. No wait is 2^32 ms or longer. -/
def InBurst (c : Cfg) : Nat → List Pass → Prop
  | _, [] => True
  | last, (t, r) :: rest =>
    last ≤ t ∧ t - last < 2 ^ 32 ∧
    match r with
    | .toPressed | .toReleased => InBurst c t rest
    | .pressed =>
      (if c.kind = .mono then c.holdTime = 0 ∨ t - last ≤ c.holdTime else t - last ≤ c.multi)
        ∧ InBurst c last rest
    | .released => t - last ≤ c.multi ∧ InBurst c last rest

/-- No change happens at a moment where the 32-bit clock reads exactly 0. -/
def OffZero (l : List Pass) : Prop :=
  ∀ p ∈ l, p.2 = .toPressed ∨ p.2 = .toReleased → clk p.1 ≠ 0

/-- A burst: its passes start with the first click and end with the first evaluation after more
than the multi-click time of rest (for a monostable button, rest means released). -/
structure Burst where
  t0 : Nat
  r0 : Res
  mid : List Pass
  tf : Nat
  rf : Res

/-- All passes of a burst. -/
def Burst.passes (b : Burst) : List Pass := (b.t0, b.r0) :: b.mid ++ [(b.tf, b.rf)]

/-- Time of the latest change after the passes. -/
def lastChange : Nat → List Pass → Nat
  | last, [] => last
  | last, (t, r) :: rest =>
    lastChange (if r = .toPressed ∨ r = .toReleased then t else last) rest

/-- Number of clicks in the passes. -/
def clickCount (k : Kind) (l : List Pass) : Nat := l.countP (fun p => counts k p.2)

/-- The burst is one the user would call a burst of clicks. -/
structure Burst.Good (c : Cfg) (b : Burst) : Prop where
  first : counts c.kind b.r0 = true
  inBurst : InBurst c b.t0 b.mid
  endsQuiet : b.rf = .released ∨ (b.rf = .pressed ∧ c.kind ≠ .mono)
  order : lastChange b.t0 b.mid ≤ b.tf
  rest : b.tf - lastChange b.t0 b.mid > c.multi
  noWrap : b.tf - lastChange b.t0 b.mid < 2 ^ 32

/-- The number of clicks of a burst. -/
def Burst.n (c : Cfg) (b : Burst) : Nat := clickCount c.kind b.passes

/-- Is the configuration one a `Button` can have: 16-bit hold and 32-bit multi-click times,
multi-click enabled and at least one `ON_CLICK_n` listener, n at most 10? -/
structure Cfg.Clicks (c : Cfg) : Prop where
  multi : 0 < c.multi
  multi32 : c.multi < 2 ^ 32
  hold16 : c.holdTime < 2 ^ 16
  max1 : 1 ≤ c.maxClick
  max10 : c.maxClick ≤ 10

/-- What a listener of click events hears for a burst of `n` clicks. -/
def expected (n : Nat) : List Ev := if n = 10 then [.click 10, .crazy] else [.click n]

end Verif.Button
