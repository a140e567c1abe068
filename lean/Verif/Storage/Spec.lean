import Verif.Storage.Model

/-!
# Vocabulary of the special-section and throttling claims
-/

namespace Verif.Storage

/-- The addresses a section owns: one or two copies of data plus optional two-byte checksum. -/
def Section.owns (s : Section) (a : Nat) : Prop :=
  s.offset ≤ a ∧ a < s.offset + (if s.backup then 2 else 1) * (s.size + if s.crc then 2 else 0)

/-- No two sections with different identifiers share an address. -/
def Disjoint (secs : List Section) : Prop :=
  ∀ s ∈ secs, ∀ t ∈ secs, s.id ≠ t.id → ∀ a, s.owns a → ¬ t.owns a

/-- The section an operation names. -/
def Op.id : Op → Int
  | .write id _ => id
  | .delete id => id
  | .read id _ => id

/-- The medium after power was lost when only the first `n` byte writes had reached it. -/
def crash (m : Mem) (ws : List Write) (n : Nat) : Mem := apply m (ws.take n)

/-- Copy `entry` holds `data` followed by its correct checksum. -/
def Section.holds (s : Section) (m : Mem) (entry : Nat) (data : List Byte) : Prop :=
  let at_ := s.offset + entry * (s.size + 2)
  (∀ i (h : i < data.length), m (at_ + i) = data[i])
    ∧ m (at_ + s.size) = (Crc16.crc16 data).setWidth 8
    ∧ m (at_ + s.size + 1) = (Crc16.crc16 data >>> 8).setWidth 8

/-! ## Save throttling -/

/-- What the main loop and the elements do with the storage throttle. -/
inductive TOp where
  | poll
  | schedule (delay : Nat)
  deriving DecidableEq, Repr

/-- A history: the milliseconds that pass before each operation, and the operation. -/
abbrev Trace := List (Nat × TOp)

/-- Reference behaviour in unbounded time. `now` is the time, `due` the earliest time at which the
next save may happen. A save postpones the next one by more than `period`; scheduling only ever
brings the due time forward, to `delay` from now. The result lists for each poll whether it saves. -/
def specRun (period : Nat) : Nat → Nat → Trace → List Bool
  | _, _, [] => []
  | now, due, (dt, .poll) :: rest =>
    if due ≤ now + dt then true :: specRun period (now + dt) (now + dt + period + 1) rest
    else false :: specRun period (now + dt) due rest
  | now, due, (dt, .schedule d) :: rest => specRun period (now + dt) (min due (now + dt + d)) rest

/-- The device's behaviour on the same history: the clock it sees is the time modulo 2^32. -/
def implRun : Throttle → Nat → Trace → List Bool
  | _, _, [] => []
  | t, now, (dt, .poll) :: rest =>
    (saveAllowed t (BitVec.ofNat 32 (now + dt))).2
      :: implRun (saveAllowed t (BitVec.ofNat 32 (now + dt))).1 (now + dt) rest
  | t, now, (dt, .schedule d) :: rest =>
    implRun (scheduleSave t (BitVec.ofNat 32 (now + dt)) (BitVec.ofNat 32 d)) (now + dt) rest

/-- The time since the last poll (`since` at the start) never exceeds `gap`. -/
def Frequent (gap : Nat) : Nat → Trace → Prop
  | _, [] => True
  | since, (dt, .poll) :: rest => since + dt ≤ gap ∧ Frequent gap 0 rest
  | since, (dt, .schedule _) :: rest => since + dt ≤ gap ∧ Frequent gap (since + dt) rest

/-- Every requested delay is at most the save period plus one. -/
def ShortDelays (period : Nat) (tr : Trace) : Prop :=
  ∀ dt d, (dt, TOp.schedule d) ∈ tr → d ≤ period + 1

end Verif.Storage
