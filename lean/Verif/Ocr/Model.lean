import Verif.Common.Clock

/-
Meter read by camera and text recognition.
Models src/supla/sensor/ocr_impulse_counter.cpp lines 203-277 (saving, photo pacing), 286-424
(parsing a server reply, plausibility), 441-471 (reset, light), and ocr_impulse_counter.h 81-93.
-/

namespace Verif.Ocr

open Verif

/-- A C string without its terminator (bytes, none of them 0). -/
abbrev Text := List Nat

/-- `strstr`: position of the first occurrence. -/
def find (pat : Text) : Text → Option Nat
  | [] => if pat.isEmpty then some 0 else none
  | c :: r => if pat.isPrefixOf (c :: r) then some 0 else (find pat r).map (· + 1)

/-- `"id":"` (6 bytes). -/
def tagId : Text := [34, 105, 100, 34, 58, 34]
/-- `"processedAt":` (14 bytes). -/
def tagProcessed : Text := [34, 112, 114, 111, 99, 101, 115, 115, 101, 100, 65, 116, 34, 58]
/-- `"resultMeasurement":` (20 bytes). -/
def tagResult : Text := [34, 114, 101, 115, 117, 108, 116, 77, 101, 97, 115, 117, 114, 101, 109, 101, 110, 116, 34, 58]
/-- `,"` -/
def tagComma : Text := [44, 34]

/-- `strncpy(buf, src, n)` into a buffer: `n` bytes are written (padded with 0); `none` if they do
    not fit. -/
def copyInto (buf src : List Nat) (n : Nat) : Option (List Nat) :=
  if n ≤ buf.length then some ((src.take n ++ List.replicate (n - (src.take n).length) 0) ++ buf.drop n)
  else none

/-- `buf[i] = v`. -/
def store (buf : List Nat) (i v : Nat) : Option (List Nat) :=
  if i < buf.length then some (buf.set i v) else none

/-- Digits of `strtoull`, base 10, from a partial value. -/
def digits : Nat → Text → Nat
  | v, [] => v
  | v, c :: r => if 48 ≤ c ∧ c ≤ 57 then digits (v * 10 + (c - 48)) r else v

/-- White space of `isspace`. -/
def isSpace (c : Nat) : Bool := c == 32 || decide (9 ≤ c ∧ c ≤ 13)

/-- `strtoull(s, nullptr, 10)`: white space, sign, digits; too large values give 2^64-1, a minus
    sign negates modulo 2^64. -/
def strtoull (s : Text) : Nat :=
  match s.dropWhile isSpace with
  | 45 :: r => if digits 0 r ≥ 2 ^ 64 then 2 ^ 64 - 1 else (2 ^ 64 - digits 0 r) % 2 ^ 64
  | 43 :: r => min (digits 0 r) (2 ^ 64 - 1)
  | r => min (digits 0 r) (2 ^ 64 - 1)

/-- Outcome of the text part of `parseStatus`. -/
inductive Parsed where
  | nothing
  | reading (v : Nat)
deriving DecidableEq, Repr

/-- Lines 303-324: the id of the picture; (new id buffer, may go on).  `none`: write outside. -/
def parseId (uuid status : Text) : Option (List Nat × Bool) :=
  match find tagId status with
  | none => some (uuid, false)
  | some p =>
    match find [34] (status.drop (p + 6)) with
    | none => some (uuid, false)
    | some n =>
      if n > 36 then some (uuid, false)
      else (copyInto uuid (status.drop (p + 6)) n).map fun u => (u, true)

/-- Lines 326-339: `processedAt` present and not null. -/
def processed (status : Text) : Bool :=
  match find tagProcessed status with
  | none => false
  | some p => !(status.drop (p + 14)).take 4 == [110, 117, 108, 108]

/-- Lines 341-366: start and length of the measurement text. -/
def measurementSpan (status : Text) : Option (Nat × Nat) :=
  match find tagResult status with
  | none => none
  | some p =>
    match (find tagComma (status.drop p)).or (find [125] (status.drop p)) with
    | none => none
    | some e => if e - 20 > 100 then none else some (p + 20, e - 20)

/-- Lines 367-374: the measurement is copied to a 100 byte buffer, terminated and converted.
    `none`: write outside the buffer. -/
def measurement (status : Text) (start len : Nat) : Option Nat := do
  let b ← copyInto (List.replicate 100 0) (status.drop start) len
  let b ← store b len 0
  pure (strtoull (b.takeWhile (· ≠ 0)))

/-- Text part of `parseStatus`, lines 286-379: new id buffer and outcome; `none` is a write outside
    a buffer. -/
def parseText (uuid status : Text) : Option (List Nat × Parsed) :=
  match parseId uuid status with
  | none => none
  | some (u, false) => some (u, .nothing)
  | some (u, true) =>
    if !processed status then some (u, .nothing)
    else
      match measurementSpan status with
      | none => some (u, .nothing)
      | some (st, len) =>
        match measurement status st len with
        | none => none
        | some v => if v = 0 then some (u, .nothing) else some (u, .reading v)

/-- State that matters for plausibility: last accepted reading and its time (seconds, signed),
    the counter shown, and the configured limits. -/
structure Ocr where
  lastOk : Nat := 0
  ts : Int := 0
  counter : Nat := 0
  maxInc : Nat := 0
  interval : Nat := 3600
deriving DecidableEq, Repr

/-- `int periods = diff / interval + 1`: 64-bit signed division (towards zero) converted to a
    32-bit `int` (modulo 2^32). -/
def periods (diff : Int) (interval : Nat) : Int :=
  ((diff.tdiv (interval : Int) + 1 + 2 ^ 31) % 2 ^ 32) - 2 ^ 31

/-- `uint64_t maxIncrementAllowed = max * periods`: the `int` converted to 64 bits unsigned. -/
def allowed (maxInc : Nat) (p : Int) : Nat := (maxInc * (p % 2 ^ 64).toNat) % 2 ^ 64

/-- Lines 381-423: whether a reading `v` at time `now` is taken over. -/
def plausible (s : Ocr) (v : Nat) (now : Int) : Bool :=
  if s.lastOk = v then false
  else if s.lastOk = 0 ∨ s.maxInc = 0 then true
  else if v < s.lastOk then false
  else if s.interval ≥ 3600 then
    decide (allowed s.maxInc (periods (now - s.ts) s.interval) ≥ s.maxInc) &&
    decide (v - s.lastOk ≤ allowed s.maxInc (periods (now - s.ts) s.interval))
  else false

/-- Taking over a reading. -/
def accept (s : Ocr) (v : Nat) (now : Int) : Ocr :=
  if plausible s v now then { s with lastOk := v, ts := now, counter := v } else s

/-- `resetCounter`, lines 441-445. -/
def reset (s : Ocr) : Ocr := { s with lastOk := 0, ts := 0, counter := 0 }

/-- Restart of the device: `onSaveState`/`onLoadState`, lines 203-224, keep the last accepted
    reading and its time; the counter starts at 0.  (Simplified: the state saved is the one at the
    restart.) -/
def restart (s : Ocr) : Ocr := { s with counter := 0 }

/-- Events: a parsed reading, a reset by the user, a restart. -/
inductive Op where
  | reading (v : Nat) (now : Int)
  | reset
  | restart
deriving DecidableEq, Repr

/-- One event, each the function cited above. -/
def step (s : Ocr) : Op → Ocr
  | .reading v now => accept s v now
  | .reset => reset s
  | .restart => restart s

/-- A history of events. -/
def run (s : Ocr) (ops : List Op) : Ocr := ops.foldl step s

/-! ### Photo pacing, `iterateConnected` lines 226-277 and `handleLedState*` 447-471 -/

/-- Pacing state: time of the last photo (0: take one as soon as possible), whether the light is to
    be switched for a photo, when it was switched on (0: it is off). -/
structure Pace where
  lastPhoto : Nat := 0
  autoLight : Bool := false
  litSince : Nat := 0
deriving DecidableEq, Repr

/-- What a pass did: nothing, switched the light on, tried to take a photo. -/
inductive Did where
  | nothing | light | photo (ok : Bool)
deriving DecidableEq, Repr

/-- One pass with the clock ready, configuration received and interval `sec` of at least an hour.
    `PhotoIntervalSec * 1000` is unsigned 32-bit. -/
def pass (sec : Nat) (s : Pace) (now : Nat) (camera : Bool) : Pace × Did :=
  if s.lastPhoto = 0 ∨ since now s.lastPhoto ≥ sec * 1000 % 2 ^ 32 then
    if s.autoLight && decide (s.litSince = 0) then ({ s with litSince := now }, .light)
    else if decide (s.litSince ≠ 0) && decide (since now s.litSince ≤ 3000) then (s, .nothing)
    else
      ({ s with lastPhoto := if camera then now else (s.lastPhoto + 15000) % 2 ^ 32, litSince := if s.autoLight then 0 else s.litSince }, .photo camera)
  else (s, .nothing)

end Verif.Ocr
