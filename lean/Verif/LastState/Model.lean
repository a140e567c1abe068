import Verif.Tools.Number

/-!
# The log of last states

The device keeps the reports of its recent states in a buffer of 500 bytes, newest first, and shows them on
the configuration page.

Cited as L: `/repo/src/supla/device/last_state_logger.cpp`; D: `/repo/src/SuplaDevice.cpp`;
I: `/repo/src/supla/network/html/device_info.cpp`.
-/

namespace Verif.LastState

open Verif.Tools

/-- The buffer, L line 20 of the header: all zero when made. -/
def blank : List Nat := List.replicate 500 0

/-- `" (%d)"` for times over 7 s, L lines 46-50. -/
def stamp (up : Int) : List Nat := if up > 7 then [32, 40] ++ decimalText up.toNat ++ [41] else []

/-- The four bytes at the end, L lines 67-70. -/
def mark (b : List Nat) : List Nat := (((b.set 496 46).set 497 46).set 498 46).set 499 0

/-- `log`, L lines 45-74. The copies are made one after another to the end of the buffer. -/
def log (b : List Nat) (state : List Nat) (up : Int) : List Nat :=
  if (state ++ stamp up).length + 1 > 500 then b
  else mark ((state ++ stamp up) ++ 0 :: b.take (500 - (state ++ stamp up).length - 1))

/-- `clear`, L lines 76-79. -/
def clear (_ : List Nat) : List Nat := List.replicate 500 0

/-- Where the reader is, and how often the lock was taken less how often it was released. -/
structure Reader where
  index : Nat
  locks : Int
deriving DecidableEq, Repr

/-- `strlen`: the bytes before the zero. -/
def text (b : List Nat) : List Nat := b.takeWhile (fun c => c != 0)

/-- `getLog`, L lines 81-95: the text, or the end. A read outside the buffer has no outcome. -/
def getLog (b : List Nat) (r : Reader) : Option (Option (List Nat) × Reader) :=
  match b[r.index]? with
  | none => none
  | some c =>
    if c = 0 then some (none, { r with locks := r.locks - 1 })
    else some (some (text (b.drop r.index)),
      { index := r.index + (text (b.drop r.index)).length + 1, locks := if r.index = 0 then r.locks + 1 else r.locks })

/-- The loop on the page, I lines 47-54: the texts shown and, if it ends, the reader at the end. It has at
most as many rounds as there are bytes. -/
def walk (b : List Nat) : Nat → Reader → List (List Nat) × Option Reader
  | 0, _ => ([], none)
  | fuel + 1, r =>
    match getLog b r with
    | none => ([], none)
    | some (none, r') => ([], some r')
    | some (some t, r') => (t :: (walk b fuel r').1, (walk b fuel r').2)

/-- `prepareLastStateLog` (L lines 40-43) and the loop. -/
def page (b : List Nat) (locks : Int) : List (List Nat) × Option Reader := walk b 501 { index := 0, locks := locks }

/-! ## Status -/

/-- The reported status. -/
structure Dev where
  status : Int
  buf : List Nat
deriving Repr

/-- Configuration mode (40) and the factory test (70), D lines 62-63. -/
def final (s : Int) : Bool := s == 40 || s == 70

/-- The ways out: restart 41, missing GUID 22 and key 33, offline mode 80, D lines 64-66. -/
def wayOut (s : Int) : Bool := s == 41 || s == 22 || s == 33 || s == 80

/-- `status`, D lines 51-90; `up` is the uptime. No text is none. -/
def report (d : Dev) (new : Int) (msg : Option (List Nat)) (up : Int) : Dev :=
  if final d.status && !wayOut new then d
  else if d.status ≠ new then
    if new = 10 ∧ d.status > 10 then d
    else { status := new, buf := if new ≠ 5 then (match msg with | some m => log d.buf m up | none => d.buf) else d.buf }
  else d

end Verif.LastState
