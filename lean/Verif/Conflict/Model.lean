/-!
# The channel report of the server

Models `SuplaSrpc::onRegisterResultB` of /repo/src/supla/protocol/supla_srpc.cpp lines 540-598 (P) and
`getMaxChannelNumberUsed`, `isChannelNumberFree` of /repo/src/supla/device/register_device.cpp (R).
-/

namespace Verif.Conflict

/-- `getMaxChannelNumberUsed`, R lines 109-119; -1 without channels. -/
def maxUsed : List Int → Int
  | [] => -1
  | n :: l => if n > maxUsed l then n else maxUsed l

/-- `isChannelNumberFree`, R lines 289-302; `SUPLA_CHANNELMAXCOUNT` is 128. -/
def free (dev : List Int) (i : Int) : Bool := if i ≥ 128 then false else !dev.contains i

/-- What is told to the resolver: the kinds of conflicts and the size of the report, cut to `uint8_t`
(channel_conflict_resolver.h line 32). -/
structure Flags where
  invalidType : Bool
  missingOnServer : Bool
  missingOnDevice : Bool
deriving DecidableEq, Repr

/-- One turn of the loop, P lines 563-589; `e` is the entry of channel `i`. -/
def turn (dev : List Int) (i : Int) (e : Nat) (f : Flags) : Flags :=
  if e = 0 ∧ free dev i = false then { f with missingOnServer := true }
  else if e % 2 = 1 ∧ free dev i = true then { f with missingOnDevice := true }
  else if e / 2 % 2 = 1 then { f with invalidType := true }
  else f

/-- The loop, from channel `i` on. -/
def loop (dev : List Int) : Int → List Nat → Flags → Flags
  | _, [], f => f
  | i, e :: l, f => loop dev (i + 1) l (turn dev i e f)

/-- P lines 551-590. -/
def analyse (dev : List Int) (report : List Nat) : Flags :=
  loop dev 0 report ⟨false, decide ((report.length : Int) < maxUsed dev), false⟩

/-- P line 594: the size the resolver gets. -/
def toldSize (report : List Nat) : Nat := report.length % 256

end Verif.Conflict
