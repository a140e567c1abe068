/-
Does the server know the value of a channel?  One channel, the connection to the SUPLA server and
possibly a second protocol layer (MQTT).

Models src/supla/protocol/supla_srpc.cpp lines 748-925 (`iterate`: `registered` 0 / -1 / 1) and
1123-1137 (`sendChannelValueChanged`), src/SuplaDevice.cpp lines 420-434 (the elements may send when
any protocol layer is connected), src/supla/channels/channel.cpp lines 375-385 (`sendUpdate`) and
1388-1404 (`fillDeviceChannelStruct`).

Simplifications: messages handed to the connection arrive (loss of the connection is the event
`lost`); the rate limit of the elements is ignored (a pass may send).
-/

namespace Verif.Channel

/-- `registered`: 0 not connected, -1 registration message sent, 1 registered. -/
inductive Link where
  | down | asking | up
deriving DecidableEq, Repr

/-- The channel value, its update flag, the connection, whether the other protocol layer is
    connected, the value the server has from this connection. -/
structure Sys where
  value : Nat
  pending : Bool := false
  link : Link := .down
  other : Bool := false
  server : Option Nat := none
deriving DecidableEq, Repr

/-- What may happen to a channel and the connection; the lines are cited at each case of `sstep`. -/
inductive SOp where
  | set (v : Nat)
  | ask
  | accepted
  | lost
  | other (up : Bool)
  | pass
deriving DecidableEq, Repr

/-- One event; the lines of the program are cited at each case. -/
def sstep (s : Sys) : SOp → Sys
  /- `setNewValue`: marks the channel if the value changed. -/
  | .set v => if v = s.value then s else { s with value := v, pending := true }
  /- `iterate` with registered == 0 on a new connection: the registration message carries the
     value and clears the flag. -/
  | .ask => if s.link = .down then
      { s with link := .asking, server := some s.value, pending := false } else s
  /- Positive registration result. -/
  | .accepted => if s.link = .asking then { s with link := .up } else s
  /- Connection lost, registration timeout, ping timeout. -/
  | .lost => { s with link := .down, server := none }
  | .other up => { s with other := up }
  /- One pass over the elements. -/
  | .pass =>
    if (s.link = .up ∨ s.other = true) ∧ s.pending = true then
      { s with pending := false, server := if s.link = .up then some s.value else s.server }
    else s

/-- A history of events. -/
def srun (s : Sys) (ops : List SOp) : Sys := ops.foldl sstep s

/-- While registered, the server has the current value or an update is pending. -/
def ServerKnows (s : Sys) : Prop := s.link = .up → s.pending = true ∨ s.server = some s.value

/-- The full claim. -/
def ServerAlwaysKnows : Prop := ∀ v ops, ServerKnows (srun { value := v } ops)

/-- With SUPLA as the only connected protocol layer the server always knows the value, or an update
    is pending: after any history of value changes, connects, registrations, losses and passes.
    Missing for the full claim: a second protocol layer, see the violation. -/
theorem server_knows_partial (v : Nat) (ops : List SOp) (h : SOp.other true ∉ ops) :
    ServerKnows (srun { value := v } ops) := by
  have : ∀ (ops : List SOp) (s : Sys), SOp.other true ∉ ops →
      (s.other = false ∧ (s.link ≠ .down → s.pending = true ∨ s.server = some s.value)) →
      ServerKnows (srun s ops) := by
    intro ops
    induction ops with
    | nil =>
      intro s _ h hl
      have hl' : s.link = .up := hl
      exact h.2 (by rw [hl']; intro e; cases e)
    | cons o t ih =>
      intro s hn hs
      apply ih (sstep s o) (fun hm => hn (by simp [hm]))
      obtain ⟨ho, hk⟩ := hs
      cases o with
      | set w =>
        simp only [sstep]
        split
        · exact ⟨ho, hk⟩
        · exact ⟨ho, fun _ => Or.inl rfl⟩
      | ask =>
        simp only [sstep]
        split
        · exact ⟨ho, fun _ => Or.inr rfl⟩
        · exact ⟨ho, hk⟩
      | accepted =>
        simp only [sstep]
        split
        · rename_i hl
          exact ⟨ho, fun _ => hk (by rw [hl]; intro e; cases e)⟩
        · exact ⟨ho, hk⟩
      | lost => exact ⟨ho, fun h => absurd rfl h⟩
      | other up =>
        cases up with
        | true => exact absurd (by simp) hn
        | false => exact ⟨rfl, hk⟩
      | pass =>
        simp only [sstep]
        split
        · rename_i hc
          refine ⟨ho, fun _ => Or.inr ?_⟩
          have hl : s.link = .up := by
            rcases hc.1 with h | h
            · exact h
            · rw [ho] at h; cases h
          simp [hl]
        · exact ⟨ho, hk⟩
  exact this ops _ h ⟨rfl, fun hl => absurd rfl hl⟩

example : (srun { value := 1 } [.ask, .set 2, .pass, .accepted, .pass]).server = some 2 ∧
    (srun { value := 1 } [.ask, .set 2, .pass, .accepted, .pass]).link = .up := by decide

/-- Violation: with MQTT connected as well, a change between the registration message and its answer
    is handed out (and the flag cleared) while the SUPLA layer drops it.  The server shows the old
    value until the next change. -/
theorem second_protocol_loses_update_violation : ¬ ServerAlwaysKnows := by
  intro h
  have := h 1 [.other true, .ask, .set 2, .pass, .accepted]
  revert this; unfold ServerKnows; decide

/-- The lost update is not repaired by any number of later passes. -/
theorem lost_update_stays_lost (n : Nat) :
    (srun { value := 1 } ([.other true, .ask, .set 2, .pass, .accepted] ++ List.replicate n .pass)).server
      = some 1 := by
  rw [srun, List.foldl_append]
  have h0 : List.foldl sstep { value := 1 } [.other true, .ask, .set 2, .pass, .accepted] =
      { value := 2, pending := false, link := .up, other := true, server := some 1 } := by decide
  rw [h0]
  induction n with
  | zero => rfl
  | succ n ih => rw [List.replicate_succ, List.foldl_cons]; exact ih

end Verif.Channel
