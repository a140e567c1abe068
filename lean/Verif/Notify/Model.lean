/-!
# Push notifications

Model of `/repo/src/supla/device/notifications.cpp` (cited as N),
`/repo/src/supla/protocol/supla_srpc.cpp` `sendNotification` (cited as S, lines 1077-1119) and the
check in `/repo/src/supla-common/srpc.c` lines 2604-2616 (cited as C).

A C string is the list of its bytes before the terminator; in memory the terminator follows. `none` as
the result of a memory operation is an access outside an object: undefined behaviour.
-/

namespace Verif.Notify

/-- `SUPLA_PN_TITLE_MAXSIZE`, `SUPLA_PN_BODY_MAXSIZE` (`/repo/src/supla-common/proto.h` 3497-3498). -/
def titleMax : Nat := 101
/-- `SUPLA_PN_BODY_MAXSIZE` (`/repo/src/supla-common/proto.h` 3498). -/
def bodyMax : Nat := 256

/-- `memcpy(m + off, src, n)`. -/
def copy (m : List Nat) (off : Nat) (src : List Nat) (n : Nat) : Option (List Nat) :=
  if off + n ≤ m.length ∧ n ≤ src.length then some (m.take off ++ src.take n ++ m.drop (off + n)) else none

/-- `m[i] = 0`. -/
def zero (m : List Nat) (i : Nat) : Option (List Nat) := copy m i [0] 1

/-- `TDS_PushNotification` as it is sent: the context, the sound, the two sizes and the bytes of
`TitleAndBody` that go with them (`proto.h` 3516-3526). -/
structure Packet where
  context : Int
  sound : Int
  titleSize : Nat
  bodySize : Nat
  data : List Nat
deriving DecidableEq, Repr

/-- A size field: an `int` put into 16 bits (S 1095-1096). -/
def sizeField (len : Nat) : Nat := if len = 0 then 0 else (len + 1) % 2 ^ 16

/-- A length cut to its maximum, terminator included (S 1098-1100, 1105-1107). -/
def cut (max len : Nat) : Nat := if len ≥ max then max - 1 else len

/-- `titleOffset` (S 1108). -/
def offset (titleLen : Nat) : Nat := if titleLen = 0 then 0 else titleLen + 1

/-- Putting the title into `TitleAndBody` (S 1098-1104); the length is cut to 100. -/
def putTitle (title : List Nat) (m : List Nat) : Option (List Nat × Nat) :=
  let len := cut titleMax title.length
  if len > 0 then
    match copy m 0 (title ++ [0]) len with
    | none => none
    | some m => (zero m len).map fun m => (m, len)
  else some (m, len)

/-- Putting the body behind it (S 1105-1113). -/
def putBody (msg : List Nat) (titleLen : Nat) (m : List Nat) : Option (List Nat) :=
  let len := cut bodyMax msg.length
  let off := offset titleLen
  if len > 0 then
    match copy m off (msg ++ [0]) (len + 1) with
    | none => none
    | some m => zero m (off + len)
  else some m

/-- `srpc_ds_async_send_push_notification` (C): nothing is sent when a size field is above its maximum. -/
def transmit (p : Packet) : Option Packet :=
  if p.bodySize > bodyMax ∨ p.titleSize > titleMax then none
  else some { p with data := p.data.take (p.bodySize + p.titleSize) }

/-- An `int` put into 16 bits. -/
def i16 (n : Int) : Int := (n + 2 ^ 15) % 2 ^ 16 - 2 ^ 15

/-- `sendNotification` (S 1077-1118): undefined behaviour (`none`), or the result and what was sent.
`ready` is `isRegisteredAndReady()`. A null pointer counts as an empty text (S 1092-1093). -/
def sendNotification (ready : Bool) (context : Int) (title msg : Option (List Nat)) (sound : Int) :
    Option (Bool × Option Packet) :=
  if ready = false then some (false, none)
  else
    let t := title.getD []
    let b := msg.getD []
    match putTitle t (List.replicate (titleMax + bodyMax) 0) with
    | none => none
    | some (m, len) => match putBody b len m with
      | none => none
      | some m => some (true, transmit { context := i16 context, sound := if sound ≥ 0 then sound else 0, titleSize := sizeField t.length, bodySize := sizeField b.length, data := m })

/-- One registration: the context and the fields the server manages
(`TDS_RegisterPushNotification`, `proto.h` 3505-3514). -/
structure Reg where
  context : Int
  title : Bool
  body : Bool
  sound : Bool
deriving DecidableEq, Repr

/-- The members of `Notification` (`notifications.h` 82-86); `srpc` is "the pointer is set". -/
structure St where
  regs : List Reg := []
  srpc : Bool := false
  blocked : Bool := false
deriving DecidableEq, Repr

/-- `SUPLA_NOTIF_MAX` (`notifications.h` 26). -/
def maxRegs : Nat := 50

/-- `registerNotification` (N 88-128). -/
def register (context : Int) (titleByDevice bodyByDevice soundByDevice : Bool) (s : St) : St × Bool :=
  if s.blocked then (s, false)
  else if s.regs.any (fun r => r.context = context) then (s, false)
  else if s.regs.length < maxRegs then
    ({ s with regs := s.regs ++ [⟨i16 context, !titleByDevice, !bodyByDevice, !soundByDevice⟩] }, true)
  else (s, false)

/-- `onRegistered` (N 179-188): the registrations sent to the server. -/
def onRegistered (s : St) : St × List Reg := ({ s with blocked := true, srpc := true }, s.regs)

/-- `send` (N 130-161) and `getContextConfig` (N 163-170). -/
def send (ready : Bool) (context : Int) (title msg : Option (List Nat)) (sound : Int) (s : St) :
    Option (Bool × Option Packet) :=
  if s.srpc = false then some (false, none)
  else match s.regs.find? (fun r => r.context = context) with
    | none => some (false, none)
    | some r =>
      sendNotification ready context (if r.title then none else title) (if r.body then none else msg)
        (if r.sound then -1 else sound)

/-- What happens to the object: the program registers a notification, the server accepts the device. -/
inductive Op where
  | register (context : Int) (t b s : Bool)
  | accepted
deriving DecidableEq, Repr

/-- One operation. -/
def step (s : St) : Op → St
  | .register c t b d => (register c t b d s).1
  | .accepted => (onRegistered s).1

end Verif.Notify
