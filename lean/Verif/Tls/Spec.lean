/-!
# What a user expects of the connection with the server

Names and certificates are lists of byte values.  Nothing here refers to the
program: only to the settings a user or integrator gives, and to the server
that answers.
-/

namespace Verif.Tls

/-- A host name, as byte values without the terminating zero. -/
abbrev Name := List Nat

/-- The text of a certificate, as byte values without the terminating zero. -/
abbrev Cert := List Nat

/-- Two ASCII characters are the same up to the case of a letter. -/
def SameLetter (a b : Nat) : Prop :=
  a = b ∨ (65 ≤ a ∧ a ≤ 90 ∧ b = a + 32) ∨ (65 ≤ b ∧ b ≤ 90 ∧ a = b + 32)

/-- Two texts are the same up to the case of letters. -/
def SameText : Name → Name → Prop
  | [], [] => True
  | a :: as, b :: bs => SameLetter a b ∧ SameText as bs
  | _, _ => False

/-- `.supla.org` -/
def publicDomain : Name := [46, 115, 117, 112, 108, 97, 46, 111, 114, 103]

/-- A server of the public SUPLA cloud: a non-empty name in `.supla.org`. -/
def PublicServer (n : Name) : Prop :=
  ∃ host dom, n = host ++ dom ∧ host ≠ [] ∧ SameText dom publicDomain

/-- A public server's name that begins with `srv` and a digit, in any case of
letters: the common misspelling of `svr`. -/
def Misspelled (n : Name) : Prop :=
  PublicServer n ∧ ∃ a b c d rest, n = a :: b :: c :: d :: rest ∧
    SameLetter a 115 ∧ SameLetter b 114 ∧ SameLetter c 118 ∧ 48 ≤ d ∧ d ≤ 57

/-- What the user stored in the device: the page of the protocol settings. -/
structure Stored where
  /-- the SUPLA protocol is switched on -/
  enabled : Bool
  /-- the address of the server; empty when none is stored -/
  server : Name
  /-- the port, if one is stored -/
  port : Option Int
  /-- the security level, if one is stored: 0 the certificates of SUPLA, 1 the
  user's own certificate, 2 no check -/
  level : Option Nat
  /-- the user's own certificate, if one is stored -/
  customCa : Option Cert
  /-- reading the stored certificate succeeds -/
  readable : Bool

/-- What the firmware and the user set before the device is started. -/
structure Settings where
  /-- certificate of the public servers -/
  ca : Option Cert
  /-- certificate of private servers -/
  ca3 : Option Cert
  /-- port given by the firmware; -1 when none is -/
  port : Int
  /-- encryption is on (the default) -/
  ssl : Bool
  /-- server given by the firmware -/
  server : Name
  /-- the stored settings, on devices that have a storage for them -/
  stored : Option Stored

/-- The port asked for: a stored port counts only on a device with storage, and
only if it can be the number of a port. -/
def Settings.wantedPort (s : Settings) : Option Int :=
  match s.stored with
  | none => if s.port = -1 then none else some s.port
  | some c =>
    match c.port with
    | some p => if 1 ≤ p ∧ p ≤ 65535 then some p else none
    | none => none

/-- The server asked for. -/
def Settings.wantedServer (s : Settings) : Name :=
  match s.stored with
  | some c => if c.server = [] then s.server else c.server
  | none => s.server

end Verif.Tls
