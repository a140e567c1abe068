import Mathlib.Data.List.Basic

/-! # Network connection of the Linux port

`/repo/extras/porting/linux/linux_client.cpp` (A); what its results mean for the device:
`/repo/src/supla-common/srpc.c` (B), `/repo/src/supla/protocol/supla_srpc.cpp` (C). The system is a parameter: for each
call the answer of the operating system or of the SSL library. -/

namespace Verif.LinClient

/-! ## Connecting -/

/-- Address family. -/
inductive Fam where
  | v4
  | v6
deriving DecidableEq, Repr

/-- One of the server's addresses: its family and how long a connection to it takes (`none`: refused or never). -/
structure Addr where
  fam : Fam
  answer : Option Nat
deriving DecidableEq, Repr

/-- Is a connection established with a socket of family `sock` within `timeout` ms (`connect`, `poll`, `getsockopt`,
A 81-103)? A socket of another family cannot be connected to the address. -/
def accepts (timeout : Nat) (sock : Fam) (a : Addr) : Bool :=
  decide (sock = a.fam) && match a.answer with
    | none => false
    | some ms => decide (ms ≤ timeout)

/-- The loop over the addresses (A 64-113): the socket is created with the family of the first address
(`addresses->ai_family`, A 66-67). Result: the index of the address connected to and the sockets left open. Sockets that
cannot be created are not modelled. -/
def tryAll (timeout : Nat) (sock : Fam) : Nat → List Addr → Option Nat × Nat
  | _, [] => (none, 0)
  | i, a :: as => if accepts timeout sock a then (some i, 1) else tryAll timeout sock (i + 1) as

/-- `connectImp` (A 46-121) up to the TCP connection, with the addresses given by the resolver. -/
def connectTcp (timeout : Nat) (addrs : List Addr) : Option Nat × Nat :=
  match addrs with
  | [] => (none, 0)
  | a :: as => tryAll timeout a.fam 0 (a :: as)

/-! ## The connection -/

/-- A connection: socket open, SSL object present, bytes handed to the network so far. -/
structure Conn where
  fd : Bool := false
  ssl : Bool := false
  out : List Nat := []
deriving DecidableEq, Repr

/-- `stop` (A 287-296). -/
def stop (c : Conn) : Conn := { c with fd := false, ssl := false }

/-- `connectImp` after the TCP connection (A 124-175): `hello` is whether SSL object and handshake gave a certificate of
the server (A 139-153). -/
def connect (useSsl tcp hello : Bool) (c : Conn) : Int × Conn :=
  if tcp then
    if useSsl then
      if hello then (1, { c with fd := true, ssl := true, out := [] })
      else (0, stop { c with fd := true, ssl := true })
    else (1, { c with fd := true, out := [] })
  else (0, { c with fd := false })

/-- What `SSL_write` or `write` does with the bytes: `took n` bytes taken, or an error. `SSL_write` takes all or nothing
(partial writes are not enabled), `write` on the non-blocking socket (A 158) may take a part. -/
inductive Took where
  | bytes (n : Nat)
  | error
deriving DecidableEq, Repr

/-- `writeImp` (A 178-198); `none`: the SSL library is given a null pointer. On a plain connection the result of `write`
is stored in an inner variable of the same name (A 192), the outer one returned (A 197) is 0. -/
def write (useSsl : Bool) (buf : List Nat) (t : Took) (c : Conn) : Option (Int × Conn) :=
  if c.fd then
    if useSsl then
      if c.ssl then
        match t with
        | .bytes _ => if buf.length = 0 then some (0, stop c) else some (buf.length, { c with out := c.out ++ buf })
        | .error => some (-1, stop c)
      else none
    else
      match t with
      | .bytes n => some (0, { c with out := c.out ++ buf.take n })
      | .error => some (0, stop c)
  else some (0, c)

/-- What `SSL_read` or `read` finds. -/
inductive Found where
  | data (n : Nat)
  | nothing
  | closed
  | error
deriving DecidableEq, Repr

/-- `readImp` (A 216-285) with a valid buffer: the result and the connection. `data n` is taken as at least one byte. -/
def read (useSsl : Bool) (f : Found) (c : Conn) : Int × Conn :=
  if c.fd then
    if useSsl then
      if c.ssl then
        match f with
        | .data n => (n + 1, c)
        | .nothing => (-1, c)
        | .closed => (-1, stop c)
        | .error => (-1, stop c)
      else (0, c)
    else
      match f with
      | .data n => (n + 1, c)
      | .nothing => (0, c)
      | .closed => (-1, stop c)
      | .error => (-1, c)
  else (0, c)

/-- `connected` (A 298-316), as answered by the system for an open socket. -/
def connected (f : Found) (c : Conn) : Bool :=
  c.fd && match f with
    | .data _ => true
    | .nothing => true
    | .closed => false
    | .error => false

/-- The device gives up the connection when a read gives 0 (`srpc_iterate_device`, B 422-427; C 829-836). -/
def keeps (r : Int) : Bool := decide (r ≠ 0)

/-- The time of the last message is kept if a positive number of bytes was reported (`dataWrite`, C 228-236). -/
def counted (r : Int) : Bool := decide (r > 0)

/-- One pass with nothing arriving (C 771, 829): connected, and not given up. -/
def idlePass (useSsl : Bool) (c : Conn) : Conn :=
  if connected .nothing c then
    if keeps (read useSsl .nothing c).1 then (read useSsl .nothing c).2 else stop (read useSsl .nothing c).2
  else stop c

/-- Messages written one after the other, each with what the network takes; the results are ignored (B 263-269, 394). -/
def writeAll (useSsl : Bool) : List (List Nat × Took) → Conn → Option Conn
  | [], c => some c
  | (b, t) :: ms, c => match write useSsl b t c with
    | none => none
    | some (_, c') => writeAll useSsl ms c'

end Verif.LinClient
