import Verif.Tools.Url

/-!
# The configuration form parser

Models `WebServer::parsePost`, `/repo/src/supla/network/web_server.cpp` (cited as W), which gets the body
of an HTTP form in chunks of any size.
-/

namespace Verif.Web
open Verif.Tools

/-- What the parser does for the rest of the program: a key and value buffer handed to the handlers
(W lines 205-221; which handler takes it, and the restart requested by the key `rbt`, are functions of
these two), or the end of the form (W lines 231-243). -/
inductive Event
  | field (key value : Mem)
  | finish
deriving DecidableEq, Repr

/-- State of the parser: `partialSize`, `keyFound`, `key`, `value` (W lines 164-229 and
`/repo/src/supla/network/web_server.h` lines 50-60). A null `value` is not distinguished from a buffer of
zeros: it is allocated and zeroed on entry (W lines 169-172). -/
structure State where
  part : Nat
  keyFound : Bool
  key : Mem
  value : Mem
  events : List Event
deriving DecidableEq, Repr

/-- A buffer of zeros. -/
def zeros (n : Nat) : Mem := List.replicate n 0

/-- `resetParser`, W lines 247-254; `kl` and `vl` are `HTML_KEY_LENGTH` (16) and `HTML_VAL_LENGTH` (4000). -/
def reset (kl vl : Nat) (s : State) : State :=
  { part := 0, keyFound := false, key := zeros kl, value := zeros vl, events := s.events }

/-- `memcpy` into a buffer: undefined outside it. -/
def copy (m : Mem) (d : Nat) (xs : List Nat) : Option Mem :=
  if d + xs.length ≤ m.length then some (splice m d xs) else none

/-- Copying the bytes since `startPtr` behind the part that is there, W lines 179-183 and 192-196: at
most `size - 1 - partialSize` bytes; a negative length is undefined. -/
def append (m : Mem) (size part : Nat) (seg : List Nat) : Option (Mem × Nat) :=
  let room : Int := (size : Int) - 1 - part
  let len : Int := if (seg.length : Int) > room then room else seg.length
  if len < 0 then none
  else (copy m part (seg.take len.toNat)).map (fun m => (m, len.toNat))

/-- One round of the loop, W lines 177-229: the byte `c`, which is the last one (the byte behind the
chunk) if `isEnd`; `seg` are the bytes since `startPtr`. -/
def char (kl vl : Nat) (lastChunk isEnd : Bool) (c : Nat) (s : State) (seg : List Nat) :
    Option (State × List Nat) :=
  if !s.keyFound && (c == 61 || isEnd) then do
    let (key, len) ← append s.key kl s.part seg
    some ({ s with
      key := key, keyFound := c == 61,
      part := if c == 61 then 0 else s.part + len }, [])
  else if s.keyFound && (c == 38 || isEnd) then do
    let (value, len) ← append s.value vl s.part seg
    if c == 38 || lastChunk then do
      let value ← urlDecodeInplace value vl
      some ({ s with
        keyFound := false, part := 0, key := zeros kl, value := zeros vl,
        events := s.events ++ [.field s.key value] }, [])
    else some ({ s with value := value, part := s.part + len }, [])
  else some (s, seg ++ [c])

/-- The loop, W lines 177-229, over the bytes of the chunk and the byte `t` behind it. -/
def loop (kl vl : Nat) (lastChunk : Bool) (t : Nat) : List Nat → State → List Nat → Option State
  | [], s, seg => (char kl vl lastChunk true t s seg).map (·.1)
  | c :: cs, s, seg => do
    let (s, seg) ← char kl vl lastChunk false c s seg
    loop kl vl lastChunk t cs s seg

/-- `parsePost`, W lines 161-245, for a chunk and the byte `t` that follows it in memory. -/
def parsePost (kl vl : Nat) (chunk : List Nat) (t : Nat) (lastChunk : Bool) (s : State) : Option State :=
  if chunk.isEmpty then some (reset kl vl s)
  else do
    let s ← loop kl vl lastChunk t chunk s []
    some (if lastChunk then reset kl vl { s with events := s.events ++ [.finish] } else s)

/-- A new parser. -/
def init (kl vl : Nat) : State :=
  { part := 0, keyFound := false, key := zeros kl, value := zeros vl, events := [] }

/-- A body received in the given chunks, the last one marked as such, each in a buffer where the caller
put a terminator behind it: `/repo/extras/porting/esp-idf/esp_idf_web_server.cpp` lines 144-161. -/
def receive (kl vl : Nat) : List (List Nat) → State → Option State
  | [], s => some s
  | [c], s => parsePost kl vl c 0 true s
  | c :: cs, s => do
    let s ← parsePost kl vl c 0 false s
    receive kl vl cs s

end Verif.Web
