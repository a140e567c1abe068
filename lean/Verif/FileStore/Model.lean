import Mathlib.Data.List.Basic

/-! # State storage in a file

ESP-IDF: `/repo/extras/porting/esp-idf/spiffs_storage.cpp` (A). Linux: `/repo/extras/porting/linux/linux_file_storage.cpp`
(B). The file system is modelled as the content of one file; a write may stop after any number of bytes (full disk, or
power cut). -/

namespace Verif.FileStore

/-- Bytes. -/
abbrev Bytes := List Nat

/-- Which of the two. -/
inductive Kind where
  | spiffs
  | linux
deriving DecidableEq, Repr

/-- The storage: buffer (`buffer`, `data`), the file, `dataChanged`. The size of the buffer is its length. -/
structure S where
  buf : Bytes
  file : Option Bytes := none
  dirty : Bool := false
deriving DecidableEq, Repr

/-- The buffer after `init` with the given size and file (A 34-40, 84-101; B 43-59). Linux takes as much of the file as
fits; SPIFFS takes it only if it has just the size of the buffer. -/
def load (k : Kind) (size : Nat) (file : Option Bytes) : Bytes :=
  match file with
  | none => List.replicate size 0
  | some f =>
    match k with
    | .spiffs => if f.length ≠ size then List.replicate size 0 else f
    | .linux => f.take size ++ List.replicate (size - f.length) 0

/-- Restart, with a buffer of the given size. -/
def restart (k : Kind) (size : Nat) (s : S) : S := { buf := load k size s.file, file := s.file }

/-- Bytes put into the buffer at `off`. -/
def put (buf : Bytes) (off : Nat) (d : Bytes) : Bytes := buf.take off ++ d ++ buf.drop (off + d.length)

/-- The check of SPIFFS (A 114, 130): sum of `unsigned int` and `int`, 32 bits. Linux has none. -/
def refused (k : Kind) (size off len : Nat) : Bool :=
  match k with
  | .spiffs => decide ((off + len) % 2 ^ 32 > size)
  | .linux => false

/-- `writeStorage` (A 125-140, B 74-83): the number returned and the storage; `none`: outside the buffer. -/
def write (k : Kind) (off : Nat) (d : Bytes) (s : S) : Option (Nat × S) :=
  if refused k s.buf.length off d.length then some (0, { s with dirty := true })
  else if off + d.length ≤ s.buf.length ∨ d = [] then some (d.length, { s with buf := put s.buf off d, dirty := true })
  else none

/-- `readStorage` (A 106-123, B 64-72): the bytes read (SPIFFS: none when refused); `none`: outside the buffer. -/
def read (k : Kind) (off len : Nat) (s : S) : Option Bytes :=
  if refused k s.buf.length off len then some []
  else if off + len ≤ s.buf.length ∨ len = 0 then some ((s.buf.drop off).take len)
  else none

/-- What becomes of the file: it cannot be opened for writing; only `n` bytes are written; all are. -/
inductive Disk where
  | closed
  | part (n : Nat)
  | whole
deriving DecidableEq, Repr

/-- The file after opening it with truncation and writing (A 146-158, B 87-94). -/
def written (d : Disk) (s : S) : Option Bytes :=
  match d with
  | .closed => s.file
  | .part n => some (s.buf.take n)
  | .whole => some s.buf

/-- `commit` (A 142-161, B 85-98): errors are logged at most; `dataChanged` is cleared anyway. -/
def commit (d : Disk) (s : S) : S :=
  if s.dirty then { s with file := written d s, dirty := false } else { s with dirty := false }

end Verif.FileStore
