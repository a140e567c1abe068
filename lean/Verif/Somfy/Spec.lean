/-!
# A receiver of Somfy RTS frames

Written from the description of the protocol that `/repo/src/SuplaSomfy.cpp` line 24 names, independent of the program: a
frame is seven octets, most significant bit first; a rising edge in the middle of a bit is a one, a falling edge a zero; each
octet but the first was combined with the one sent before it; the exclusive or of all fourteen half octets is zero. After
the key come the button and the checksum (half an octet each), the rolling code (big-endian) and the address (three octets).
-/

namespace Verif.Somfy

/-- A level of the line and how long it lasts, in microseconds. -/
abbrev Wave := List (Bool × Nat)

/-- A pulse that wakes the receiver, before the first frame only. -/
def wakeUp : Wave := [(true, 9415), (false, 89565)]

/-- A pulse of the hardware synchronisation. -/
def hard : Wave := [(true, 2416), (false, 2416)]

/-- The software synchronisation. -/
def soft : Wave := [(true, 4550), (false, 604)]

/-- The first frame: wake-up, two pulses, software synchronisation, data, silence. -/
def first (f : Wave) : Wave := wakeUp ++ hard ++ hard ++ soft ++ f ++ [(false, 30415)]

/-- A repeated frame: seven pulses, software synchronisation, data, silence. -/
def again (f : Wave) : Wave := hard ++ hard ++ hard ++ hard ++ hard ++ hard ++ hard ++ soft ++ f ++ [(false, 30415)]

/-- The bits: two halves of 604 µs each, low then high for a one, high then low for a zero. -/
def demod : Wave → Option (List Bool)
  | [] => some []
  | (false, 604) :: (true, 604) :: w => (demod w).map (true :: ·)
  | (true, 604) :: (false, 604) :: w => (demod w).map (false :: ·)
  | _ => none

/-- A number from its bits, most significant first. -/
def number (bs : List Bool) : Nat := bs.foldl (fun n b => 2 * n + if b then 1 else 0) 0

/-- Seven octets. -/
def octets (bs : List Bool) : List Nat := (List.range 7).map (fun i => number ((bs.drop (8 * i)).take 8))

/-- Each octet but the first is combined with the one received before it. -/
def clear : List Nat → List Nat
  | [] => []
  | a :: l => a :: List.zipWith (· ^^^ ·) l (a :: l)

/-- The checksum is right. -/
def checked (l : List Nat) : Bool := l.foldl (fun c x => c ^^^ (x % 16) ^^^ (x / 16)) 0 == 0

/-- What a receiver understands. -/
structure Order where
  key : Nat
  button : Nat
  code : Nat
  address : List Nat
deriving DecidableEq, Repr

/-- Reading a frame. -/
def understand (l : List Nat) : Option Order :=
  if checked (clear l) then
    match clear l with
    | [k, b, c1, c2, a1, a2, a3] => some ⟨k, b / 16, c1 * 256 + c2, [a1, a2, a3]⟩
    | _ => none
  else none

end Verif.Somfy
