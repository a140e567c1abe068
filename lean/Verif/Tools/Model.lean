/-!
# Text conversion

Models `/repo/src/supla/tools.cpp` (cited as T): hexadecimal text, decimal text, URL encoding and
decoding.

Memory is a list of bytes (numbers below 256); an access outside it is undefined behaviour and gives
`none`. A C string that is only read is given as the list of its bytes before the terminator.
-/

namespace Verif.Tools

/-- A block of memory. -/
abbrev Mem := List Nat

/-- A write of one byte. -/
def put (m : Mem) (i v : Nat) : Option Mem := if i < m.length then some (m.set i v) else none

/-- Hexadecimal digit: `hexMap`, T line 89. -/
def hexDigit (n : Nat) : Nat := if n < 10 then 48 + n else 55 + n

/-- The separator, T lines 93-95. -/
def putSep (sep : Nat) (first : Bool) (m : Mem) (d : Nat) : Option (Mem × Nat) :=
  if !first && sep != 0 then (put m d sep).map (fun m => (m, d + 1)) else some (m, d)

/-- The loop of `generateHexString`, T lines 92-102; `first` is `i == 0`, `d` is `destIdx`. -/
def hexLoop (sep : Nat) : Bool → List Nat → Mem → Nat → Option (Mem × Nat)
  | _, [], m, d => some (m, d)
  | first, b :: bs, m, d => do
    let (m, d) ← putSep sep first m d
    let m ← put m d (hexDigit (if b / 16 > 15 then 15 else b / 16))
    let m ← put m (d + 1) (hexDigit (b % 16))
    hexLoop sep false bs m (d + 2)

/-- `generateHexString`, T lines 85-105, writing into `m` from the index `d` on; the number is the
index of the terminator. -/
def generateHexString (input : List Nat) (m : Mem) (d : Nat) (sep : Nat) : Option (Mem × Nat) := do
  let (m, d) ← hexLoop sep true input m d
  let m ← put m d 0
  some (m, d)

/-- The digit of `hexStringToInt`, T lines 125-133; other characters count as 0. -/
def hexVal (c : Nat) : Nat :=
  if 65 ≤ c ∧ c ≤ 70 then c - 55 else if 97 ≤ c ∧ c ≤ 102 then c - 87 else if 48 ≤ c ∧ c ≤ 57 then c - 48 else 0

/-- `hexStringToInt`, T lines 114-139, on the given characters; `uint32_t` arithmetic. (The shift is
left out for the first character, where the result is 0.) -/
def hexStringToInt (s : List Nat) : Nat := s.foldl (fun r c => (r * 16 + hexVal c) % 2 ^ 32) 0

/-- `hexStringToArray`, T lines 107-112: `n` bytes are written to `out`, `2*n` characters read from
`input`. -/
def hexArrayLoop (input : Mem) : Nat → Nat → Mem → Option Mem
  | 0, _, m => some m
  | n + 1, i, m => do
    let a ← input[2 * i]?
    let b ← input[2 * i + 1]?
    let m ← put m i (hexStringToInt [a, b] % 256)
    hexArrayLoop input n (i + 1) m

/-- `hexStringToArray`, T lines 107-112. -/
def hexStringToArray (input : Mem) (out : Mem) (n : Nat) : Option Mem := hexArrayLoop input n 0 out

/-- `stringToUInt`, T lines 141-160; `none` stands for the early `return 0`. -/
def uintLoop : Nat → List Nat → Option Nat
  | r, [] => some r
  | r, c :: s => if c < 48 ∨ c > 57 then none else uintLoop ((r * 10 + (c - 48)) % 2 ^ 32) s

/-- `stringToUInt`, T lines 141-160. -/
def stringToUInt (s : List Nat) : Nat := (uintLoop 0 s).getD 0

/-- Result of a computation with `int32_t`: undefined behaviour on overflow. -/
inductive Res
  | ub
  | val (n : Int)
deriving DecidableEq, Repr

/-- `int32_t` range. -/
def fits (n : Int) : Bool := decide (-2 ^ 31 ≤ n ∧ n < 2 ^ 31)

/-- `stringToInt`, T lines 170-189, after an optional sign. -/
def intLoop (minus : Bool) : Int → List Nat → Res
  | r, [] => .val (if minus then -r else r)
  | r, c :: s =>
    if c < 48 ∨ c > 57 then .val 0
    else if fits (r * 10) && fits (r * 10 + (c - 48 : Nat)) then intLoop minus (r * 10 + (c - 48 : Nat)) s
    else .ub

/-- `stringToInt`, T lines 162-190. A minus sign elsewhere is not a digit and gives 0 as well. -/
def stringToInt : List Nat → Res
  | [] => .val 0
  | c :: s => if c = 45 then intLoop true 0 s else intLoop false 0 (c :: s)

/-- `floatStringToInt`, T lines 324-327: trailing zeros for missing decimal places. -/
def padZeros : Nat → Int → Res
  | 0, r => .val r
  | n + 1, r => if fits (r * 10) then padZeros n (r * 10) else .ub

/-- `floatStringToInt`, T lines 320-329. -/
def floatEnd (minus : Bool) (prec : Int) (places : Int) (r : Int) : Res :=
  let places := if places < 0 then 0 else places
  match padZeros (prec - places).toNat r with
  | .val r => .val (if minus then -r else r)
  | .ub => .ub

/-- `floatStringToInt`, T lines 298-318, after an optional sign; `places` is `decimalPlaces`. -/
def floatLoop (minus : Bool) (prec : Int) : Int → Int → List Nat → Res
  | places, r, [] => floatEnd minus prec places r
  | places, r, c :: s =>
    if c = 45 then .val 0
    else if 48 ≤ c ∧ c ≤ 57 then
      if fits (r * 10) && fits (r * 10 + c) then
        let places := if places ≥ 0 then places + 1 else places
        if places ≥ prec then floatEnd minus prec places (r * 10 + c - 48)
        else floatLoop minus prec places (r * 10 + c - 48) s
      else .ub
    else
      let places := if c = 46 ∨ c = 44 then places + 1 else places
      if places ≥ prec then floatEnd minus prec places r else floatLoop minus prec places r s

/-- `floatStringToInt`, T lines 294-330. -/
def floatStringToInt (prec : Int) : List Nat → Res
  | [] => floatEnd false prec (-1) 0
  | c :: s => if c = 45 then floatLoop true prec (-1) 0 s else floatLoop false prec (-1) 0 (c :: s)

/-- `urlDecodeInplace`, T lines 192-218; `p` and `i` are the parser and insert positions. The fuel `n`
bounds the number of rounds: `none` if it runs out (it does not when it is `size + 1`). -/
def decodeLoop (size : Nat) : Nat → Nat → Nat → Mem → Option Mem
  | 0, _, _, _ => none
  | n + 1, p, i, m =>
    if p < size then do
      let c ← m[p]?
      if c = 0 then put m i 0
      else if c = 43 then do
        let m ← put m i 32
        decodeLoop size n (p + 1) (i + 1) m
      else if c = 37 then
        if p + 2 < size then do
          let a ← m[p + 1]?
          let b ← m[p + 2]?
          let m ← put m i (hexStringToInt [a, b] % 256)
          decodeLoop size n (p + 3) (i + 1) m
        else do
          let m ← put m i 0
          decodeLoop size n (size + 1) (i + 1) m
      else do
        let m ← put m i c
        decodeLoop size n (p + 1) (i + 1) m
    else put m i 0

/-- `urlDecodeInplace`, T lines 192-218. -/
def urlDecodeInplace (m : Mem) (size : Nat) : Option Mem := decodeLoop size (size + 1) 0 0 m

/-- Characters that are not escaped, T lines 225-231. (Bytes from 128 on are escaped, whether `char` is
signed or not.) -/
def unreserved (c : Nat) : Bool :=
  decide ((48 ≤ c ∧ c ≤ 57) ∨ (65 ≤ c ∧ c ≤ 90) ∨ (97 ≤ c ∧ c ≤ 122) ∨ c = 45 ∨ c = 95 ∨ c = 46 ∨ c = 126)

/-- `urlEncode`, T lines 224-242; `d` is `outputPtr - output` and `last` is `outputMaxSize - 1`. -/
def encodeLoop (last : Int) : List Nat → Mem → Nat → Option (Mem × Nat)
  | [], m, d => some (m, d)
  | c :: s, m, d =>
    if (d : Int) < last then
      if unreserved c then do
        let m ← put m d c
        encodeLoop last s m (d + 1)
      else if (d : Int) + 3 ≤ last then do
        let m ← put m d 37
        let (m, d) ← generateHexString [c] m (d + 1) 0
        encodeLoop last s m d
      else some (m, d)
    else some (m, d)

/-- `urlEncode`, T lines 220-246. -/
def urlEncode (input : List Nat) (out : Mem) (maxSize : Int) : Option (Mem × Nat) := do
  let (m, d) ← encodeLoop (maxSize - 1) input out 0
  let m ← put m d 0
  some (m, d)

end Verif.Tools
