import Verif.Tools.Model

/-!
# Network name of the device

Model of `SuplaDeviceClass::generateHostname` (`/repo/src/SuplaDevice.cpp` 910-993, cited as D) and
`Network::generateHostname` (`/repo/src/supla/network/network.cpp` 377-399, cited as N). Texts are lists of bytes
without the terminator. `none` stands for an access outside an array. The name and the prefix are terminated texts;
`setName` for an empty name (D 949-952) is part of the model.
-/

namespace Verif.Hostname

/-- '-' -/
def dash : Nat := 45

/-- What the loop does with one character (D 954-969): leave it out at once, write a character, or write nothing but
go on to the check. -/
inductive Act where
  | skip
  | put (c : Nat)
  | pass
deriving DecidableEq, Repr

/-- The chain of comparisons (D 955-969). `sgn`: the type `char` has a sign, so bytes from 128 are negative. -/
def act (sgn : Bool) (c : Nat) : Act :=
  if c < 32 ∨ (sgn = true ∧ 128 ≤ c) then .skip
  else if c < 48 then .put dash
  else if c < 58 then .put c
  else if c < 65 then .put dash
  else if c < 91 then .put c
  else if c < 97 then .put dash
  else if c < 123 then .put (c - 32)
  else .pass

/-- The check after a character (D 970-982): a leading '-' and the second of two are dropped, and one more character of
the name is taken. `none`: `name[destIdx - 2]` before the array. -/
def check (out : List Nat) (skip : Nat) : Option (List Nat × Nat) :=
  if out.length = 1 then
    if out[0]? = some dash then some ([], skip - 1) else some (out, skip)
  else if out.length = 0 then none
  else if out[out.length - 2]? = some dash ∧ out[out.length - 1]? = some dash then some (out.dropLast, skip - 1)
  else some (out, skip)

/-- The loop (D 954-983) with the characters not yet seen; `i < srcNameLength - skipBytes` says that more than
`skipBytes` are left. `none` also when the array of 32 is full. -/
def loop (sgn : Bool) (out : List Nat) (skip : Nat) : List Nat → Option (List Nat)
  | [] => some out
  | c :: rest =>
    if rest.length + 1 ≤ skip then some out
    else
      match act sgn c with
      | .skip => loop sgn out skip rest
      | .put b =>
        if 32 ≤ out.length then none
        else
          match check (out ++ [b]) skip with
          | none => none
          | some (o, s) => loop sgn o s rest
      | .pass =>
        match check out skip with
        | none => none
        | some (o, s) => loop sgn o s rest

/-- `macSize` within 0..6 (D 912-917, N 380-385). -/
def macLen (macSize : Int) : Nat := if macSize < 0 then 0 else if macSize > 6 then 6 else macSize.toNat

/-- Room kept for the address (D 919-922). -/
def appendix (m : Nat) : Nat := if m > 0 then 1 + 2 * m else 0

/-- "OH!" -/
def oh : List Nat := [79, 72, 33]

/-- "SUPLA-" -/
def supla : List Nat := [83, 85, 80, 76, 65, 45]

/-- "SUPLA-DEVICE" -/
def defaultName : List Nat := [83, 85, 80, 76, 65, 45, 68, 69, 86, 73, 67, 69]

/-- The name that is used: the prefix of the program, or else the name of the device (D 924-927). -/
def source (pre name : List Nat) : List Nat := if pre = [] then name else pre

/-- `skipBytes` (D 942-946). -/
def skipOf (target m : Nat) : Nat := if target + appendix m > 31 then target + appendix m - 31 else 0

/-- `SuplaDeviceClass::generateHostname` (D 910-993) for the name in use. The last character of the array of 32 must be
free for the terminator. -/
def deviceName (sgn : Bool) (src : List Nat) (m : Nat) : Option (List Nat) :=
  (if src.take 3 = oh then loop sgn supla (skipOf (src.length + 3) m) (src.drop 3)
    else if src = [] then loop sgn [] (skipOf 0 m) defaultName
    else loop sgn [] (skipOf src.length m) src).bind fun o => if o.length < 32 then some o else none

/-- One hexadecimal digit (`tools.cpp`, `generateHexString`). -/
def hexDigit (n : Nat) : Nat := if n < 10 then 48 + n else 55 + n

/-- `generateHexString` without separator. -/
def hex : List Nat → List Nat
  | [] => []
  | b :: bs => hexDigit (b / 16) :: hexDigit (b % 16) :: hex bs

/-- `Network::generateHostname` (N 377-399). `none`: `result[destIdx - 1]` with an empty prefix, or more than fits into
32 bytes with the terminator. -/
def netName (pre mac : List Nat) (m : Nat) : Option (List Nat) :=
  if m = 0 then (if pre.length < 32 then some pre else none)
  else
    match pre.getLast? with
    | none => none
    | some c =>
      let r := (if c = dash then pre else pre ++ [dash]) ++ hex (mac.drop (6 - m))
      if r.length < 32 then some r else none

/-- The name of the network interface (`SuplaDevice.cpp` 307-309, `network.cpp` 401-403). -/
def hostname (sgn : Bool) (pre name mac : List Nat) (macSize : Int) : Option (List Nat) :=
  (deviceName sgn (source pre name) (macLen macSize)).bind fun p => netName p mac (macLen macSize)

end Verif.Hostname
