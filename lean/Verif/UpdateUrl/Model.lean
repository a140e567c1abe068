/-!
# The address software updates are checked at

Models `/repo/src/supla/device/sw_update.cpp` 41-50 (S), `/repo/src/supla/storage/config.cpp` 348-350 and 359-364 (C) and
`/repo/src/SuplaDevice.cpp` 469-485 (D). Characters are numbers; a C string given by the caller is the list of its characters, none of them
zero, with the zero behind it implied. The storage keeps a string as it was set.
-/

namespace Verif.UpdateUrl

/-- `SUPLA_MAX_URL_LENGTH`, `/repo/src/supla/device/sw_update.h` 22. -/
def maxUrl : Nat := 202

/-- `strncpy(dst, src, n)` into a buffer of `n` bytes: the characters, at most `n`, and zeros up to `n`. -/
def strncpy (n : Nat) (src : List Nat) : List Nat := src.take n ++ List.replicate (n - src.length) 0

/-- Reading a buffer as a C string: `none` if there is no zero in it, that is the reading goes past its end. -/
def cstr : List Nat → Option (List Nat)
  | [] => none
  | c :: cs => if c = 0 then some [] else (cstr cs).map (c :: ·)

/-- `setUrl`, S 46-50, on the member `url`; `none` is a null pointer. -/
def setUrl (buf : List Nat) : Option (List Nat) → List Nat
  | some u => strncpy maxUrl u
  | none => buf

/-- The constructor, S 41-44: the member is zeros at first, `sw_update.h` 49. -/
def create (u : Option (List Nat)) : List Nat := setUrl (List.replicate maxUrl 0) u

/-- `setSwUpdateServer`, C 359-364: the stored string and the result. -/
def setServer (stored : Option (List Nat)) (u : List Nat) : Option (List Nat) × Bool :=
  if u.length > maxUrl - 1 then (stored, false) else (some u, true)

/-- `https://updates.supla.org/check-updates`, D 478, with its characters not spelled out: any string given. -/
structure Default where
  chars : List Nat

/-- D 471-481: the member `url` of the new update. A stored string is read into a buffer of zeros, C 348-350. -/
def start (d : Default) (stored : Option (List Nat)) : List Nat :=
  match stored with
  | none => create (some d.chars)
  | some u => if u.length = 0 then create (some d.chars) else create (some u)

/-- Addresses set one after the other. -/
def sets (stored : Option (List Nat)) (us : List (List Nat)) : Option (List Nat) := us.foldl (fun s u => (setServer s u).1) stored

end Verif.UpdateUrl
