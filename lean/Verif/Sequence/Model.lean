import Verif.Common.Clock

/-
Button recognising a rhythm of presses.
Models src/supla/control/sequence_button.cpp lines 38-145 and sequence_button.h lines 29-62.
The debounced state machine behind `state.update()` is modelled separately (Verif.Button); here its
result is an input.
-/

namespace Verif.Sequence

open Verif

/-- `StateResults`, simple_button.h: the two changes and the two steady states. -/
inductive Res where
  | pressed | released | toPressed | toReleased
deriving DecidableEq, Repr

/-- The two results that tell a change of the button (`simple_button.h:34`). -/
def Res.change : Res → Bool
  | .toPressed | .toReleased => true
  | _ => false

/-- Members, sequence_button.h lines 54-61.  The margin (a float between 0 and 1 in the code) is
    represented by the function `m` that `calculateMargin` computes from it. -/
structure Seq where
  last : Nat := 0
  longest : Nat := 800
  cnt : Nat := 0
  cur : List Nat := List.replicate 30 0
  want : List Nat := List.replicate 30 0
deriving DecidableEq, Repr

/-- What may be assumed of `calculateMargin` (lines 109-116) for a margin between 0 and 1: at
    least 20, and not more than the value itself unless that is below 20. -/
def Margin (m : Nat → Nat) : Prop := ∀ w, 20 ≤ m w ∧ m w ≤ max 20 w

/-- The comparison of lines 87-90: 16-bit values promoted and combined with `unsigned int`, so
    the subtraction is modulo 2^32. -/
def within (m : Nat → Nat) (w c : Nat) : Bool :=
  decide ((w + 2 ^ 32 - m w) % 2 ^ 32 ≤ c) && decide (c ≤ (w + m w) % 2 ^ 32)

/-- Lines 74-79. -/
def wantSize (want : List Nat) : Nat := (want.takeWhile (· ≠ 0)).length

/-- Lines 67-102: verdict on the recorded rhythm. -/
def verdict (m : Nat → Nat) (s : Seq) : Bool :=
  if wantSize s.want ≠ min s.cnt 31 - 1 then false
  else ((s.want.zip s.cur).take (min s.cnt 31 - 1)).all fun p => within m p.1 p.2

/-- `currentSequence.data[i] = v` with the bound of the array: `none` would be a write outside. -/
def record (cur : List Nat) (i v : Nat) : Option (List Nat) :=
  if i < cur.length then some (cur.set i v) else none

/-- Lines 52-61, a state change. -/
def onChange (s : Seq) (now : Nat) : Option Seq :=
  if s.cnt = 0 then
    some { s with last := now, cur := List.replicate 30 0, cnt := 1 }
  else if s.cnt < 31 then
    match record s.cur (s.cnt - 1) (since now s.last % 65536) with
    | none => none
    | some d => some { s with last := now, cur := d, cnt := s.cnt + 1 }
  else some { s with last := now, cnt := (s.cnt + 1) % 256 }

/-- `onTimer`, lines 38-107.  The result is the new state and the verdict if one is given
    (`true`: ON_SEQUENCE_MATCH, `false`: ON_SEQUENCE_DOESNT_MATCH); `none`: a write outside the
    buffer. -/
def onTimer (m : Nat → Nat) (s : Seq) (now : Nat) (r : Res) : Option (Seq × Option Bool) :=
  if r.change then (onChange s now).map fun s' => (s', none)
  else if decide (0 < s.cnt) && decide (r = .released) && decide (since now s.last > s.longest) then
    some ({ s with cnt := 0 }, some (verdict m s))
  else some (s, none)

/-- `setSequence`, lines 127-140: the longest pause that does not end a rhythm is half as long
    again as the longest interval (the multiplication is done in floating point and converted
    back to 16 bits; a result above 65535 is undefined behaviour, here `none`). -/
def setSequence (s : Seq) (w : List Nat) : Option Seq :=
  if w.foldl max 0 * 3 / 2 > 65535 then none
  else some { s with want := w, longest := max 500 (w.foldl max 0 * 3 / 2) }

/-- A history of timer calls at true times; verdicts are collected. -/
def run (m : Nat → Nat) (s : Seq) : List (Nat × Res) → Option (Seq × List Bool)
  | [] => some (s, [])
  | (t, r) :: h =>
    match onTimer m s (clk t) r with
    | none => none
    | some (s', v) =>
      match run m s' h with
      | none => none
      | some (s'', vs) => some (s'', v.toList ++ vs)

end Verif.Sequence
