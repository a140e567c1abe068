/-
The list of channels of a device, their numbers and the registration message.

Models src/supla/channels/channel.cpp lines 43-136 (constructor, destructor,
`GetByChannelNumber`, `setChannelNumber`) and
src/supla/device/register_device.cpp lines 123-153 and 263-318.

A channel object is represented by an identity (its address in the program) and its stored
number.  Everything else a channel holds is irrelevant here.
-/

namespace Verif.Channel

/-- One channel object: identity and `channelNumber`.
    channel.h line 237 (`int16_t channelNumber = -1`). -/
structure Chan where
  id : Nat
  num : Int
deriving DecidableEq, Repr

/-- `SUPLA_CHANNELMAXCOUNT`, supla-common/proto.h line 370. -/
def maxCount : Int := 128

/-- Storing an `int` into the `int16_t` member (two's complement, as on every target). -/
def wrap16 (n : Int) : Int := (n + 32768) % 65536 - 32768

/-- The linked list of channels in order, the number of channels put in the registration
    header (`reg_dev.channel_count`, an unsigned byte) and the next unused identity. -/
structure Reg where
  chans : List Chan := []
  count : Nat := 0
  nextId : Nat := 0
deriving DecidableEq, Repr

/-- Is the number used by some channel of the list? -/
def used (l : List Chan) (n : Int) : Bool := l.any (fun c => c.num == n)

/-- `RegisterDevice::isChannelNumberFree`, register_device.cpp lines 288-302. -/
def isFree (l : List Chan) (n : Int) : Bool :=
  if n ≥ maxCount then false else !used l n

/-- `RegisterDevice::getNextFreeChannelNumber`, register_device.cpp lines 264-285.
    The loop counts up from `k` while the number is used; `fuel` is `128 - k`, so the loop
    ends because `nextFreeNumber` reached the limit exactly when the fuel is used up. -/
def nextFree (l : List Chan) : Nat → Int → Option Int
  | 0, _ => none
  | fuel + 1, k => if used l k then nextFree l fuel (k + 1) else some k

/-- `addChannel`, register_device.cpp lines 305-311. -/
def addCount (count : Nat) (n : Int) : Nat :=
  if n ≥ maxCount ∨ n = -1 then count else (count + 1) % 256

/-- `removeChannel`, register_device.cpp lines 313-319. -/
def removeCount (count : Nat) (n : Int) : Nat :=
  if n ≥ maxCount ∨ n = -1 then count else (count + 255) % 256

/-- The number the constructor asks for: a given one, or the next free one for -1. -/
def wanted (l : List Chan) (number : Int) : Option Int :=
  if number = -1 then nextFree l 128 0 else some number

/-- `Channel::Channel(int number)`, channel.cpp lines 43-69.  The object is linked first
    (number -1) and stays linked when no number could be given to it. -/
def create (r : Reg) (number : Int) : Reg :=
  let l := r.chans ++ [{ id := r.nextId, num := -1 }]
  match wanted l number with
  | none => { r with chans := l, nextId := r.nextId + 1 }
  | some n =>
    if isFree l n then
      { chans := r.chans ++ [{ id := r.nextId, num := wrap16 n }], count := addCount r.count n,
        nextId := r.nextId + 1 }
    else { r with chans := l, nextId := r.nextId + 1 }

/-- Store a number in the object with this identity. -/
def setNum (l : List Chan) (id : Nat) (n : Int) : List Chan :=
  l.map (fun c => if c.id = id then { c with num := n } else c)

/-- Number of the object with this identity. -/
def numOf (l : List Chan) (id : Nat) : Option Int :=
  (l.find? (fun c => c.id = id)).map Chan.num

/-- `Channel::setChannelNumber`, channel.cpp lines 116-136.  The call on the conflicting
    channel is a recursion; every level marks one more channel with -1 and a channel with a
    negative number stops it, so the length of the list bounds the depth (`fuel`). -/
def setNumber : Nat → List Chan → Nat → Int → List Chan
  | 0, l, _, _ => l
  | fuel + 1, l, id, new =>
    match numOf l id with
    | none => l
    | some old =>
      if new < 0 ∨ old < 0 then l
      else if new = old then l
      else if isFree l new then setNum l id (wrap16 new)
      else
        match (setNum l id (-1)).find? (fun c => c.num = new) with
        | none => setNum (setNum l id (-1)) id (wrap16 new)
        | some d => setNum (setNumber fuel (setNum l id (-1)) d.id old) id (wrap16 new)

/-- `Channel::~Channel`, channel.cpp lines 71-90. -/
def destroy (r : Reg) (id : Nat) : Reg :=
  match numOf r.chans id with
  | none => r
  | some n =>
    { r with chans := r.chans.filter (fun c => c.id ≠ id), count := removeCount r.count n }

/-- What the program can do to the list of channels. -/
inductive ROp where
  | create (number : Int)
  | destroy (id : Nat)
  | renumber (id : Nat) (number : Int)
deriving Repr

/-- One operation, each the function cited above. -/
def rstep (r : Reg) : ROp → Reg
  | .create n => create r n
  | .destroy id => destroy r id
  | .renumber id n => { r with chans := setNumber (r.chans.length + 1) r.chans id n }

/-- A history of operations. -/
def rrun (r : Reg) (ops : List ROp) : Reg := ops.foldl rstep r

/-- The channel description number `i` of the registration message:
    `getChannelPtr_E`, register_device.cpp lines 139-153 (and `getChannelPtr_D`, 123-137).
    `none` is the dereference of a null channel pointer. -/
def described (r : Reg) (i : Nat) : Option Int := (r.chans[i]?).map Chan.num

/-- The channel numbers of the registration message: descriptions 0 .. channel_count - 1
    (`getChannelPtr_E` answers "no more" at channel_count).
    `none` when building the message dereferences a null pointer. -/
def message (r : Reg) : Option (List Int) := (List.range r.count).mapM (described r)

end Verif.Channel
