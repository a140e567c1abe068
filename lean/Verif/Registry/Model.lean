/-!
# Lists of objects that register themselves

Every element, protocol layer, page element, channel, action client and network interface puts itself at
the end of a list of its kind when it is made, and takes itself out when it is destroyed. The list is made
of pointers in the objects. The model has the pointers and a memory in which a read from an object that no
longer exists has no outcome.

Cited as E: `/repo/src/supla/element.cpp`; D: `/repo/src/SuplaDevice.cpp`; N: `/repo/src/supla/network/network.cpp`.
-/

namespace Verif.Registry

/-- The memory: the static head pointer, the pointers in the objects, the objects that exist. -/
structure Heap where
  first : Option Nat
  next : Nat → Option Nat
  alive : List Nat

/-- Before anything is made, E line 25. -/
def Heap.empty : Heap := { first := none, next := fun _ => none, alive := [] }

/-- `p->next`: only of an object that exists. -/
def Heap.read (h : Heap) (p : Nat) : Option (Option Nat) := if p ∈ h.alive then some (h.next p) else none

/-- `p->next = v`: only of an object that exists. -/
def Heap.write (h : Heap) (p : Nat) (v : Option Nat) : Option Heap :=
  if p ∈ h.alive then some { h with next := fun x => if x = p then v else h.next x } else none

/-- Memory for a new object; `nextPtr` is null (`/repo/src/supla/element.h` line 143). -/
def Heap.alloc (h : Heap) (n : Nat) : Heap :=
  { h with next := fun x => if x = n then none else h.next x, alive := n :: h.alive }

/-- The memory of an object given back. -/
def Heap.free (h : Heap) (n : Nat) : Heap := { h with alive := h.alive.erase n }

/-- `last`, E lines 55-61. The loop ends after as many rounds as there are objects, or not at all
(no outcome). -/
def Heap.last (h : Heap) : Nat → Nat → Option Nat
  | 0, _ => none
  | fuel + 1, p =>
    match h.read p with
    | none => none
    | some none => some p
    | some (some q) => h.last fuel q

/-- The constructor, E lines 28-34; the same in `protocol_layer.cpp` lines 43-49, `html_element.cpp` lines
25-31, `channels/channel.cpp` lines 45-49, `local_action.cpp` lines 21-31, `correction.cpp` lines 58-68 and
N lines 283-295. -/
def create (h : Heap) (n : Nat) : Option Heap :=
  match h.first with
  | none => some { h.alloc n with first := some n }
  | some p =>
    match (h.alloc n).last (h.alive.length + 1) p with
    | none => none
    | some q => (h.alloc n).write q (some n)

/-- The search for the object before `n`, E lines 43-46: a null pointer is followed if there is none. -/
def Heap.before (h : Heap) (n : Nat) : Nat → Nat → Option Nat
  | 0, _ => none
  | fuel + 1, p =>
    match h.read p with
    | none => none
    | some none => none
    | some (some q) => if q = n then some p else h.before n fuel q

/-- The destructor, E lines 36-49; the same in the other files named at `create`, except N. -/
def destroy (h : Heap) (n : Nat) : Option Heap :=
  if h.first = some n then
    match h.read n with
    | none => none
    | some q => some ({ h with first := q }.free n)
  else
    match h.first with
    | none => none
    | some p =>
      match h.before n (h.alive.length + 1) p with
      | none => none
      | some b =>
        match h.read n with
        | none => none
        | some q =>
          match h.write b q with
          | none => none
          | some h' => some (h'.free n)

/-- `for (p = begin(); p != nullptr; p = p->next())`, for example D lines 671-675: the objects visited. -/
def Heap.visit (h : Heap) : Nat → Option Nat → Option (List Nat)
  | _, none => some []
  | 0, some _ => none
  | fuel + 1, some p =>
    match h.read p with
    | none => none
    | some q => (h.visit fuel q).map (p :: ·)

/-- All the objects on the list. -/
def Heap.members (h : Heap) : Option (List Nat) := h.visit h.alive.length h.first

/-! ## Network interfaces -/

/-- The search in the destructor of an interface, N lines 302-307: from `ptr` with `prev` behind it. -/
def Heap.seek (h : Heap) (n : Nat) : Nat → Option Nat → Option Nat → Option (Option Nat × Option Nat)
  | _, none, prev => some (none, prev)
  | 0, some _, _ => none
  | fuel + 1, some p, prev =>
    if p = n then some (some p, prev)
    else match h.read p with
      | none => none
      | some q => h.seek n fuel q (some p)

/-- The destructor of an interface without the main interface, N lines 298-311. -/
def destroyIntf (h : Heap) (n : Nat) : Option Heap :=
  if h.first = some n then
    match h.read n with
    | none => none
    | some q => some ({ h with first := q }.free n)
  else
    match h.first with
    | none => none
    | some p =>
      match h.read p with
      | none => none
      | some second =>
        match h.seek n (h.alive.length + 1) second second with
        | none => none
        | some (none, _) => some (h.free n)
        | some (some _, none) => some (h.free n)
        | some (some x, some b) =>
          match h.read x with
          | none => none
          | some q =>
            match h.write b q with
            | none => none
            | some h' => some (h'.free n)

/-! ## Turns -/

/-- The elements with the pointer of the main loop and the mark left by a destructor. -/
structure Loop where
  heap : Heap
  ptr : Option Nat
  invalid : Bool

/-- Nothing made yet. -/
def Loop.empty : Loop := { heap := .empty, ptr := none, invalid := false }

/-- The loop over the elements, D lines 447-454: the elements called, and the pointer left. `ans p` is what
`iterateConnected` of `p` returns; it does not make or destroy elements. -/
def Heap.turn (h : Heap) (ans : Nat → Bool) : Nat → Option Nat → Option (List Nat × Option Nat)
  | _, none => some ([], none)
  | 0, some _ => none
  | fuel + 1, some p =>
    match h.read p with
    | none => none
    | some q =>
      if ans p then (h.turn ans fuel q).map (fun r => (p :: r.1, r.2))
      else some ([p], q)

/-- What may happen. -/
inductive Op
  | create (n : Nat)
  | destroy (n : Nat)
  | turn (ans : Nat → Bool)

/-- Where the turn begins, D lines 440-446. -/
def Loop.start (s : Loop) : Option Nat :=
  if s.invalid then s.heap.first else if s.ptr = none then s.heap.first else s.ptr

/-- One step; the second component is the list of elements called. A destructor sets the mark (E line 37);
a turn clears it (D line 442). -/
def step (s : Loop) : Op → Option (Loop × List Nat)
  | .create n => (create s.heap n).map (fun h => ({ s with heap := h }, []))
  | .destroy n => (destroy s.heap n).map (fun h => ({ s with heap := h, invalid := true }, []))
  | .turn ans => (s.heap.turn ans s.heap.alive.length s.start).map (fun r => ({ s with ptr := r.2, invalid := false }, r.1))

/-- Many steps, with the lists of elements called. -/
def run : Loop → List Op → Option (Loop × List (List Nat))
  | s, [] => some (s, [])
  | s, o :: os =>
    match step s o with
    | none => none
    | some (s', v) => (run s' os).map (fun r => (r.1, v :: r.2))

end Verif.Registry
