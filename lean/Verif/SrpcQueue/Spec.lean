import Verif.SrpcQueue.Model

/-! Specification: a bounded list queue. -/

namespace Verif.SrpcQueue

inductive Op (α : Type) where
  | push (oom : Bool) (p : Pkt α)   -- `oom`: whether `malloc` fails if called
  | pop (rr : Nat)                  -- `rr = 0` means any

inductive Res (α : Type) where
  | pushed (ok : Bool)
  | popped (p : Option (Pkt α))

/-- What the queue promises about one operation, on the list of stored packets (oldest first). -/
inductive SpecStep {α : Type} (cap : Nat) : List (Pkt α) → Op α → Res α → List (Pkt α) → Prop
  | accept {l p oom} : l.length < cap → SpecStep cap l (.push oom p) (.pushed true) (l ++ [p])
  | full {l p oom} : cap ≤ l.length → SpecStep cap l (.push oom p) (.pushed false) l
  | noMem {l p} : l.length < cap → SpecStep cap l (.push true p) (.pushed false) l
  /-- popping gives the oldest matching packet and keeps the order of the others -/
  | hit {xs p ys rr} : (∀ x ∈ xs, rr ≠ 0 ∧ x.rrId ≠ rr) → (rr = 0 ∨ p.rrId = rr) →
      SpecStep cap (xs ++ p :: ys) (.pop rr) (.popped (some p)) (xs ++ ys)
  | miss {l rr} : (∀ x ∈ l, rr ≠ 0 ∧ x.rrId ≠ rr) → SpecStep cap l (.pop rr) (.popped none) l

inductive SpecRun {α : Type} (cap : Nat) : List (Pkt α) → List (Op α) → List (Res α) →
    List (Pkt α) → Prop
  | nil {l} : SpecRun cap l [] [] l
  | cons {l op r l' ops rs l''} : SpecStep cap l op r l' → SpecRun cap l' ops rs l'' →
      SpecRun cap l (op :: ops) (r :: rs) l''

/-- One operation of the implementation. -/
def step {α} (cfg : Cfg) (q : Queue α) : Op α → Option (Res α × Queue α)
  | .push oom p => (push cfg oom q p).map fun x => (.pushed x.1, x.2)
  | .pop rr => (pop cfg q rr).map fun x => (.popped x.1, x.2)

/-- A history. `none`: some step had undefined behaviour. -/
def run {α} (cfg : Cfg) : Queue α → List (Op α) → Option (List (Res α) × Queue α)
  | q, [] => some ([], q)
  | q, op :: ops =>
    (step cfg q op).bind fun x => (run cfg x.2 ops).map fun y => (x.1 :: y.1, y.2)

end Verif.SrpcQueue
