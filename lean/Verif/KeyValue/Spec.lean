import Verif.KeyValue.Model

/-! Specification: a finite map from (truncated) keys to typed values. -/

namespace Verif.KeyValue

/-- Two API keys name the same entry iff their first 15 characters agree. -/
def canon (k : Bytes) : Bytes := (cstr k).take 15

abbrev Map := Bytes → Option Value

def Map.empty : Map := fun _ => none

/-- Setting: refused iff the key holds a value of another type. -/
def Map.set (m : Map) (k : Bytes) (v : Value) : Bool × Map :=
  match m (canon k) with
  | some w => if w.typeId = v.typeId
      then (true, fun c => if c = canon k then some v else m c) else (false, m)
  | none => (true, fun c => if c = canon k then some v else m c)

/-- API requests. -/
inductive Op where
  | set (k : Bytes) (v : Value)
  | getTyped (t : UInt8) (k : Bytes)
  | getString (k : Bytes) (maxSize : Nat)
  | getBlob (k : Bytes) (size : Nat)
  | getStringSize (k : Bytes)
  | getBlobSize (k : Bytes)

inductive Res where
  | done (ok : Bool)
  | val (v : Option Value)
  | bytes (b : Option Bytes)
  | num (n : Nat)
deriving DecidableEq, Repr

/-- Intended result of a request. -/
def Map.step (m : Map) : Op → Res × Map
  | .set k v => (.done (m.set k v).1, (m.set k v).2)
  | .getTyped t k => (.val ((m (canon k)).filter (·.typeId = t)), m)
  | .getString k n => (.bytes (match m (canon k) with
      | some (.str s) => if s.length < n then some s else none
      | _ => none), m)
  | .getBlob k n => (.bytes (match m (canon k) with
      | some (.blob b) => if b.length = n then some b else none
      | _ => none), m)
  | .getStringSize k => (.num (match m (canon k) with
      | some (.str s) => s.length + 1
      | _ => 0), m)
  | .getBlobSize k => (.num (match m (canon k) with
      | some (.blob b) => b.length
      | _ => 0), m)

def Map.run : Map → List Op → List Res × Map
  | m, [] => ([], m)
  | m, op :: ops => let r := m.step op; let rs := Map.run r.2 ops; (r.1 :: rs.1, rs.2)

/-- The same requests on the implementation. -/
def step (l : List Elem) : Op → Res × List Elem
  | .set k v => (.done (set k v l).1, (set k v l).2)
  | .getTyped t k => (.val (getTyped t k l), l)
  | .getString k n => (.bytes (getString k n l), l)
  | .getBlob k n => (.bytes (getBlob k n l), l)
  | .getStringSize k => (.num (getStringSize k l), l)
  | .getBlobSize k => (.num (getBlobSize k l), l)

def run : List Elem → List Op → List Res × List Elem
  | l, [] => ([], l)
  | l, op :: ops => let r := step l op; let rs := run r.2 ops; (r.1 :: rs.1, rs.2)

/-- What a store reads for every key. -/
def reads (l : List Elem) : Map := fun c => find l c

end Verif.KeyValue
