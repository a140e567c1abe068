/-!
# The packet queues of `srpc`

Models `Tsrpc_Queue`, `srpc_queue_push` and `srpc_queue_pop` of `/repo/src/supla-common/srpc.c`
with an explicit heap, so that null dereference, use after free and double free are visible.
-/

namespace Verif.SrpcQueue

/-- Packet content: only the request id matters here, the rest is opaque (`TSuplaDataPacket`,
`/repo/src/supla-common/proto.h:652-659`). -/
structure Pkt (α : Type) where
  rrId : Nat
  body : α
deriving DecidableEq

/-- `SRPC_QUEUE_SIZE`, `SRPC_QUEUE_MIN_ALLOC_COUNT`, `srpc.c:34-35, 55-56, 75-81`. -/
structure Cfg where
  cap : Nat
  minAlloc : Nat

/-- ESP8266 and ESP32, `srpc.c:34-35`. -/
def cfgEsp : Cfg := ⟨2, 2⟩
/-- AVR, `srpc.c:55-56`. -/
def cfgAvr : Cfg := ⟨1, 1⟩
/-- Other devices, `srpc.c:75-81`. -/
def cfgOther : Cfg := ⟨10, 0⟩

/-- `Tsrpc_Queue` (`srpc.c:83-88`) together with the heap cells it owns. `heap a = none`: `a` is not
allocated. `fresh` is the next unused address (an unbounded supply of addresses; `malloc` failure is a
parameter of `push`). -/
structure Queue (α : Type) where
  count : Nat
  alloc : Nat
  slots : List (Option Nat)
  heap : Nat → Option (Pkt α)
  fresh : Nat

/-- State after `memset(srpc, 0, ...)`, `srpc.c:119`. -/
def Queue.init (α : Type) (cfg : Cfg) : Queue α :=
  ⟨0, 0, List.replicate cfg.cap none, fun _ => none, 0⟩

/-- One heap cell changed. -/
def write {α} (h : Nat → Option (Pkt α)) (a : Nat) (v : Option (Pkt α)) : Nat → Option (Pkt α) :=
  fun b => if b = a then v else h b

/-- `srpc_queue_push`, `srpc.c:181-203`. `none` is undefined behaviour. `unsigned char` counters wrap
at 256. -/
def push {α} (cfg : Cfg) (oom : Bool) (q : Queue α) (p : Pkt α) : Option (Bool × Queue α) :=
  if q.count ≥ cfg.cap then some (false, q)
  else
    match q.slots[q.count]? with
    | none => none                     -- index outside the array
    | some none =>
      if oom then some (false, q)
      else some (true,
        { count := (q.count + 1) % 256, alloc := (q.alloc + 1) % 256,
          slots := q.slots.set q.count (some q.fresh),
          heap := write q.heap q.fresh (some p), fresh := q.fresh + 1 })
    | some (some a) =>
      match q.heap a with
      | none => none                   -- write after free
      | some _ => some (true,
        { q with count := (q.count + 1) % 256, alloc := (q.alloc + 1) % 256,
                 heap := write q.heap a (some p) })

/-- The search loop of `srpc_queue_pop`, `srpc.c:209-210`: index of the first match at or after `i`
among the first `count` slots. Outer `none` is undefined behaviour (dereferencing a null or freed
item). -/
def findFrom {α} (q : Queue α) (rr : Nat) : Nat → Nat → Option (Option (Nat × Pkt α))
  | 0, _ => some none
  | n + 1, i =>
    match q.slots[i]? with
    | some (some a) =>
      match q.heap a with
      | some p => if rr = 0 ∨ p.rrId = rr then some (some (i, p)) else findFrom q rr n (i + 1)
      | none => none
    | _ => none

/-- The copy loop `for (b = a; b < item_count - 1; b++) item[b] = item[b + 1]`, `srpc.c:220-222`;
`n` iterations. -/
def shiftLoop (slots : List (Option Nat)) (b : Nat) : Nat → List (Option Nat)
  | 0 => slots
  | n + 1 => shiftLoop (slots.set b (slots.getD (b + 1) none)) (b + 1) n

/-- `srpc_queue_pop`, `srpc.c:205-231`. -/
def pop {α} (cfg : Cfg) (q : Queue α) (rr : Nat) : Option (Option (Pkt α) × Queue α) :=
  match findFrom q rr q.count 0 with
  | none => none
  | some none => some (none, q)
  | some (some (i, p)) =>
    let freed := q.alloc > cfg.minAlloc
    let item := if freed then none else q.slots.getD i none
    let heap := if freed then
        match q.slots.getD i none with
        | some a => write q.heap a none
        | none => q.heap
      else q.heap
    let alloc := if freed then q.alloc - 1 else q.alloc
    let slots0 := q.slots.set i item
    let slots1 := shiftLoop slots0 i (q.count - 1 - i)
    some (some p, { q with count := q.count - 1, alloc := alloc,
                           slots := slots1.set (q.count - 1) item, heap := heap })

end Verif.SrpcQueue
