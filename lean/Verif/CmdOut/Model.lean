import Verif.Hvac.Output

/-!
# Thermostat of the Linux port: outputs that run commands

Models `/repo/extras/porting/linux/supla/control/hvac_parsed.cpp` (HP) under `HvacBase::setOutput`
(`/repo/src/supla/control/hvac_base.cpp` 3032-3144, HB), whose decision is the one of `Verif.Hvac`.
-/

namespace Verif.CmdOut
open Verif.Hvac

/-- The two outputs. -/
inductive Which | pri | sec
deriving DecidableEq, Repr

/-- Which command is run. -/
inductive Cmd | on | off
deriving DecidableEq, Repr

/-- The commands of an output that are not empty. -/
structure Cmds where
  on : Bool
  off : Bool
deriving DecidableEq, Repr

/-- `CmdOutput::setOutputValue`, HP 57-70: the commands run, with `popen` succeeding. -/
def setValue (c : Cmds) (v : Int) : List Cmd :=
  if v = 1 then (if c.on then [.on] else []) else if v = 0 then (if c.off then [.off] else []) else []

/-- The same with the result of `popen`; `none`: `pclose` of a null pointer, undefined behaviour, HP 61-62 and 66-67. -/
def setValueOs (popenOk : Bool) (c : Cmds) (v : Int) : Option (List Cmd) :=
  if setValue c v ≠ [] ∧ popenOk = false then none else some (setValue c v)

/-- The outputs of `HvacParsed`, HP 76-87, with `isOnOffOnly`, HP 72-74. -/
def hw (s : Cmds) : Hw := ⟨true, s.on && s.off, true, true⟩

/-- The calls of `setOutputValue` at the end of `setOutput`, HB 3084-3142, in their order. -/
def calls (h : Hw) (k : Kind) (v : Int) : List (Which × Int) :=
  match k with
  | .heat => (if h.hasSec then [(.sec, 0)] else []) ++ [(.pri, if v ≤ 0 then 0 else if h.priOnOff then 1 else v)]
  | .cool =>
    if h.hasSec then [(.pri, 0), (.sec, if v ≥ 0 then 0 else if h.priOnOff then -1 else -v)]
    else [(.pri, if v ≥ 0 then 0 else if h.priOnOff then -1 else -v)]
  | .both =>
    if h.hasSec then
      if v = 0 then [(.pri, 0), (.sec, 0)]
      else if v ≥ 1 then [(.sec, 0), (.pri, if h.priOnOff then 1 else v)]
      else [(.pri, 0), (.sec, if h.secOnOff then -1 else -v)]
    else []
  | .other => []

/-- The calls one `setOutput` makes, HB 3032-3144. -/
def callsOf (h : Hw) (k : Kind) (minOn minOff now : Nat) (v : Int) (force : Bool) (o : Out) : List (Which × Int) :=
  if !h.hasPri then [] else if o.last = v then []
  else match choose minOn minOff now o v force with
    | none => []
    | some (v', _) => calls h k v'

/-- The commands of a list of calls; `p` and `s` are the commands of the two outputs. -/
def commands (p s : Cmds) : List (Which × Int) → List (Which × Cmd)
  | [] => []
  | (.pri, v) :: l => (setValue p v).map (Which.pri, ·) ++ commands p s l
  | (.sec, v) :: l => (setValue s v).map (Which.sec, ·) ++ commands p s l

/-- One call of `setOutput`: when, the value, forced or not. -/
structure Op where
  now : Nat
  v : Int
  force : Bool
deriving Repr

/-- A sequence of calls: the values given to the outputs and all commands run, oldest first. -/
def run (p s : Cmds) (k : Kind) (minOn minOff : Nat) (o : Out) : List Op → Out × List (Which × Cmd)
  | [] => (o, [])
  | a :: as =>
    let r := run p s k minOn minOff (Hvac.setOutput (hw s) k minOn minOff a.now a.v a.force o) as
    (r.1, commands p s (callsOf (hw s) k minOn minOff a.now a.v a.force o) ++ r.2)

end Verif.CmdOut
