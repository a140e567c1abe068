/-!
# File of the last states of the Linux port

Models `/repo/extras/porting/linux/linux_file_state_logger.cpp` (F). The buffer in memory is modelled in `Verif.LastState`. The time in
front of each line is left out; a line is written whole or, if the file cannot be opened, not at all.
-/

namespace Verif.StateFile

/-- The file on the disk (`none`: there is none), and the program: whether it runs and whether `file` was set. -/
structure St where
  disk : Option (List String) := none
  running : Bool := false
  named : Bool := false
deriving DecidableEq, Repr

/-- `addToFile`, F 55-63; `ok`: the file can be opened. An empty name can not. -/
def add (ok : Bool) (line : String) (s : St) : St :=
  if s.named && ok then { s with disk := some (s.disk.getD [] ++ [line]) } else s

/-- `std::ofstream out(file); out.close();`, F 44-45. -/
def truncate (ok : Bool) (s : St) : St := if ok then { s with disk := some [] } else s

/-- What can happen. `start`: the program starts; `dir`: the directory exists or can be made, F 34-41; `ok1`, `ok2`: whether the file can
be opened in F 44 and in F 47. `startKilled`: it is killed between F 45 and F 47. `log`: F 50-53. `kill`: the program ends. -/
inductive Op
  | start (dir ok1 ok2 : Bool)
  | startKilled
  | log (line : String) (ok : Bool)
  | kill
deriving Repr

/-- The constructor, F 33-48. -/
def construct (dir ok1 ok2 : Bool) (s : St) : St :=
  if dir then add ok2 "Starting supla-device" (truncate ok1 { s with running := true, named := true })
  else { s with running := true, named := false }

/-- One event. A program that does not run logs nothing. -/
def step (s : St) : Op → St
  | .start dir ok1 ok2 => construct dir ok1 ok2 s
  | .startKilled => { truncate true s with running := false, named := false }
  | .log line ok => if s.running then add ok line s else s
  | .kill => { s with running := false, named := false }

/-- A sequence of events. -/
def run (s : St) (ops : List Op) : St := ops.foldl step s

end Verif.StateFile
