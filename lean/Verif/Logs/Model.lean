import Verif.Tools.Number
/-
Messages of the log: how their text is made, and the lines of the Linux port.

Code modelled (L: `src/supla-common/log.c`, X: `extras/porting/linux/linux_log.c`): `supla_log_string` (L 76-118), the loop
of `supla_log` (L 266-293), `supla_vlog` of the Linux port when it does not run as a daemon (X 31-80).

Simplifications: `vsnprintf` gives the same answer in each round: the length of the whole text, or a negative number if it
cannot make it; whether memory can be had depends on the size asked for only; the size is an `int`, an overflow of it is the
outcome `undefined`; texts are lists of codes without the final 0.
-/
namespace Verif.Logs

abbrev Text := List Nat

inductive Outcome
  | shown (t : Text)
  | dropped
  | undefined
deriving DecidableEq, Repr

/-- The rounds after `vsnprintf` gave a negative number (L 97-110): the size is doubled while there is memory. -/
def double (alloc : Nat → Bool) (size : Nat) : Outcome :=
  if h : size = 0 then .dropped
  else if h' : 2 ^ 31 ≤ 2 * size then .undefined
  else if alloc (2 * size) then double alloc (2 * size) else .dropped
termination_by 2 ^ 31 - size
decreasing_by omega

/-- The size of the first buffer (L 81-84). -/
def firstSize (fmtLen : Nat) : Nat := min fmtLen 10240 + 10

/-- `supla_log` (L 266-293) with the rounds of `supla_log_string` (L 76-118). -/
def log (alloc : Nat → Bool) (fmtLen : Nat) (out : Option Text) : Outcome :=
  if alloc (firstSize fmtLen) then
    match out with
    | none => double alloc (firstSize fmtLen)
    | some t =>
      if t.length < firstSize fmtLen then .shown t
      else if 2 ^ 31 ≤ t.length + 1 then .undefined
      else if alloc (t.length + 1) then .shown t else .dropped
  else .dropped

/-- The names of the levels (X 43-71; the numbers are those of syslog.h, `LOG_VERBOSE` log.h 46). -/
def name : Nat → Text
  | 0 => "EMERG".toList.map Char.toNat
  | 1 => "ALERT".toList.map Char.toNat
  | 2 => "CRIT".toList.map Char.toNat
  | 3 => "ERR".toList.map Char.toNat
  | 4 => "WARNING".toList.map Char.toNat
  | 5 => "NOTICE".toList.map Char.toNat
  | 6 => "INFO".toList.map Char.toNat
  | 7 => "DEBUG".toList.map Char.toNat
  | 8 => "VERBOSE".toList.map Char.toNat
  | _ => []

/-- `printf("[%li.%li] ", …)` (X 75): the part after the point. -/
def fraction (usec : Nat) : Text := Tools.decimalText usec

/-- The line printed by `supla_vlog` (X 31-79), if any. -/
def line (level pri sec usec : Nat) (msg : Text) : Option Text :=
  if pri > level then none
  else some (name pri ++ [91] ++ Tools.decimalText sec ++ [46] ++ fraction usec ++ [93, 32] ++ msg ++ [10])

end Verif.Logs
