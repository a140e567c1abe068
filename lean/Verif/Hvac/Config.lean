import Verif.Hvac.Mode
/-!
# Thermostat: the channel configuration from the server

Model of `handleChannelConfig` (src/supla/control/hvac_base.cpp, 885-1017),
`applyConfigWithoutValidation` (1019-1148), `isConfigValid` (1150-1243), `areTemperaturesValid`
(1245-1331), the validators (1372-1573), `fixTempearturesConfig` (4749-4801), `fixReadonlyParameters`
(5052-5369) and `fixReadonlyTemperature` (5371-5391).

The temperature table (`Index` bit mask and `Temperature[24]`, proto.h 2353-2430) is a function from
slot number to an optional value; `getArrayIndex` of a one-bit mask is its bit number.  The plain
fields are a function from field names.

Simplifications: the function in the message is the current one (another function resets the
configuration, lines 914-920, not modelled); the message is remote (`local` is false); the virtual
`applyAdditionalValidation` is the one of this class (does nothing); pump and heat source
registration in the aggregator is modelled in `Verif.Aggregator`.
-/
namespace Verif.Hvac.Config
open Verif.Hvac.Mode (unset w16)

/-- The plain fields of `TChannelConfig_HVAC`. -/
inductive Fld
  | main | aux | auxType | bin | antiFreeze | alg | minOn | minOff | onError | subfn | swManual
  | auxEnabled | separate | pumpSet | pump | srcSet | src | masterSet | master
deriving DecidableEq, Repr

/-- Temperatures by slot: 0 freeze protection, 1 eco, 2 comfort, 3 boost, 4 heat protection,
5 hysteresis, 6 and 7 alarms, 8 and 9 aux min and max set point, 10 and 11 room min and max,
12 and 13 aux min and max, 14 and 15 hysteresis min and max, 16 and 17 heat/cool offset min and max. -/
abbrev Temps := Nat → Option Int

/-- `getTemperatureFromStruct`, lines 1358-1370. -/
def get (t : Temps) (k : Nat) : Int := (t k).getD unset

/-- `setTemperatureInStruct`, lines 1710-1726. -/
def put (t : Temps) (k : Nat) (v : Int) : Temps := fun j => if j = k then some v else t j

/-- `clearTemperatureInStruct`, lines 1728-1740. -/
def clear (t : Temps) (k : Nat) : Temps := fun j => if j = k then none else t j

/-- A configuration. -/
structure Cfg where
  f : Fld → Int
  t : Temps

/-- What does not change: the thermostat's own channel number, its function (is it THERMOSTAT, is it
HEAT_COOL, is it DIFFERENTIAL), which channels are thermometers and binary sensors, the available
algorithms, and which fields and temperatures are read-only. -/
structure Env where
  self : Int
  thermostat : Bool
  heatCool : Bool
  differential : Bool
  thermo : Int → Bool
  sensor : Int → Bool
  avail : Nat
  roF : Fld → Bool
  roT : Nat → Bool

/-- `isTemperatureInRoomConstrain`, `isTemperatureHisteresisValid`: lines 1372-1383, 1465-1482. -/
def between (c : Temps) (lo hi : Nat) (x : Int) : Bool := decide (x ≠ unset ∧ get c lo ≤ x ∧ x ≤ get c hi)

/-- The validators of a whole table, `areTemperaturesValid`, lines 1245-1331. -/
def slotValid (c : Temps) (n : Temps) (k : Nat) : Bool :=
  match n k with
  | none => true
  | some x =>
    if k = 8 ∨ k = 9 then decide (get c 12 ≤ x ∧ x ≤ get c 13)
    else if k = 5 then between c 14 15 x
    else between c 10 11 x

/-- `areTemperaturesValid`, from line 1245: all ten temperatures. -/
def tempsValid (c n : Temps) : Bool := (List.range 10).all (slotValid c n)

/-- `isConfigValid`, lines 1150-1243. -/
def valid (e : Env) (c : Cfg) (n : Cfg) : Bool :=
  (decide (n.f .auxType = 0) || (e.thermo (n.f .aux) && decide (n.f .aux ≠ e.self) && decide (n.f .aux ≠ n.f .main))) &&
  decide (0 ≤ n.f .auxType ∧ n.f .auxType ≤ 5) &&
  (decide (n.f .bin = e.self) || e.sensor (n.f .bin)) &&
  (!e.thermostat || decide (0 ≤ n.f .subfn ∧ n.f .subfn ≤ 2)) &&
  decide (e.avail &&& (n.f .alg).toNat = (n.f .alg).toNat) &&
  decide (n.f .minOn ≤ 600) && decide (n.f .minOff ≤ 600) &&
  decide (-100 ≤ n.f .onError ∧ n.f .onError ≤ 100) &&
  tempsValid c.t n.t

/-- The flag that makes a field read-only; pump, heat source and master have one for two fields. -/
def roOf (e : Env) : Fld → Bool
  | .pumpSet => e.roF .pump
  | .srcSet => e.roF .src
  | .masterSet => e.roF .master
  | x => e.roF x

/-- `fixReadonlyTemperature`, lines 5371-5391. -/
def fixRoT (c n : Temps) (k : Nat) : Temps :=
  if get c k ≠ get n k then (if get c k = unset then clear n k else put n k (get c k)) else n

/-- `fixReadonlyParameters`, lines 5052-5369: the message is corrected; slots 10 to 17 are always
read-only. -/
def fixRo (e : Env) (c n : Cfg) : Cfg :=
  { f := fun x => if roOf e x then c.f x else n.f x
    t := (List.range 18).foldl (fun t k => if e.roT k || decide (10 ≤ k) then fixRoT c.t t k else t) n.t }

/-- `applyConfigWithoutValidation`, lines 1019-1148: the hysteresis (slot 5) is never cleared, the
limits (from slot 10) are never written. -/
def applyTemps (c n : Temps) : Temps := fun k =>
  if k < 10 then (match n k with | some x => some x | none => if k = 5 then c 5 else none) else c k

/-- `isTemperatureAuxMinSetpointValid`, lines 1484-1501. -/
def auxMinOk (t : Temps) (x : Int) : Bool :=
  decide (x ≠ unset ∧ (x ≤ get t 9 - get t 16 ∨ get t 9 = unset) ∧ get t 12 ≤ x ∧ x ≤ get t 13)

/-- `isTemperatureAuxMaxSetpointValid`, lines 1513-1531. -/
def auxMaxOk (t : Temps) (x : Int) : Bool :=
  decide (x ≠ unset ∧ (x ≥ get t 8 + get t 16 ∨ get t 8 = unset) ∧ get t 12 ≤ x ∧ x ≤ get t 13)

/-- A setter that refuses an invalid value: 1834-1874 and 1994-2036. -/
def setIf (ok : Bool) (k : Nat) (x : Int) (t : Temps) : Temps := if ok then put t k x else t

/-- Lines 4752-4777: aux set points. -/
def repairAux (e : Env) (t : Temps) : Temps :=
  if e.differential then t
  else
    let lo := get t 8
    let hi := get t 9
    if lo ≠ unset ∧ hi ≠ unset then
      let off := if get t 16 = unset then 200 else get t 16
      if lo > hi - off then
        if auxMinOk t (w16 (hi - off)) then put t 8 (w16 (hi - off))
        else if auxMaxOk t (w16 (lo + off)) then put t 9 (w16 (lo + off))
        else
          let t := clear (clear t 8) 9
          let t := setIf (auxMinOk t (get t 12)) 8 (get t 12) t
          setIf (auxMaxOk t (get t 13)) 9 (get t 13) t
      else t
    else t

/-- Lines 4780-4800: freeze and heat protection of a HEAT_COOL thermostat. -/
def repairProt (e : Env) (t : Temps) : Temps :=
  if !e.heatCool then t
  else
    let lo := get t 0
    let hi := get t 4
    if lo ≠ unset ∧ hi ≠ unset then
      let off := if get t 16 = unset then 200 else get t 16
      if lo > hi - off then
        if between t 10 11 (w16 (hi - off)) then put t 0 (w16 (hi - off))
        else if between t 10 11 (w16 (lo + off)) then put t 4 (w16 (lo + off))
        else
          let t := clear (clear t 0) 4
          let t := setIf (between t 10 11 (get t 10)) 0 (get t 10) t
          setIf (between t 10 11 (get t 11)) 4 (get t 11) t
      else t
    else t

/-- `fixTempearturesConfig`, lines 4749-4801. -/
def repair (e : Env) (t : Temps) : Temps := repairProt e (repairAux e t)

/-- A message: its size is zero, too small, or large enough. -/
inductive Msg
  | empty
  | short
  | full (n : Cfg)

/-- `SUPLA_CONFIG_RESULT_...` -/
inductive Res | ok | dataError
deriving DecidableEq, Repr

/-- The configuration in use and `channelConfigChangedOffline`. -/
structure St where
  c : Cfg
  offline : Bool

/-- `handleChannelConfig`, lines 885-1017; the offline flag set by the repair is not modelled (it is
set here only when the message is empty). -/
def handle (e : Env) (s : St) (m : Msg) : St × Res :=
  if s.offline then (s, .ok)
  else
    match m with
    | .empty => ({ s with offline := true }, .ok)
    | .short => (s, .dataError)
    | .full n =>
      let n := fixRo e s.c n
      if valid e s.c n then ({ s with c := ⟨n.f, repair e (applyTemps s.c.t n.t)⟩ }, .ok) else (s, .dataError)

end Verif.Hvac.Config
