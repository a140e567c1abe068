import Verif.Form.Props
import Verif.Hvac.ConfigProps

/-!
# The page of a thermostat

`/repo/src/supla/network/html/hvac_parameters.cpp` (HP below) over the configuration of
`Verif.Hvac.Config` and the mode of `Verif.Hvac.Mode`; `hvac_base.cpp` is HB.

Left out: the function of the channel, which is always offered and comes back as it is.
-/

namespace Verif.Form
open Verif.Tools
open Verif.Hvac.Mode (unset w16 Val)
open Verif.Hvac.Config (Cfg Fld Temps get put roOf fixRo valid applyTemps repair)

/-- A thermostat: its configuration and its mode. -/
structure Thermo where
  cfg : Cfg
  st : Hvac.Mode.St

/-- What the page depends on besides: what is hidden (`parameterFlags.…Hidden`), the channel numbers of
thermometers, binary sensors, pump and heat source switches and of other thermostats without a master, whether
there is another thermostat, whether the output is controlled internally, whether this is the master of another
thermostat. `mode` is what the mode logic reads from a configuration. -/
structure Page where
  e : Hvac.Config.Env
  mode : Cfg → Hvac.Mode.Env
  hidF : Fld → Bool
  hidT : Nat → Bool
  thermos : List Int
  sensors : List Int
  pumps : List Int
  srcs : List Int
  masters : List Int
  several : Bool
  internal : Bool
  isMaster : Bool

/-- The fields: mode, set points (`t_min`, `t_max`), configuration fields and temperatures by slot. -/
inductive TKey
  | mode | heat | cool
  | fld (x : Fld)
  | temp (k : Nat)
deriving DecidableEq, Repr

/-- The settings shown as check boxes. -/
def isBox (x : Fld) : Bool := x = .antiFreeze ∨ x = .swManual ∨ x = .auxEnabled

/-- `isAntiFreezeAndHeatProtectionEnabled`, `isAuxMinMaxSetpointEnabled`,
`isTemperatureSetpointChangeSwitchesToManualMode`: HB lines 2354-2367, 2382-2395, 2410-2412. -/
def boxOn (e : Hvac.Config.Env) (c : Cfg) (x : Fld) : Bool :=
  if x ≠ .swManual ∧ e.differential = true then false else decide (c.f x ≠ 0)

/-- `"%d.%1d", t / 100, (t / 10) % 10`, HP lines 533, 556-561, 738; `/` and `%` truncate. -/
def splitText (t : Int) : List Nat := wholeText (Int.tdiv t 100) ++ 46 :: wholeText (Int.tmod (Int.tdiv t 10) 10)

/-- A temperature; nothing if it is not set. -/
def tempText (txt : Int → List Nat) (t : Int) : List Nat := if t = unset then [] else txt t

/-- A choice of one of several numbers. -/
def choice (v : Int) (ns : List Int) : Control := .list (ns.map (fun n => option n (decide (v = n))))

/-- "Not set" (-1) or a channel, HP lines 142-174, 621-652, 655-687. -/
def chanChoice (isSet num : Int) (ns : List Int) : Control :=
  .list (option (-1) (decide (isSet = 0)) :: ns.map (fun n => option n (decide (num = n))))

/-- The modes and whether they are marked, HP lines 178-230. -/
def modeChoice (e : Hvac.Mode.Env) (m : Nat) (weekly : Bool) : Control :=
  .list (([(1, decide (m = 1) && !weekly), (2, decide (m = 2) && !weekly), (3, decide (m = 3)), (4, decide (m = 4) && !weekly), (8, false),
    (9, weekly)].filter (fun (x : Nat × Bool) => e.sup x.1)).map (fun x => option x.1 x.2))

/-- A field that is there if a condition holds. -/
def opt (c : Bool) (f : Field TKey) : List (Field TKey) := if c then [f] else []

/-- The algorithms offered, HP lines 692-723. -/
def algs (e : Hvac.Config.Env) : List Int := [1, 2, 4].filter (fun (a : Int) => decide (e.avail &&& a.toNat = a.toNat))

/-- `HvacParameters::send`, HP lines 44-933, with `txt` for `%.1f`. -/
def thermoFormWith (txt : Int → List Nat) (S : Page) (s : Thermo) : List (Field TKey) :=
  opt (S.e.thermostat && !S.hidF .subfn) ⟨.fld .subfn, S.e.roF .subfn, choice (s.cfg.f .subfn) [1, 2]⟩ ++
  opt (S.several && !S.hidF .master) ⟨.fld .master, S.e.roF .master, chanChoice (s.cfg.f .masterSet) (s.cfg.f .master) S.masters⟩ ++
  opt true ⟨.mode, false, modeChoice (S.mode s.cfg) s.st.v.mode s.st.weekly⟩ ++
  opt ((S.mode s.cfg).sup 2) ⟨.heat, false, .number (tempText txt s.st.spHeat)⟩ ++
  opt ((S.mode s.cfg).sup 3) ⟨.cool, false, .number (tempText txt s.st.spCool)⟩ ++
  opt (!S.hidF .main) ⟨.fld .main, S.e.roF .main, choice (s.cfg.f .main) (S.e.self :: S.thermos)⟩ ++
  opt (!S.hidF .aux) ⟨.fld .aux, S.e.roF .aux, choice (s.cfg.f .aux) (S.e.self :: S.thermos)⟩ ++
  opt (!S.hidF .auxType) ⟨.fld .auxType, S.e.roF .auxType, choice (s.cfg.f .auxType) [0, 1, 2, 3, 4, 5]⟩ ++
  opt (!S.hidF .auxEnabled) ⟨.fld .auxEnabled, S.e.roF .auxEnabled, .box (boxOn S.e s.cfg .auxEnabled)⟩ ++
  opt (!S.hidT 8) ⟨.temp 8, false, .number (tempText txt (get s.cfg.t 8))⟩ ++
  opt (!S.hidT 9) ⟨.temp 9, false, .number (tempText txt (get s.cfg.t 9))⟩ ++
  opt (!S.hidF .antiFreeze) ⟨.fld .antiFreeze, false, .box (boxOn S.e s.cfg .antiFreeze)⟩ ++
  opt (!S.hidT 0) ⟨.temp 0, false, .number (tempText splitText (get s.cfg.t 0))⟩ ++
  opt (!S.hidT 4) ⟨.temp 4, false, .number (tempText splitText (get s.cfg.t 4))⟩ ++
  opt (!S.sensors.isEmpty && !S.hidF .bin) ⟨.fld .bin, S.e.roF .bin, choice (s.cfg.f .bin) (S.e.self :: S.sensors)⟩ ++
  opt (!S.pumps.isEmpty && !S.hidF .pump) ⟨.fld .pump, S.e.roF .pump, chanChoice (s.cfg.f .pumpSet) (s.cfg.f .pump) S.pumps⟩ ++
  opt (!S.srcs.isEmpty && !S.hidF .src) ⟨.fld .src, S.e.roF .src, chanChoice (s.cfg.f .srcSet) (s.cfg.f .src) S.srcs⟩ ++
  opt (!S.hidF .alg) ⟨.fld .alg, S.e.roF .alg, choice (s.cfg.f .alg) (algs S.e)⟩ ++
  opt (!S.hidT 5) ⟨.temp 5, false, .number (tempText splitText (get s.cfg.t 5))⟩ ++
  opt (!S.hidF .minOn) ⟨.fld .minOn, false, .number (wholeText (s.cfg.f .minOn))⟩ ++
  opt (!S.hidF .minOff) ⟨.fld .minOff, false, .number (wholeText (s.cfg.f .minOff))⟩ ++
  opt (!S.hidF .onError && S.internal) ⟨.fld .onError, S.e.roF .onError, choice (s.cfg.f .onError) [0, 100, -100]⟩ ++
  opt (!S.hidF .swManual) ⟨.fld .swManual, S.e.roF .swManual, .box (boxOn S.e s.cfg .swManual)⟩

/-- `HvacParameters::send`. -/
def thermoForm (P : Printf) : Page → Thermo → List (Field TKey) := thermoFormWith (tenths P)

/-- `hvacConfig` and `hvacValue`. -/
structure Draft where
  cfg : Cfg
  v : Val

/-- HP lines 941-981: copies; check boxes are off unless they are hidden. -/
def thermoBegin (S : Page) (s : Thermo) : Draft :=
  ⟨⟨fun x => if isBox x then (if S.hidF x then (if boxOn S.e s.cfg x then 1 else 0) else 0) else s.cfg.f x, s.cfg.t⟩, s.st.v⟩

/-- A field of the configuration is set. -/
def Draft.set (x : Fld) (n : Int) (d : Draft) : Draft := { d with cfg := { d.cfg with f := fun y => if y = x then n else d.cfg.f y } }

/-- A channel or none, HP lines 1008-1046. -/
def Draft.setChan (s x : Fld) (n : Int) (d : Draft) : Draft :=
  if 0 ≤ n ∧ n ≤ 255 then (d.set x n).set s 1 else (d.set x 0).set s 0

/-- A temperature: an empty text changes nothing; the number of tenths is an `int16_t` and so is ten times it
(HP lines 1056-1065 and others). -/
def tempTake (t : List Nat) (d : Draft) (f : Int → Draft) : Option Draft :=
  if t = [] then some d else (ofRes (floatStringToInt 1 t)).map fun n => f (w16 (w16 n * 10))

/-- `HvacParameters::handleResponse`, HP lines 935-1310. Modes, channel numbers and types are `unsigned char`, the
algorithm and the times are 16 bits wide, the output in case of an error is a `signed char`. -/
def thermoTake (k : TKey) (t : List Nat) (d : Draft) : Option Draft :=
  match k with
  | .mode => some { d with v := { d.v with mode := stringToUInt t % 256 } }
  | .heat => tempTake t d (fun n => { d with v := { d.v with heat := n, heatSet := true } })
  | .cool => tempTake t d (fun n => { d with v := { d.v with cool := n, coolSet := true } })
  | .temp k => tempTake t d (fun n => { d with cfg := { d.cfg with t := put d.cfg.t k n } })
  | .fld .subfn => some (if stringToUInt t ≤ 2 then d.set .subfn (stringToUInt t) else d)
  | .fld .master => (ofRes (stringToInt t)).map fun n => d.setChan .masterSet .master n
  | .fld .pump => (ofRes (stringToInt t)).map fun n => d.setChan .pumpSet .pump n
  | .fld .src => (ofRes (stringToInt t)).map fun n => d.setChan .srcSet .src n
  | .fld .alg => some (d.set .alg (stringToUInt t % 65536 : Nat))
  | .fld .minOn => (ofRes (stringToInt t)).map fun n => d.set .minOn (n % 65536)
  | .fld .minOff => (ofRes (stringToInt t)).map fun n => d.set .minOff (n % 65536)
  | .fld .onError => if t = [] then some d else (ofRes (stringToInt t)).map fun n => d.set .onError ((n + 128) % 256 - 128)
  | .fld x => some (if isBox x then d.set x (if t = [111, 110] then 1 else 0) else d.set x (stringToUInt t % 256 : Nat))

/-- HB lines 973-996: a thermostat that is a master has no master. -/
def noMaster (S : Page) (c : Cfg) : Cfg := if S.isMaster then ⟨fun x => if x = .masterSet ∨ x = .master then 0 else c.f x, c.t⟩ else c

/-- `handleChannelConfig` of a local change, HB lines 885-1017. -/
def localConfig (S : Page) (n : Cfg) (s : Thermo) : Thermo :=
  if valid S.e s.cfg (fixRo S.e s.cfg n) then
    let c : Cfg := ⟨(fixRo S.e s.cfg n).f, repair S.e (applyTemps s.cfg.t (fixRo S.e s.cfg n).t)⟩
    ⟨noMaster S c, Hvac.Mode.fix (S.mode c) s.st⟩
  else s

/-- `onProcessingEnd`, HP lines 1312-1331, with `handleNewValueFromServer` (HB lines 3428-3479); the duration is 0. -/
def thermoEnd (S : Page) (n : Hvac.Mode.Now) (s : Thermo) (d : Draft) : Thermo :=
  let r := localConfig S d.cfg s
  if r.cfg.f .masterSet ≠ 0 then r else { r with st := (Hvac.Mode.server (S.mode r.cfg) n d.v 0 r.st).1 }

/-- Saving the page untouched, with `txt` for `%.1f`. -/
def thermoSaveWith (txt : Int → List Nat) (S : Page) (n : Hvac.Mode.Now) (s : Thermo) : Option Thermo :=
  (handleAll thermoTake (thermoBegin S s) (submitted (thermoFormWith txt S s))).map (thermoEnd S n s)

/-- Saving the page untouched. -/
def thermoSave (P : Printf) : Page → Hvac.Mode.Now → Thermo → Option Thermo := thermoSaveWith (tenths P)

end Verif.Form
