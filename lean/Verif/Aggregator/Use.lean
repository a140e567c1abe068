/-!
# Which pump and source relays a thermostat is registered with

A relay whose function is "pump switch" or "heat or cold source switch" owns an aggregator
(`src/supla/control/relay.cpp` 647-662), and a thermostat registers itself with the aggregators of
the relays its configuration names (`src/supla/control/hvac_base.cpp` 602-616, 963-972, 4392-4400,
5427-5499, 5594-5614).  `Verif.Aggregator.Props` models one aggregator and its list; here is the
side of one thermostat.  The registrations of different thermostats do not interact
(`Verif.Aggregator.registration_exact`), so one thermostat is modelled, and the aggregators are a
pair of tables indexed by channel number.
-/

namespace Verif.Aggregator.Use

/-- The four fields of `TChannelConfig_HVAC` concerned: `PumpSwitchIsSet`, `PumpSwitchChannelNo`,
`HeatOrColdSourceSwitchIsSet`, `HeatOrColdSourceSwitchChannelNo`
(`src/supla-common/proto.h`, `TChannelConfig_HVAC`). -/
structure Cfg where
  pumpSet : Bool := false
  pumpNo : Nat := 0
  srcSet : Bool := false
  srcNo : Nat := 0
  deriving DecidableEq, Repr

/-- `src/supla/control/hvac_base.h` 478, 489-490 and `config`, `initialConfig`, `initDone` of
`HvacBase`.  `me` is the thermostat's own channel number; `none` stands for the default -1.
`agg n` is `RelayHvacAggregator::GetInstance(n) != nullptr` (relay_hvac_aggregator.cpp 83-92) and
`reg n` says that this aggregator has the thermostat on its list. -/
structure St where
  me : Nat
  cfg : Cfg := {}
  flag : Bool := false
  dPump : Option Nat := none
  dSrc : Option Nat := none
  initial : Option Cfg := none
  initDone : Bool := false
  agg : Nat → Bool := fun _ => false
  reg : Nat → Bool := fun _ => false

/-- `registerHvac` on the list (relay_hvac_aggregator.cpp 102-125): registering twice is the same as
once. -/
def put (r : Nat → Bool) (n : Nat) (b : Bool) : Nat → Bool := fun k => if k = n then b else r k

/-- `HvacBase::registerInAggregator` (hvac_base.cpp 5594-5604).  Simplified: the channel numbers given
to it are `uint8_t`, so the test for a negative number is dropped. -/
def register (s : St) (n : Nat) : St := if s.agg n then { s with reg := put s.reg n true } else s

/-- `HvacBase::unregisterInAggregator` (hvac_base.cpp 5606-5614). -/
def unregister (s : St) (n : Nat) : St := if s.agg n then { s with reg := put s.reg n false } else s

/-- Register if asked to (hvac_base.cpp 604-608, 610-614). -/
def registerIf (b : Bool) (s : St) (n : Nat) : St := if b then register s n else s

/-- `pumpReady`, `heatOrColdReady` (hvac_base.cpp 603-608, 609-614). -/
def ready (s : St) (b : Bool) (n : Nat) : Bool := !b || s.agg n

/-- The once-a-second part of `iterateAlways` (hvac_base.cpp 602-616). -/
def tick (s : St) : St :=
  if s.flag then s
  else { registerIf s.cfg.srcSet (registerIf s.cfg.pumpSet s s.cfg.pumpNo) s.cfg.srcNo with flag := ready s s.cfg.pumpSet s.cfg.pumpNo && ready s s.cfg.srcSet s.cfg.srcNo }

/-- Unregister if the number changes (hvac_base.cpp 963-965, 966-969). -/
def unregisterIf (b : Bool) (s : St) (n : Nat) : St := if b then unregister s n else s

/-- An accepted configuration, from the server or the local page (hvac_base.cpp 961-973 with 1041-1045).
Simplified: the configuration is the one after the read-only fields were restored (940) and passed the
validation (945), and only the four fields are kept. -/
def accept (s : St) (c : Cfg) : St :=
  let s1 := unregisterIf (s.cfg.pumpNo != c.pumpNo) s s.cfg.pumpNo
  let s2 := unregisterIf (s.cfg.srcNo != c.srcNo) s1 s.cfg.srcNo
  { register (register s2 c.pumpNo) c.srcNo with flag := false, cfg := c }

/-- The default of one switch (hvac_base.cpp 4478-4483, 4484-4489, and 4861-4866, 4867-4873 in
`enableInitialConfig`): the pair is (`IsSet`, `ChannelNo`). -/
def withDefault (me : Nat) (d : Option Nat) (p : Bool × Nat) : Bool × Nat :=
  match d with
  | none => p
  | some n => if n = me then (p.1, n) else (true, n)

/-- The switches of a configuration with the defaults put in (hvac_base.cpp 4478-4489). -/
def defaults (s : St) (c : Cfg) : Cfg :=
  let p := withDefault s.me s.dPump (c.pumpSet, c.pumpNo)
  let q := withDefault s.me s.dSrc (c.srcSet, c.srcNo)
  { pumpSet := p.1, pumpNo := p.2, srcSet := q.1, srcNo := q.2 }

/-- `HvacBase::initDefaultConfig` (hvac_base.cpp 4392-4498), which `changeFunction` calls (3907). -/
def initDefault (s : St) : St :=
  match s.initial with
  | some c => { s with cfg := c }
  | none => { s with reg := fun _ => false, flag := false, cfg := defaults s s.cfg }

/-- `HvacBase::enableInitialConfig` (hvac_base.cpp 4845-4881). -/
def enableInitial (s : St) : St := { s with initial := some (defaults s {}) }

/-- `onLoadConfig` (hvac_base.cpp 244-269): the defaults, then the stored configuration if there is a
valid one. -/
def load (s : St) (stored : Option Cfg) : St :=
  match stored with
  | none => initDefault s
  | some c => { initDefault s with cfg := c }

/-- Lines 5440-5448 and 5481-5489: leave the old relay, and enter the new one unless it is the
thermostat itself. -/
def move (s : St) (old new : Nat) : St :=
  let s1 := { unregister s old with flag := false }
  if new = s.me then s1 else register s1 new

/-- The note in `initialConfig` (hvac_base.cpp 5428-5435). -/
def notePump (s : St) (n : Nat) : Option Cfg :=
  match s.initial with
  | some c => if s.initDone then some c else some { c with pumpNo := n, pumpSet := n != s.me }
  | none => none

/-- The note in `initialConfig` (hvac_base.cpp 5469-5476). -/
def noteSrc (s : St) (n : Nat) : Option Cfg :=
  match s.initial with
  | some c => if s.initDone then some c else some { c with srcNo := n, srcSet := n != s.me }
  | none => none

/-- `HvacBase::setPumpSwitchChannelNo` (hvac_base.cpp 5427-5458). -/
def setPump (s : St) (n : Nat) : St :=
  if s.cfg.pumpNo = n then { s with initial := notePump s n }
  else { move s s.cfg.pumpNo n with initial := notePump s n, cfg := { s.cfg with pumpNo := n, pumpSet := n != s.me }, dPump := if s.initDone then s.dPump else some n }

/-- `HvacBase::setHeatOrColdSourceSwitchChannelNo` (hvac_base.cpp 5468-5499). -/
def setSrc (s : St) (n : Nat) : St :=
  if s.cfg.srcNo = n then { s with initial := noteSrc s n }
  else { move s s.cfg.srcNo n with initial := noteSrc s n, cfg := { s.cfg with srcNo := n, srcSet := n != s.me }, dSrc := if s.initDone then s.dSrc else some n }

/-- `Relay::updateRelayHvacAggregator` of the relay on channel `n` (relay.cpp 647-662), called when it
loads its function and whenever the server sends it a function (69-93): `Add` keeps an existing
aggregator with its list, `Remove` deletes it and every registration (relay_hvac_aggregator.cpp 46-81). -/
def relayFn (s : St) (n : Nat) (isPump : Bool) : St :=
  if isPump then { s with agg := put s.agg n true } else { s with agg := put s.agg n false, reg := put s.reg n false }

/-- What happens to a thermostat and the relays of its device. -/
inductive Op where
  | tick
  | accept (c : Cfg)
  | change
  | load (stored : Option Cfg)
  | setPump (n : Nat)
  | setSrc (n : Nat)
  | relay (n : Nat) (isPump : Bool)
  | enableInitial
  | init
  deriving DecidableEq, Repr

/-- One event; `init` is the end of `onInit` (hvac_base.cpp 475). -/
def step (s : St) : Op → St
  | .tick => tick s
  | .accept c => accept s c
  | .change => initDefault s
  | .load c => load s c
  | .setPump n => setPump s n
  | .setSrc n => setSrc s n
  | .relay n b => relayFn s n b
  | .enableInitial => enableInitial s
  | .init => { s with initDone := true }

/-- A history. -/
def run (s : St) (ops : List Op) : St := ops.foldl step s

/-! ## Specification -/

/-- The configuration says that the relay on channel `n` serves this thermostat. -/
abbrev Uses (c : Cfg) (n : Nat) : Prop := (c.pumpSet = true ∧ c.pumpNo = n) ∨ (c.srcSet = true ∧ c.srcNo = n)

/-- **Spec.**  Every pump or source relay knows about the thermostat exactly if the thermostat's
configuration names it. -/
def Known (s : St) : Prop := ∀ n, s.agg n = true → (s.reg n = true ↔ Uses s.cfg n)

/-- A relay op never concerns the thermostat's own channel: a channel is a relay or a thermostat. -/
def Sane (me : Nat) : Op → Prop
  | .relay n _ => n ≠ me
  | _ => True

instance (me : Nat) (o : Op) : Decidable (Sane me o) := by
  cases o <;> unfold Sane <;> infer_instance

/-- **Full claim.**  In every history, a second after the last event the relays know the thermostat
exactly if it uses them. -/
def AlwaysKnown : Prop := ∀ (me : Nat) (ops : List Op), (∀ o ∈ ops, Sane me o) → Known (tick (run { me := me } ops))

/-- A configuration in which a switch that is not used carries the thermostat's own number, as
`clearPumpSwitchChannelNo` leaves it. -/
def Tidy (me : Nat) (c : Cfg) : Prop := (c.pumpSet = false → c.pumpNo = me) ∧ (c.srcSet = false → c.srcNo = me)

/-- The events for which the claim holds: tidy configurations, no initial configuration, and no relay
loses its pump or source function while the thermostat uses it. -/
def Calm (s : St) : Op → Prop
  | .accept c => Tidy s.me c
  | .relay n false => n ≠ s.me ∧ ¬ Uses s.cfg n
  | .relay n true => n ≠ s.me
  | .enableInitial => False
  | _ => True

/-- A history of calm events. -/
def CalmRun (s : St) : List Op → Prop
  | [] => True
  | o :: os => Calm s o ∧ CalmRun (step s o) os

end Verif.Aggregator.Use
