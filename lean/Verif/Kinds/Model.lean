/-!
# Type of a channel: the number given to `setType` and the number sent

Models `src/supla/channels/channel_types.cpp` 25-122, `Channel::setType` and
`Channel::getChannelType` (`channel.cpp` 309-311, 554-556) and the choice made
by `Channel::getLastTemperature` (633-645).
-/

namespace Verif.Kinds

/-- `ChannelType`, `channel_types.h` 26-49. -/
inductive Kind where
  | notSet
  | binarysensor
  | distancesensor
  | relay
  | thermometer
  | humiditysensor
  | humidityandtempsensor
  | windsensor
  | pressuresensor
  | rainsensor
  | weightsensor
  | dimmer
  | rgbledcontroller
  | dimmerandrgbled
  | electricitymeter
  | impulsecounter
  | hvac
  | valveSwitch
  | valvePercent
  | generalpurposemeasurement
  | generalpurposemeter
  | actiontrigger
  deriving DecidableEq, Repr

/-- `channelTypeToProtoType`, `channel_types.cpp` 25-73; the numbers are those of
`proto.h` 381-425. -/
def toProto : Kind → Int
  | .binarysensor => 1000
  | .distancesensor => 1020
  | .relay => 2900
  | .thermometer => 3034
  | .humiditysensor => 3036
  | .humidityandtempsensor => 3038
  | .windsensor => 3042
  | .pressuresensor => 3044
  | .rainsensor => 3048
  | .weightsensor => 3050
  | .dimmer => 4000
  | .rgbledcontroller => 4010
  | .dimmerandrgbled => 4020
  | .electricitymeter => 5000
  | .impulsecounter => 5010
  | .hvac => 6100
  | .valveSwitch => 7000
  | .valvePercent => 7010
  | .generalpurposemeasurement => 9000
  | .generalpurposemeter => 9010
  | .actiontrigger => 11000
  | .notSet => 0

/-- `protoTypeToChannelType`, `channel_types.cpp` 75-122. -/
def ofProto (n : Int) : Kind :=
  if n = 1000 then .binarysensor else
  if n = 1020 then .distancesensor else
  if n = 2900 then .relay else
  if n = 3034 then .thermometer else
  if n = 3036 then .humiditysensor else
  if n = 3038 then .humidityandtempsensor else
  if n = 3042 then .windsensor else
  if n = 3044 then .pressuresensor else
  if n = 3048 then .rainsensor else
  if n = 3050 then .weightsensor else
  if n = 4000 then .dimmer else
  if n = 4010 then .rgbledcontroller else
  if n = 4020 then .dimmerandrgbled else
  if n = 5000 then .electricitymeter else
  if n = 5010 then .impulsecounter else
  if n = 6100 then .hvac else
  if n = 7000 then .valveSwitch else
  if n = 7010 then .valvePercent else
  if n = 9000 then .generalpurposemeasurement else
  if n = 9010 then .generalpurposemeter else
  if n = 11000 then .actiontrigger else
  .notSet

/-- The part of a channel modelled: its type and the eight bytes of its value as
read by `getValueDouble` and `getValueDoubleFirst` (`channel.cpp` 636, 639).
Simplification: the two readings are given, not decoded. -/
structure Chan where
  kind : Kind
  whole : Int
  first : Int
  deriving Repr

/-- A channel as constructed. -/
def fresh : Chan := { kind := .notSet, whole := 0, first := 0 }

/-- `Channel::setType`, `channel.cpp` 309-311. -/
def setType (n : Int) (c : Chan) : Chan := { c with kind := ofProto n }

/-- `Channel::getChannelType`, `channel.cpp` 554-556; the number put in the
registration (1354, 1399). -/
def getType (c : Chan) : Int := toProto c.kind

/-- `Channel::getLastTemperature`, `channel.cpp` 633-645; -275 is the value for
no temperature (631). -/
def lastTemperature (c : Chan) : Int :=
  match c.kind with
  | .thermometer => c.whole
  | .humidityandtempsensor => c.first
  | _ => -275

end Verif.Kinds
