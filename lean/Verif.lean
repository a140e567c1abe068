import Verif.Crc16.Props
import Verif.Proto.Props
import Verif.SrpcQueue.Props
import Verif.KeyValue.Props
import Verif.Storage.Props
import Verif.Storage.Throttle
import Verif.WearByte.Props
import Verif.Button.Hold
import Verif.Condition.Props
import Verif.Actions.Props
import Verif.Relay.Props
import Verif.Shutter.Stops
import Verif.Rgbw.Restore
import Verif.Rgbw.FadeTime
import Verif.Tools.Url
import Verif.Tools.Number
import Verif.Web.Receive
import Verif.Channel.RegistryProps
import Verif.Channel.ValueProps
import Verif.Channel.Fair
import Verif.Channel.Server
import Verif.Channel.LightEvents
import Verif.Counter.Uptime
import Verif.Counter.Impulse
import Verif.Counter.Seconds
import Verif.Sequence.Props
import Verif.Aggregator.Props
import Verif.Ocr.Props
import Verif.WearSector.Props
import Verif.Hvac.OutputProps
import Verif.Hvac.ControlProps
import Verif.Hvac.ControlSafety
import Verif.Hvac.ScheduleProps
import Verif.Hvac.TimerProps
import Verif.Hvac.ConfigProps
import Verif.Srpc.ConnProps
import Verif.Srpc.ConnLive
import Verif.Srpc.ConnHealth
import Verif.Notify.Model
import Verif.Notify.Props
import Verif.DevCfg.Model
import Verif.DevCfg.Props
import Verif.DevCfg.Values
import Verif.DevCfg.Sync
import Verif.ChanCfg.Model
import Verif.ChanCfg.Props
import Verif.ChanCfg.Link
import Verif.ChanCfg.Classes
import Verif.Em.Props
import Verif.ChanCfg.Meter
import Verif.SimpleState.Props
import Verif.Trigger.Findings
import Verif.Hostname.Props
import Verif.Life.Model
import Verif.Life.Props
import Verif.Life.Reset
import Verif.Life.Conn
import Verif.Cycles.Model
import Verif.Cycles.Props
import Verif.Mqtt.Topic
import Verif.Mqtt.Dispatch
import Verif.Mqtt.Command
import Verif.Calcfg.Model
import Verif.Calcfg.Props
import Verif.Timekeep.Model
import Verif.Timekeep.Props
import Verif.Conflict.Model
import Verif.Conflict.Props
import Verif.Led.Model
import Verif.Led.Props
import Verif.Html.Model
import Verif.Html.Spec
import Verif.Html.Lemmas
import Verif.Html.Props
import Verif.Html.Store
import Verif.Registry.Model
import Verif.Registry.Props
import Verif.Net.Model
import Verif.Net.Props
import Verif.LastState.Model
import Verif.LastState.Props
import Verif.Bistable.Model
import Verif.Bistable.Props
import Verif.Sha256.Spec
import Verif.Sha256.Model
import Verif.Sha256.Compress
import Verif.Sha256.Props
import Verif.Rsa.Spec
import Verif.Rsa.Model
import Verif.Rsa.Props
import Verif.Ota.Model
import Verif.Ota.Props
import Verif.Gmp.Spec
import Verif.Gmp.Model
import Verif.Gmp.Word
import Verif.Gmp.Lists
import Verif.Gmp.Shape
import Verif.Gmp.Quotient
import Verif.Gmp.Step
import Verif.Gmp.Invert
import Verif.Gmp.Divide
import Verif.Gmp.Powm
import Verif.Gmp.Check
import Verif.Gmp.Import
import Verif.Gmp.Props
import Verif.Message.Spec
import Verif.Message.Model
import Verif.Message.Lemmas
import Verif.Message.Decode
import Verif.Message.Complete
import Verif.Message.Props
import Verif.Pv.Spec
import Verif.Pv.Model
import Verif.Pv.Lemmas
import Verif.Pv.Props
import Verif.Pv.Columns
import Verif.Pv.Script
import Verif.Gpm.Spec
import Verif.Gpm.Model
import Verif.Gpm.Props
import Verif.Group.Model
import Verif.Group.Spec
import Verif.Group.Lemmas
import Verif.Group.Props
import Verif.Tls.Spec
import Verif.Tls.Model
import Verif.Tls.Lemmas
import Verif.Tls.Props
import Verif.Condition.Meter
import Verif.Pulse.Spec
import Verif.Pulse.Model
import Verif.Pulse.Lemmas
import Verif.Pulse.Steps
import Verif.Pulse.Props
import Verif.Pulse.Settled
import Verif.Form.Props
import Verif.Form.Shutter
import Verif.Form.Thermostat
import Verif.Form.ThermostatProps
import Verif.Drop.Props
import Verif.Binary.Props
import Verif.Probe.Props
import Verif.Probe.Distance
import Verif.Form.Typed
import Verif.PinOut.Props
import Verif.Somfy.Props
import Verif.Ftest.Props
import Verif.Parsed.Props
import Verif.Parsed.Lines
import Verif.Parsed.State
import Verif.Parsed.File
import Verif.LittleFs.Props
import Verif.Ieee.Props
import Verif.Hvac.ControlBoth
import Verif.Actions.Reentrant
import Verif.Timekeep.LightLife
import Verif.Led.Setting
import Verif.Save.Props
import Verif.Pwm.Props
import Verif.Shutter.PhysEnds
import Verif.Pzem.Props
import Verif.Ds.Props2
import Verif.AcDc.Model
import Verif.AcDc.Props
import Verif.Sht.Model
import Verif.Sht.Spec
import Verif.Sht.Props
import Verif.Answer.Model
import Verif.Answer.Props
import Verif.Scale.Model
import Verif.Scale.Props
import Verif.LinClient.Model
import Verif.LinClient.Props
import Verif.FileStore.Model
import Verif.FileStore.Props
import Verif.LinMqtt.Model
import Verif.LinMqtt.Props
import Verif.Nvs.Model
import Verif.Nvs.Props
import Verif.LinYaml.Model
import Verif.LinYaml.Props
import Verif.Hvac.Master
import Verif.Hvac.MasterProps
import Verif.Hvac.Sync
import Verif.Hvac.SyncProps
import Verif.Hvac.Default
import Verif.Hvac.DefaultProps
import Verif.Hvac.Press
import Verif.Hvac.PressProps
import Verif.Hvac.Restart
import Verif.Hvac.RestartProps
import Verif.Link.Lan
import Verif.Link.LanProps
import Verif.Link.Wifi
import Verif.Link.WifiProps
import Verif.Aggregator.Use
import Verif.Aggregator.UseProps
import Verif.Mqtt.State
import Verif.Mqtt.StateProps
import Verif.Mqtt.Discovery
import Verif.Mqtt.DiscoveryForm
import Verif.Mqtt.DiscoveryUnique
import Verif.Mqtt.DiscoveryProps
import Verif.Calendar.Lemmas
import Verif.Calendar.Props
import Verif.Climate.Model
import Verif.Climate.Props
import Verif.Relay.Remaining
import Verif.Relay.RemainingProps
import Verif.Relay.Command
import Verif.Relay.CommandProps
import Verif.Mqtt.Tasks
import Verif.Mqtt.TasksProps
import Verif.Mqtt.DiscoveryTypes
import Verif.Info.Model
import Verif.Info.Props
import Verif.Hvac.Told
import Verif.Hvac.ToldProps
import Verif.Identity.Model
import Verif.Identity.Props
import Verif.Counter.Torn
import Verif.Counter.TornProps
import Verif.Shutter.Obey
import Verif.ChanCfg.Keep
import Verif.Payload.Model
import Verif.Payload.Props
import Verif.Pages.Model
import Verif.Pages.Props
import Verif.Versions.Model
import Verif.Versions.Spec
import Verif.Versions.Props
import Verif.Lamp.Model
import Verif.Lamp.Props
import Verif.Eeprom.Model
import Verif.Eeprom.Props
import Verif.Logs.Model
import Verif.Logs.Props
import Verif.Pads.Model
import Verif.Pads.Props
import Verif.Kinds.Model
import Verif.Kinds.Props
import Verif.Locks.Model
import Verif.Locks.Props
import Verif.Refresh.Model
import Verif.Refresh.Props
import Verif.Watchdog.Model
import Verif.Watchdog.Props
import Verif.Crc8.Model
import Verif.Crc8.Props
import Verif.AtConfig.Model
import Verif.AtConfig.Spec
import Verif.AtConfig.Props
import Verif.CmdOut.Model
import Verif.CmdOut.Props
import Verif.StateFile.Model
import Verif.StateFile.Props
import Verif.UpdateUrl.Model
import Verif.UpdateUrl.Props
