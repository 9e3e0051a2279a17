import Verif.Props.Fault
import Verif.Props.GPSTime
import Verif.Props.Bitstream
import Verif.Props.BitArray
import Verif.Props.Serializer
import Verif.Props.Uplink
import Verif.Props.Downlink
import Verif.Props.Registry
import Verif.Props.Event
import Verif.Props.EEPROM
import Verif.Props.PropDriver
import Verif.Props.Prop
import Verif.Props.PropFill
import Verif.Props.PropArm
import Verif.Props.PropFH
import Verif.Props.QuakeFH
import Verif.Props.FaultHandlers
import Verif.Props.PiksiFH
import Verif.Props.MissionManager
import Verif.Props.Deployment
import Verif.Props.MissionTimers
import Verif.Model.Quake
import Verif.Props.Quake
import Verif.Props.MissionEffects
import Verif.Model.RadioSys
import Verif.Props.QuakeSend
import Verif.Props.QuakeReceive
import Verif.Props.RadioSys
import Verif.Model.Power
import Verif.Props.Power
import Verif.Props.DCDC
import Verif.Model.Float32
import Verif.Model.Docking
import Verif.Props.Docking
import Verif.Props.QuakeModem
import Verif.Lemmas.Float32
import Verif.Lemmas.ADCSConv
import Verif.Lemmas.ADCSBox
import Verif.Spec.ADCS
import Verif.Model.ADCSConv
import Verif.Model.ADCSBox
import Verif.Model.ADCSFlight
import Verif.Props.ADCSMtr
import Verif.Props.ADCSCommands
import Verif.Props.ADCSActuation
import Verif.Props.ADCSDevices
import Verif.Props.ADCSStates
import Verif.Props.ADCSWheels
import Verif.Props.Sbp
import Verif.Props.Piksi
import Verif.Props.Estimators
import Verif.Props.OrbitCtl
import Verif.Props.Timing
import Verif.Props.System
import Verif.Props.ADCSSettings
import Verif.Props.ADCSReadings
import Verif.Props.ADCSWheelReadings
import Verif.Props.ADCSMonitor
import Verif.Model.Float64
import Verif.Lemmas.Float64
import Verif.Model.FloatSer
import Verif.Spec.FloatSer
import Verif.Lemmas.FloatSer
import Verif.Props.FloatSer
import Verif.Model.VectorSer
import Verif.Spec.VectorSer
import Verif.Lemmas.VectorSer
import Verif.Props.VectorSer
import Verif.Props.QuaternionSer
import Verif.Model.ADCSDev
import Verif.Spec.ADCSDev
import Verif.Lemmas.ADCSDev
import Verif.Props.ADCSDev
import Verif.Model.SunVector
import Verif.Spec.SunVector
import Verif.Props.SunVector
import Verif.Model.Ground
import Verif.Spec.Ground
import Verif.Props.Ground
import Verif.Model.Text
import Verif.Spec.Text
import Verif.Lemmas.Text
import Verif.Props.Text
import Verif.Model.Console
import Verif.Spec.Console
import Verif.Props.Console
import Verif.Model.FlightI2C
import Verif.Spec.FlightI2C
import Verif.Props.FlightI2C
import Verif.Model.GomConfig
import Verif.Props.GomConfig
import Verif.Model.PropSensors
import Verif.Props.PropSensors
import Verif.Model.PiksiAux
import Verif.Props.PiksiAux
import Verif.Model.DockSys
import Verif.Props.DockSys
import Verif.Model.FloatReal
import Verif.Lemmas.FloatReal
import Verif.Model.VectorSerRnd
import Verif.Spec.VectorSerRnd
import Verif.Lemmas.VectorSerRnd
import Verif.Props.VectorSerRnd
import Verif.Spec.Manoeuvre
import Verif.Props.Manoeuvre
import Verif.Model.Startup
import Verif.Model.StartupTable
import Verif.Spec.Startup
import Verif.Lemmas.Startup
import Verif.Lemmas.StartupFlight
import Verif.Lemmas.StartupCheck
import Verif.Lemmas.StartupWidths
import Verif.Props.Startup
import Verif.Spec.FlightTelemetry
import Verif.Props.FlightTelemetry
import Verif.Spec.SunHandshake
import Verif.Props.SunHandshake
import Verif.Props.PropPower
import Verif.Model.BitstreamOps
import Verif.Props.BitstreamOps
import Verif.Model.QuaternionSerRnd
import Verif.Props.QuaternionSerRnd
import Verif.Model.TelemInfo
import Verif.Spec.TelemInfo
import Verif.Props.TelemInfo
import Verif.Model.ModemText
import Verif.Spec.ModemText
import Verif.Props.ModemText
import Verif.Props.SensorSetup
import Verif.Props.Echo
import Verif.Props.SharedBits
import Verif.Props.Filling
import Verif.Props.UplinkSys
import Verif.Props.SerOverflow
import Verif.Props.CommandedSafehold
import Verif.Props.WatchSys
import Verif.Props.Venting
import Verif.Props.SysProp
import Verif.Props.SysManoeuvre
import Verif.Props.DownlinkFirst
import Verif.Props.ADCSAsked
import Verif.Props.SysPlan
import Verif.Props.SysWait
import Verif.Props.SysAttitude
import Verif.Model.NavSys
import Verif.Props.NavSys
import Verif.Props.RelKeep
import Verif.Props.ADCSMounting
import Verif.Model.ClockConv
import Verif.Props.ClockConv
import Verif.Props.RadioPower
import Verif.Props.GpsPower
import Verif.Props.FixedArray
import Verif.Props.ConsoleText
import Verif.Props.ConsoleTime
