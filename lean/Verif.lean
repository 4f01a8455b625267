import Verif.Model.Base
import Verif.Model.BitField
import Verif.Model.BitTools
import Verif.Model.Crc
import Verif.Model.Device
import Verif.Model.Double
import Verif.Model.EphDbl
import Verif.Model.EphPrint
import Verif.Model.EphStream
import Verif.Model.ExamplePrint
import Verif.Model.Lifetime
import Verif.Model.Listeners
import Verif.Model.LogDisk
import Verif.Model.Logger
import Verif.Model.Msgs
import Verif.Model.MsgsMon
import Verif.Model.Msm
import Verif.Model.MsmDbl
import Verif.Model.Nav
import Verif.Model.NavGal
import Verif.Model.NavGlo
import Verif.Model.NavGps
import Verif.Model.NavScreen
import Verif.Model.Nmea
import Verif.Model.ObsTime
import Verif.Model.PrintNum
import Verif.Model.Process
import Verif.Model.Programs
import Verif.Model.ReadLog
import Verif.Model.ReadSerial
import Verif.Model.ReadSerialRun
import Verif.Model.RoleRace
import Verif.Model.Ros
import Verif.Model.RosDbl
import Verif.Model.RosEph
import Verif.Model.RosNode
import Verif.Model.Rtcm
import Verif.Model.Scale
import Verif.Model.Screen
import Verif.Model.SharedPort
import Verif.Model.Tables
import Verif.Model.Time
import Verif.Model.TimeDbl
import Verif.Model.TimePrint
import Verif.Model.TimeWeek
import Verif.Model.Ubx
import Verif.Model.UbxCmd
import Verif.Spec.BaseLife
import Verif.Spec.BitField
import Verif.Spec.Bits
import Verif.Spec.Calendar
import Verif.Spec.Commands
import Verif.Spec.ConfigItems
import Verif.Spec.Console
import Verif.Spec.Contiguous
import Verif.Spec.Crc
import Verif.Spec.Device
import Verif.Spec.EarlyDays
import Verif.Spec.EphStream
import Verif.Spec.Frame
import Verif.Spec.Harmless
import Verif.Spec.HarmlessAll
import Verif.Spec.Interleave
import Verif.Spec.LogDisk
import Verif.Spec.MonVer
import Verif.Spec.Msgs
import Verif.Spec.MsgsMon
import Verif.Spec.Msm
import Verif.Spec.NavEncGal
import Verif.Spec.NavEncGlo
import Verif.Spec.NavEncGps
import Verif.Spec.NavGal
import Verif.Spec.NavGlo
import Verif.Spec.NavGps
import Verif.Spec.NavInput
import Verif.Spec.NavInputGal
import Verif.Spec.NavInputGlo
import Verif.Spec.NavLive
import Verif.Spec.NavLoss
import Verif.Spec.NavScreen
import Verif.Spec.Nmea
import Verif.Spec.PrintNum
import Verif.Spec.Process
import Verif.Spec.Programs
import Verif.Spec.Provenance
import Verif.Spec.Resync
import Verif.Spec.ResyncDevice
import Verif.Spec.Ros
import Verif.Spec.RosSignal
import Verif.Spec.Rtcm
import Verif.Spec.RtkPair
import Verif.Spec.Screen
import Verif.Spec.Settings
import Verif.Spec.Tables
import Verif.Spec.TestData
import Verif.Spec.Text
import Verif.Spec.Time
import Verif.Spec.TimeScale
import Verif.Spec.Uninit
import Verif.Spec.Version
import Verif.Spec.VersionLife
import Verif.Lemmas.Base
import Verif.Lemmas.Bits
import Verif.Lemmas.Crc
import Verif.Lemmas.CrcDetect
import Verif.Lemmas.DemuxPart
import Verif.Lemmas.Device
import Verif.Lemmas.DeviceCtor
import Verif.Lemmas.DeviceInv
import Verif.Lemmas.DeviceRun
import Verif.Lemmas.DeviceSim
import Verif.Lemmas.Double
import Verif.Lemmas.NavEntry
import Verif.Lemmas.NavGal
import Verif.Lemmas.NavGalRun
import Verif.Lemmas.NavGalSkip
import Verif.Lemmas.NavGlo
import Verif.Lemmas.NavGloRun
import Verif.Lemmas.NavGloTest
import Verif.Lemmas.NavGps
import Verif.Lemmas.NavGpsLive
import Verif.Lemmas.NavGpsLoss
import Verif.Lemmas.NavGpsReport
import Verif.Lemmas.NavGpsRun
import Verif.Lemmas.NavGpsThree
import Verif.Lemmas.NavInv
import Verif.Lemmas.NavIso
import Verif.Lemmas.NavStrict
import Verif.Lemmas.Process
import Verif.Lemmas.Rtcm
import Verif.Lemmas.RtcmRun
import Verif.Lemmas.Ubx
import Verif.Lemmas.UbxCmd
import Verif.Lemmas.UbxDetect
import Verif.Lemmas.UbxFrame
import Verif.Lemmas.UbxReach
import Verif.Lemmas.UbxRefine
import Verif.Lemmas.UbxVersion
import Verif.Lemmas.UbxWait
import Verif.Props.Ack
import Verif.Props.Attribution
import Verif.Props.BaseEph
import Verif.Props.BaseLife
import Verif.Props.BitField
import Verif.Props.BitFieldKeep
import Verif.Props.Bits
import Verif.Props.ConfigItems
import Verif.Props.Conformance
import Verif.Props.Console
import Verif.Props.Contiguous
import Verif.Props.Crc
import Verif.Props.DatagramLink
import Verif.Props.Device
import Verif.Props.DeviceCalls
import Verif.Props.DeviceCtor
import Verif.Props.DeviceLink
import Verif.Props.DeviceSafe
import Verif.Props.EarlyDays
import Verif.Props.EphDbl
import Verif.Props.EphPrint
import Verif.Props.EphStream
import Verif.Props.ExamplePrint
import Verif.Props.Harmless
import Verif.Props.HarmlessAll
import Verif.Props.HarmlessBase
import Verif.Props.Interleave
import Verif.Props.Lifetime
import Verif.Props.Listeners
import Verif.Props.LogDisk
import Verif.Props.Logger
import Verif.Props.Memory
import Verif.Props.MonVer
import Verif.Props.Msgs
import Verif.Props.MsgsMon
import Verif.Props.Msm
import Verif.Props.MsmFine
import Verif.Props.MsmPlace
import Verif.Props.MsmScale
import Verif.Props.NavData
import Verif.Props.NavEncGal
import Verif.Props.NavEncGlo
import Verif.Props.NavEncGps
import Verif.Props.NavGal
import Verif.Props.NavGlo
import Verif.Props.NavGps
import Verif.Props.NavGpsLive
import Verif.Props.NavGpsLoss
import Verif.Props.NavInput
import Verif.Props.NavInputGal
import Verif.Props.NavInputGlo
import Verif.Props.NavInputGps
import Verif.Props.NavScreen
import Verif.Props.Nmea
import Verif.Props.ObsTime
import Verif.Props.PrintNum
import Verif.Props.PrintText
import Verif.Props.Process
import Verif.Props.Programs
import Verif.Props.Provenance
import Verif.Props.ProvenanceLast
import Verif.Props.ReadLog
import Verif.Props.ReadSerial
import Verif.Props.ReadSerialRun
import Verif.Props.ReadSerialWhole
import Verif.Props.Resync
import Verif.Props.ResyncDevice
import Verif.Props.RoleRace
import Verif.Props.Ros
import Verif.Props.RosDbl
import Verif.Props.RosEph
import Verif.Props.RosNode
import Verif.Props.RosSignal
import Verif.Props.Rtcm
import Verif.Props.RtkPair
import Verif.Props.Scale
import Verif.Props.Screen
import Verif.Props.Settings
import Verif.Props.SharedPort
import Verif.Props.Tables
import Verif.Props.Text
import Verif.Props.Time
import Verif.Props.TimeDbl
import Verif.Props.TimePrint
import Verif.Props.TimeScale
import Verif.Props.Ubx
import Verif.Props.UbxWait
import Verif.Props.Uninit
import Verif.Props.Valget
import Verif.Props.Version
import Verif.Props.VersionLife
