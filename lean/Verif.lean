import Verif.Model.Basic
import Verif.Model.Types
import Verif.Model.Channels
import Verif.Model.Region
import Verif.Model.Mac
import Verif.Model.Stack
import Verif.Model.History
import Verif.Spec.LoRaWAN
import Verif.Spec.Session
import Verif.Tests.StackTests
import Verif.Lemmas.Channels
import Verif.Lemmas.Inv
import Verif.Lemmas.Flow
import Verif.Lemmas.Data
import Verif.Lemmas.Join
import Verif.Lemmas.Step
import Verif.Lemmas.Bridge
import Verif.Lemmas.Hist
import Verif.Lemmas.Parse
import Verif.Lemmas.View
import Verif.Spec.Config
import Verif.Lemmas.Config
import Verif.Lemmas.Observe
import Verif.Spec.Exchange
import Verif.Spec.Adr
import Verif.Lemmas.Uplink
import Verif.Lemmas.Exchange
import Verif.Lemmas.CfgFrame
import Verif.Tests.Demo
import Verif.Props.Uplink
import Verif.Lemmas.Report
import Verif.Lemmas.Stage
import Verif.Props.Adr
import Verif.Lemmas.Hardware
import Verif.Lemmas.Windows
import Verif.Props.Exchange
import Verif.Props.Channels
import Verif.Spec.Downlink
import Verif.Lemmas.Downlink
import Verif.Lemmas.Received
import Verif.Props.Downlink
import Verif.Props.Forged
import Verif.Spec.Join
import Verif.Lemmas.JoinHist
import Verif.Props.Join
import Verif.Spec.Mac
import Verif.Lemmas.Commands
import Verif.Lemmas.Queue
import Verif.Props.Mac
import Verif.Props.Queue
import Verif.Lemmas.Safety
import Verif.Props.Safety
import Verif.Model.ClockSync
import Verif.Spec.ClockSync
import Verif.Tests.ClockSyncTests
import Verif.Lemmas.ClockSync
import Verif.Lemmas.SyncHist
import Verif.Props.ClockSync
import Verif.Model.Hal
import Verif.Model.Sx127x
import Verif.Model.Sx126x
import Verif.Model.Driver
import Verif.Spec.Radio
import Verif.Lemmas.Bus
import Verif.Lemmas.Sx127x
import Verif.Lemmas.Sx126x
import Verif.Tests.RadioTests
import Verif.Props.Sx127x
import Verif.Props.Sx126x
import Verif.Props.Board
import Verif.Model.Device
import Verif.Spec.Device
import Verif.Lemmas.Device
import Verif.Tests.DeviceTests
import Verif.Props.Device127
import Verif.Props.Device126
import Verif.Spec.Network
import Verif.Tests.NetworkTests
import Verif.Lemmas.Network
import Verif.Props.Network
import Verif.Model.Reenter
import Verif.Spec.Reenter
import Verif.Lemmas.Reenter
import Verif.Lemmas.ReenterCount
import Verif.Props.Reenter
import Verif.Spec.Keys
import Verif.Lemmas.Keys
import Verif.Props.Keys
import Verif.Props.Session
import Verif.Spec.Same
import Verif.Lemmas.Like
import Verif.Lemmas.Mark
import Verif.Lemmas.Same
import Verif.Props.Same
import Verif.Spec.TimeServer
import Verif.Lemmas.TimeServer
import Verif.Props.TimeServer
import Verif.Spec.Regional
import Verif.Props.Regional
import Verif.Spec.Secrecy
import Verif.Lemmas.Secrecy
import Verif.Props.Secrecy
import Verif.Spec.Timing
import Verif.Lemmas.Timing
import Verif.Props.Timing
import Verif.Model.SyncReenter
import Verif.Spec.SyncReenter
import Verif.Lemmas.SyncReenter
import Verif.Props.SyncReenter
import Verif.Spec.Startup
import Verif.Props.Startup
import Verif.Spec.Manager
import Verif.Props.Manager
import Verif.Props.Regain
import Verif.Props.Energy
import Verif.Props.Restart
import Verif.Props.Payload
import Verif.Props.Hopping
import Verif.Props.Delivery
import Verif.Props.Attacker
import Verif.Props.Wideband
import Verif.Lemmas.Flags
import Verif.Lemmas.Story
import Verif.Props.Flags
import Verif.Spec.Otaa
import Verif.Props.Otaa
import Verif.Spec.SyncWord
import Verif.Props.SyncWord
import Verif.Props.Second
import Verif.Code.Sem
import Verif.Code.All
import Verif.Code.Host
import Verif.Code.Enc
import Verif.Lemmas.CodeAttr
import Verif.Lemmas.CodeExec
import Verif.Lemmas.CodeEnc
import Verif.Lemmas.CodeFind
import Verif.Lemmas.CodeOps
import Verif.Lemmas.CodeSetters
import Verif.Lemmas.CodeChannels
import Verif.Lemmas.CodeBytes
import Verif.Lemmas.CodeWords
import Verif.Lemmas.CodeRegion
import Verif.Lemmas.CodeMask
import Verif.Lemmas.CodeCflist
import Verif.Lemmas.CodeMac
import Verif.Lemmas.CodeHost
import Verif.Lemmas.CodeHandlers
import Verif.Lemmas.CodeCommands
import Verif.Lemmas.CodeReports
import Verif.Lemmas.CodeDispatch
import Verif.Lemmas.CodeCrypto
import Verif.Lemmas.CodeDerive
import Verif.Lemmas.CodeApi
import Verif.Lemmas.CodeRadio
import Verif.Lemmas.CodeJoin
import Verif.Lemmas.CodeSend
import Verif.Lemmas.CodeUplink
import Verif.Lemmas.CodeAccept
import Verif.Lemmas.CodeJoined
import Verif.Lemmas.CodeData
import Verif.Lemmas.CodeCount
import Verif.Lemmas.CodeTail
import Verif.Lemmas.CodeMsg
import Verif.Lemmas.CodeDataMsg
import Verif.Lemmas.CodeDownlink
import Verif.Lemmas.CodeReceive
import Verif.Lemmas.CodeEvent
import Verif.Code.Run
import Verif.Spec.Text
import Verif.Lemmas.CodeStep
import Verif.Lemmas.CodeHist
import Verif.Props.Text
import Verif.Code.RunClock
import Verif.Lemmas.CodeClock
import Verif.Lemmas.CodeAnswer
import Verif.Lemmas.CodeSwitch
import Verif.Lemmas.CodeRounds
import Verif.Lemmas.CodeParse
import Verif.Lemmas.CodeHandle
import Verif.Lemmas.CodeSys
import Verif.Spec.TextSync
import Verif.Props.TextSync
import Verif.Code.Sx127x
import Verif.Code.RunDriver
import Verif.Lemmas.CodeWire
import Verif.Lemmas.CodeSx127x
import Verif.Lemmas.CodeSx127xB
import Verif.Spec.TextDriver
import Verif.Lemmas.CodeDriver
import Verif.Props.TextDriver
