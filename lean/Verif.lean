import Verif.Props.RingBuffer
import Verif.Props.PeerReceive
import Verif.Props.PeerSend
import Verif.Props.Serdes
import Verif.Props.BitSerdes
import Verif.Props.Labels
import Verif.Props.Discovery
import Verif.Props.ServiceDiscovery
import Verif.Props.TimeSync
import Verif.Props.TimeSyncNet
import Verif.Props.TimeSyncLive
import Verif.Props.TimeSyncChanging
import Verif.Props.Lifecycle
import Verif.Props.SystemState
import Verif.Props.Barrier
import Verif.Props.Registration
import Verif.Props.Registry
import Verif.Props.Joining
import Verif.Props.Links
import Verif.Props.Handlers
import Verif.Props.Can
import Verif.Props.Ethernet
import Verif.Props.Lin
import Verif.Props.Flexray
import Verif.Props.Rpc
import Verif.Props.WatchDog
import Verif.Props.Uri
import Verif.Props.ConnectPeer
import Verif.Props.Acceptors
import Verif.Props.Hourglass
import Verif.Props.HourglassValues
import Verif.Props.Pcap
import Verif.Props.Replay
import Verif.Props.ConfigFiles
import Verif.Props.ConfigText
import Verif.Props.ConfigSchema
import Verif.Props.Proxy
import Verif.Props.WallClock
import Verif.Props.NetSim
import Verif.Props.Startup
import Verif.Props.RawStream
import Verif.Props.DataFlow
import Verif.Props.Logging
import Verif.Props.Creation
import Verif.Props.Metrics
import Verif.Props.Dashboard
import Verif.Props.CommandLine
import Verif.Props.Rendezvous
import Verif.Props.Presence
import Verif.Props.StopSignal
import Verif.Props.TimeProvider
import Verif.Props.Connecting
import Verif.Props.Names
import Verif.Props.RegistryTool
import Verif.Props.LifecycleWait
import Verif.Props.CApi
import Verif.Props.NetSimValues
import Verif.Props.Targeted
import Verif.Props.Extensions
import Verif.Props.LinReplay
import Verif.Props.ReplayChannel
import Verif.Props.LinDynamic
import Verif.Props.VersionHandshake
import Verif.Props.DynamicStep
import Verif.Props.AutonomousCheck
