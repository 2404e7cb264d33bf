import Verif.Props.Alive
import Verif.Props.Aloha
import Verif.Props.Brent
import Verif.Props.ClosedLoop
import Verif.Props.Constellation
import Verif.Props.ConstellationHelper
import Verif.Props.Crdsa
import Verif.Props.CrdsaDelay
import Verif.Props.CrdsaFrame
import Verif.Props.CrdsaGain
import Verif.Props.CrdsaLong
import Verif.Props.CrdsaSlots
import Verif.Props.CrdsaThroughput
import Verif.Props.CrdsaUplink
import Verif.Props.DeviceDetail
import Verif.Props.DeviceDetailSat
import Verif.Props.Double
import Verif.Props.Downlink
import Verif.Props.Elevation
import Verif.Props.ElevationRate
import Verif.Props.EndToEnd
import Verif.Props.EquatorExample
import Verif.Props.EquatorStation
import Verif.Props.FaceUri
import Verif.Props.Fifo
import Verif.Props.GeoTag
import Verif.Props.Geocast
import Verif.Props.Geodetic
import Verif.Props.GridDistance
import Verif.Props.GridNetwork
import Verif.Props.GroundSatChannel
import Verif.Props.GroundSta
import Verif.Props.GroundStaRx
import Verif.Props.Gsl
import Verif.Props.HelperConfig
import Verif.Props.IcarusHelper
import Verif.Props.InstallCalls
import Verif.Props.Intermittent
import Verif.Props.Isl
import Verif.Props.IslNet
import Verif.Props.LinkDelay
import Verif.Props.LinkGeometry
import Verif.Props.MissedSetting
import Verif.Props.Motion
import Verif.Props.MotionLinks
import Verif.Props.Network
import Verif.Props.Observer
import Verif.Props.Orbit
import Verif.Props.PacketTag
import Verif.Props.Passes
import Verif.Props.Ping
import Verif.Props.Queries
import Verif.Props.QueueDelay
import Verif.Props.Realize
import Verif.Props.RepoTests
import Verif.Props.Rest
import Verif.Props.RxDetail
import Verif.Props.SameMinimum
import Verif.Props.Sat2GroundDevice
import Verif.Props.Sat2SatChannel
import Verif.Props.SatAddress
import Verif.Props.SatNetDevice
import Verif.Props.Scenario
import Verif.Props.Search
import Verif.Props.SetUp
import Verif.Props.Shuffle
import Verif.Props.Silence
import Verif.Props.SlottedUplink
import Verif.Props.SputContacts
import Verif.Props.Sputping
import Verif.Props.Throughput
import Verif.Props.TimeShift
import Verif.Props.TrackedElev
import Verif.Props.TrackedNet
import Verif.Props.Tracker
import Verif.Props.Traffic
import Verif.Props.Transport
import Verif.Props.Uplink
import Verif.Props.UplinkOrder
import Verif.Props.Visibility
import Verif.Audit
