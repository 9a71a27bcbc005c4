import Verif.Props.Stream
import Verif.Props.Messages
import Verif.Props.Decoding
import Verif.Props.SubByte
import Verif.Props.Zip
import Verif.Props.Text
import Verif.Props.Collections
import Verif.Props.Values
import Verif.Props.Waiter
import Verif.Props.Conn
import Verif.Props.Strings
import Verif.Props.Gateway
import Verif.Props.GatewayCalls
import Verif.Props.GatewayTime
import Verif.Props.Node
import Verif.Props.Interview
import Verif.Props.Configuration
import Verif.Props.Sensor
import Verif.Props.Association
import Verif.Props.GroupInfo
import Verif.Props.Mailbox
import Verif.Props.Application
import Verif.Props.Storage
import Verif.Props.ToNode
import Verif.Props.Wire
import Verif.Props.NodeInterview
import Verif.Props.System
import Verif.Props.Ends
import Verif.Props.Socket
import Verif.Props.Meter
import Verif.Props.Version
import Verif.Props.Frames
import Verif.Props.Dsk
import Verif.Props.Dtls
import Verif.Props.Equality
import Verif.Props.Raises
import Verif.Props.Removal
import Verif.Props.Setup
import Verif.Props.Persist
import Verif.Props.Patience
import Verif.Props.Leftover
import Verif.Props.GatewayMode
import Verif.Props.Connect
import Verif.Props.MailboxInit
import Verif.Props.Debug
import Verif.Props.Dispatch
import Verif.Props.Device
import Verif.Props.Boot
import Verif.Props.Startup
import Verif.Props.GroupAsk
import Verif.Props.Follow
import Verif.Props.Attributes
import Verif.Props.Heard
import Verif.Props.Route
import Verif.Props.Answered
import Verif.Props.Float
import Verif.Props.InTime
import Verif.Props.InTimeUpdate
import Verif.Props.Late
import Verif.Props.Clashing
import Verif.Props.Truthful
import Verif.Props.Ask
import Verif.Props.Body
import Verif.Props.ClassRun
import Verif.Props.Innocent
import Verif.Props.InnocentAssoc
import Verif.Props.ClassNet
import Verif.Props.ClassNetLate
import Verif.Props.Silence
import Verif.Props.GatewayEnds
import Verif.Props.BootEnds
import Verif.Props.NodeNet
import Verif.Props.NodeStops
import Verif.Props.ConnectEnds
import Verif.Props.MailNet
import Verif.Props.MailEnds
import Verif.Props.Restarts
import Verif.Props.Sleeping
import Verif.Props.Announced
import Verif.Props.Vectors
import Verif.Props.VectorsState
