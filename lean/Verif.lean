import Verif.Model.Go
import Verif.Model.Num
import Verif.Model.Conn
import Verif.Model.Mutex
import Verif.Props.Conn
import Verif.Props.Mutex
import Verif.Props.Registry
import Verif.Props.ChargePoint
import Verif.Props.Http
import Verif.Props.HttpExact
import Verif.Props.Encode
import Verif.Props.Decode
import Verif.Props.Frame
import Verif.Props.ConnOcpp
import Verif.Props.Soap
import Verif.Props.SoapCut
import Verif.Props.System
import Verif.Props.Time
import Verif.Props.Ints
import Verif.Props.Conform
import Verif.Props.World
import Verif.Props.SoapDoc
import Verif.Props.WsdlSent
import Verif.Props.WsdlRead
import Verif.Props.JRead
import Verif.Props.Lenient
import Verif.Props.Noise
import Verif.Props.Handshake
import Verif.Props.Fleet
import Verif.Props.Settle
import Verif.Props.SoapLoose
import Verif.Props.SoapNet
import Verif.Props.SoapUrl
import Verif.Props.Stall
import Verif.Props.Deadlock
import Verif.Props.Race
import Verif.Props.Timed
import Verif.Props.Waits
import Verif.Props.Redial
import Verif.Props.FleetLive
import Verif.Props.SendErr
import Verif.Props.Bytes
import Verif.Model.Example
import Verif.Props.Rpc
import Verif.Props.Transports
import Verif.Props.JsonSent
import Verif.Props.Log
import Verif.Props.Restart
import Verif.Props.Reread
import Verif.Props.Reborn
import Verif.Props.Order
import Verif.Props.Mixed
import Verif.Props.Debug
import Verif.Props.DebugEnds
import Verif.Props.Hub
import Verif.Props.Company
import Verif.Props.Answered
import Verif.Props.Rounds
import Verif.Props.Silent
import Verif.Props.Forget
import Verif.Props.HubLanding
import Verif.Props.HubWaits
import Verif.Props.HubSilent
import Verif.Props.HubRest
import Verif.Props.ErrText
