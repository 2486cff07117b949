import Verif.Base.Bytes
import Verif.Model.Num64
import Verif.Lemmas.Num64
import Verif.Props.Num64
import Verif.Props.Time
import Verif.Props.Schedule
import Verif.Props.Rijndael
import Verif.Props.Protocol
import Verif.Props.Request
import Verif.Props.Records
import Verif.Props.Conversation
import Verif.Props.Server
import Verif.Props.Stop
import Verif.Props.Setup
import Verif.Props.TestRequest
import Verif.Props.Packet
import Verif.Props.Sender
import Verif.Props.Receiver
import Verif.Props.DataFile
import Verif.Props.Clean
import Verif.Props.CleanUp
import Verif.Props.Fetch
import Verif.Props.Limits
import Verif.Props.Classes
import Verif.Props.Broker
import Verif.Props.Daemon
import Verif.Props.TestPolicy
import Verif.Props.Config
import Verif.Props.Stats
import Verif.Props.Summary
import Verif.Props.Ports
import Verif.Props.Sessions
import Verif.Props.Wait
import Verif.Props.Sizes
import Verif.Props.TwoWay
import Verif.Props.Reflector
import Verif.Props.Powstream
import Verif.Props.Publish
import Verif.Props.TwStats
import Verif.Props.Asking
import Verif.Props.Dscp
import Verif.Props.Options
import Verif.Props.Restart
import Verif.Props.Privileges
import Verif.Props.Shutdown
import Verif.Props.Print
import Verif.Props.PrintSummary
import Verif.Props.Startup
import Verif.Props.Connect
import Verif.Props.Secrets
import Verif.Props.Reports
import Verif.Props.Ping
import Verif.Props.Pool
import Verif.Props.Buckets
import Verif.Props.Raw
import Verif.Props.Verbose
import Verif.Props.Close
import Verif.Props.EndToEnd
import Verif.Props.RoundTrip
import Verif.Props.Turns
import Verif.Props.Rounds
import Verif.Props.Hops
import Verif.Props.PrintTw
import Verif.Props.PrintTrip
import Verif.Props.PrintSummaryTw
import Verif.Props.Admit
import Verif.Props.Life
import Verif.Props.PowOptions
import Verif.Props.PingOptions
import Verif.Props.PolicyInstall
import Verif.Props.FetchedSummary
import Verif.Props.HopsReadTw
import Verif.Props.PowFetch
import Verif.Props.Whole
import Verif.Props.Refused
import Verif.Props.Truth
import Verif.Props.HopsRead
