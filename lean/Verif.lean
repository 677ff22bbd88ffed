import Verif.Props.Parse
import Verif.Props.Lists
import Verif.Props.ConnWrite
import Verif.Props.ConnRead
import Verif.Lemmas.ConnRead
import Verif.Props.Hash
import Verif.Model.ConnRead
import Verif.Spec.Lines
import Verif.Props.Array
import Verif.Lemmas.Array
import Verif.Props.Match
import Verif.Props.Str
import Verif.Model.Events
import Verif.Lemmas.Acts
import Verif.Props.Dispatch
import Verif.Lemmas.Base
import Verif.Props.Queries
import Verif.Props.Secret
import Verif.Props.Registration
import Verif.Props.Registry
import Verif.Props.Prefix
import Verif.Props.Links
import Verif.Props.Oper
import Verif.Spec.SamplePolite
import Verif.Props.UserModes
import Verif.Props.Join
import Verif.Props.ChanModes
import Verif.Props.Counters
import Verif.Props.Conns
import Verif.Props.Whowas
import Verif.Props.Kick
import Verif.Props.Topic
import Verif.Props.Messages
import Verif.Props.Targets
import Verif.Props.Notify
import Verif.Props.IpAddr
import Verif.Props.ServerLink
import Verif.Props.Kill
import Verif.Props.Stay
import Verif.Props.Announce
import Verif.Props.JoinTold
import Verif.Props.Wallops
import Verif.Props.Invite
import Verif.Props.ModeTold
import Verif.Props.UserTold
import Verif.Props.Webirc
import Verif.Props.Welcome
import Verif.Props.Burst
import Verif.Props.Answers
import Verif.Props.Online
import Verif.Props.Who
import Verif.Props.Whois
import Verif.Props.Netsplit
import Verif.Props.Introduce
import Verif.Props.Relay
import Verif.Props.Forward
import Verif.Props.NetInfo
import Verif.Props.Metadata
import Verif.Props.Chaninfo
import Verif.Props.Njoin
import Verif.Props.NoCrash
import Verif.Props.LineBan
import Verif.Props.Dial
import Verif.Props.ConfFile
import Verif.Props.ConfRange
import Verif.Props.ConfSafe
import Verif.Props.Refuse
import Verif.Props.Ping
import Verif.Props.OperCmd
import Verif.Props.ModeLocal
import Verif.Props.Predef
import Verif.Props.Resolve
import Verif.Props.Io
import Verif.Props.Encoding
import Verif.Props.Start
import Verif.Props.Signals
import Verif.Props.Zip
import Verif.Props.Tls
import Verif.Props.Snprintf
import Verif.Props.Help
