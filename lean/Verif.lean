import Verif.Conformance
import Verif.Props.Checksum
import Verif.Props.Addr
import Verif.Props.Records
import Verif.Props.Control
import Verif.Props.Packets
import Verif.Props.IP
import Verif.Props.UdpCksum
import Verif.Props.LispData
import Verif.Props.Auth
import Verif.Props.Tree
import Verif.Props.Registry
import Verif.Props.DdtRoot
import Verif.Props.MapServer
import Verif.Props.NetIO
import Verif.Props.XtrId
import Verif.Props.Settings
import Verif.Props.Received
import Verif.Props.Etr
import Verif.Props.Reserialise
import Verif.Props.Stable
import Verif.Props.Rewrite
import Verif.Props.Decap
import Verif.Props.UdpLisp
import Verif.Props.Unprintable
import Verif.Props.Ddt
import Verif.Props.Lispd
import Verif.LispWire
import Verif.Props.Layout
import Verif.Scripts
import Verif.Props.Scripts
import Verif.Startup
import Verif.LispLang
import Verif.LangLemmas
import Verif.Props.Startup
import Verif.Props.Accepted
import Verif.Props.Keepalive
import Verif.DdtText
import Verif.Props.DdtText
import Verif.Geo
import Verif.Props.Geo
import Verif.Props.Canonical
import Verif.Props.Lookup
import Verif.TreeCopy
import Verif.Props.TreeCopy
import Verif.AutoCache
import Verif.Props.AutoCache
import Verif.Props.Leftover
import Verif.Props.Limit
import Verif.LocatorSet
import Verif.Props.LocatorSet
import Verif.Pending
import Verif.Props.Pending
import Verif.ErrLemmas
import Verif.LcafWitness
import Verif.Props.Raised
import Verif.Objects
import Verif.Props.Objects
import Verif.PktObjects
import Verif.Props.PktObjects
import Verif.Props.Handshake
import Verif.Props.LookupTrip
import Verif.ConfigPaths
import Verif.Props.ConfigPaths
import Verif.Dyn
import Verif.Delivery
import Verif.DynRaw
import Verif.SockRace
import Verif.Signals
import Verif.EtrRace
import Verif.Cleanup
import Verif.RtrRace
import Verif.Props.Dyn
import Verif.Props.Delivery
import Verif.Props.DynRaw
import Verif.Props.SockRace
import Verif.Props.Signals
import Verif.Props.EtrRace
import Verif.Props.Cleanup
import Verif.Props.RtrRace
import Verif.Props.Represent
import Verif.Props.Texts
import Verif.DdtAnswers
import Verif.Props.DdtAnswers
import Verif.IPText
import Verif.IPTextLemmas
import Verif.AddrText
import Verif.Props.AddrText
import Verif.Props.AddrCanon
import Verif.Props.DdtFile
import Verif.NodeRepr
import Verif.Props.NodeRepr
import Verif.Shipped
import Verif.Props.Shipped
import Verif.LocUpdate
import Verif.Props.LocUpdate
