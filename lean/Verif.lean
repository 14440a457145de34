import Verif.Basic
import Verif.Spec
import Verif.Model.Addr
import Verif.Model.Socket
import Verif.Model.AddrOps
import Verif.Lemmas.Value
import Verif.Lemmas.Mask
import Verif.Lemmas.Net
import Verif.Lemmas.NetType
import Verif.Props.AddrValue
import Verif.Props.AddrMask
import Verif.Props.AddrNet
import Verif.Props.AddrState
import Verif.Props.ProtocolName
import Verif.SpecRange
import Verif.Model.Range
import Verif.Lemmas.Range
import Verif.Props.RangeSet
import Verif.Props.RangeOrder
import Verif.Props.RangeOptimize
import Verif.SpecText
import Verif.Model.InetText
import Verif.Model.AddrText
import Verif.Lemmas.InetText
import Verif.Lemmas.AddrText
import Verif.Props.AddrText
import Verif.Model.Parser
import Verif.Lemmas.Parser
import Verif.Lemmas.ParserSame
import Verif.Lemmas.ParserAgree
import Verif.Lemmas.ParserText
import Verif.Lemmas.ParserAppend
import Verif.Lemmas.ParserList
import Verif.Props.ParserState
import Verif.SpecList
import Verif.Props.ParserList
import Verif.Lemmas.ParserMask
import Verif.Props.ParserMask
import Verif.SpecParse
import Verif.Lemmas.ParserPost
import Verif.Lemmas.ParserSort
import Verif.Props.ParserSort
import Verif.Props.SortFlags
import Verif.SpecParseSafe
import Verif.Lemmas.ParserSafe
import Verif.Props.ParserTotal
import Verif.Props.ParserSource
import Verif.Lemmas.ParserCount
import Verif.Lemmas.ParserPrint
import Verif.Props.ParserCount
import Verif.Props.ParserPrint
import Verif.Props.ParserPrintExact
import Verif.Model.Unix
import Verif.SpecUnix
import Verif.Lemmas.Unix
import Verif.Lemmas.UnixOrder
import Verif.Props.Unix
import Verif.Model.Route
import Verif.SpecRoute
import Verif.Lemmas.Route
import Verif.Props.Route
import Verif.Model.Iface
import Verif.SpecIface
import Verif.Lemmas.Iface
import Verif.Props.Iface
import Verif.Props.IfaceList
import Verif.Model.Ostream
import Verif.SpecOstream
import Verif.Lemmas.Ostream
import Verif.Props.Ostream
import Verif.Model.Validator
import Verif.SpecValidator
import Verif.Lemmas.Validator
import Verif.Lemmas.ValidatorRun
import Verif.Props.Validator
import Verif.SpecStringToAddr
import Verif.Lemmas.StringToAddr
import Verif.Props.StringToAddr
import Verif.Props.ParserPort
import Verif.Model.Tools
import Verif.SpecTools
import Verif.Lemmas.ParserPlain
import Verif.Props.ValidateIp
import Verif.Props.StringToAddrMask
import Verif.Props.ValidateIpMask
import Verif.Props.ValidateIpDefault
import Verif.Lemmas.ToolWords
import Verif.Props.Ifaces
import Verif.Props.RoutesTool
import Verif.Props.ValidatorDefault
import Verif.SpecKernel
import Verif.Props.Sockets
import Verif.SpecAddress
import Verif.SpecEntry
import Verif.Lemmas.InetGrammar
import Verif.Lemmas.Language
import Verif.Props.Language
import Verif.Props.DefaultAddress
import Verif.SpecNetwork
import Verif.Props.AccessList
import Verif.Props.ParserOptions
import Verif.Model.AddrName
import Verif.SpecService
import Verif.Props.AddrName
import Verif.Model.SockaddrOrder
import Verif.SpecSockaddr
import Verif.Props.SockaddrOrder
import Verif.SpecRangeText
import Verif.SpecAccess
import Verif.Lemmas.RangeText
import Verif.Props.RangeText
import Verif.Props.RangePrint
import Verif.Props.RangeDefault
import Verif.SpecMask
import Verif.Lemmas.MaskText
import Verif.Props.MaskText
import Verif.Props.ValidatorLanguage
import Verif.Props.MaskDefault
import Verif.Props.ListLanguage
import Verif.Props.LookupLanguage
import Verif.Lemmas.ParserProtocol
import Verif.Props.ParserProtocol
import Verif.Props.AddressMask
import Verif.Props.CommentList
import Verif.Props.MergeCanonical
import Verif.Props.RangeMask
import Verif.SpecRangeMask
import Verif.Props.OptimizeFix
import Verif.Props.RangeEnum
import Verif.Props.NetworkAlgebra
import Verif.Props.NormalForm
import Verif.SpecMerge
import Verif.Lemmas.MergeNetworks
import Verif.Props.AccessMerge
import Verif.Props.MergeThrows
import Verif.Props.MergeMatches
import Verif.Props.AccessPrint
import Verif.Props.IfaceThreads
import Verif.Props.IfaceCalled
import Verif.Props.OstreamIndex
import Verif.Props.IfaceHeap
import Verif.Props.AccessMergeText
import Verif.Props.IfaceCalls
import Verif.Conformance.Env
import Verif.Conformance.Addr
import Verif.Conformance.Constants
import Verif.Conformance.Parser
import Verif.Conformance.Range
import Verif.Conformance.Unix
import Verif.Conformance.Validator
import Verif.Props.OptimizeFails
import Verif.Props.AccessOptimize
import Verif.Props.EntryOrder
import Verif.Props.MergeEmpty
import Verif.Props.MergeWhole
import Verif.Props.ValidatorRange
import Verif.Props.StringToAddrText
import Verif.Props.ValidatorPrint
import Verif.Props.AddrKeeps
import Verif.Props.RangeHistory
import Verif.Props.NetworkEnum
import Verif.Props.IgnoredFlags
import Verif.Props.AllowMore
import Verif.Props.AllowMoreLookups
import Verif.Lemmas.ParserMore
import Verif.Props.UnixHistory
import Verif.Props.AddrModes
import Verif.Model.IfaceIndex
import Verif.Props.IfaceIndex
import Verif.SpecComplaint
import Verif.Lemmas.ParserSays
import Verif.Props.Complaints
import Verif.SpecBounds
import Verif.Props.LookupRange
import Verif.Props.IfaceHas
import Verif.Props.LookupMask
import Verif.Model.Memory
import Verif.Props.SystemLists
import Verif.Props.ValidatorLookup
import Verif.Props.SortOrder
import Verif.Lemmas.ParserCost
import Verif.Props.ErrorCount
import Verif.SpecRouteColumns
import Verif.Props.RouteColumns
import Verif.Props.DefaultMask
import Verif.SpecCase
import Verif.Lemmas.ParserCase
import Verif.Props.LetterCase
import Verif.Props.AddrShared
import Verif.Props.ValidatorShared
import Verif.Props.Spelling
import Verif.Props.AddEntry
import Verif.Props.Routing
import Verif.Props.Reachable
import Verif.Props.LookupSame
import Verif.Props.NetworkKind
import Verif.Props.ValidatorOrder
import Verif.Props.LookupList
import Verif.Props.LookupAccess
import Verif.Props.ValidatorLookupMask
import Verif.Props.LookupNetworks
import Verif.Props.ListedText
import Verif.Props.CommentNames
import Verif.Props.StringToHost
import Verif.SpecAsked
import Verif.Lemmas.ParserAsked
import Verif.Props.Asked
import Verif.Lemmas.ParserKnown
import Verif.Props.KnownNames
import Verif.Props.Blanks
import Verif.Props.Concat
import Verif.Props.ReadersAgree
import Verif.Props.AnswerOrder
import Verif.Props.MaskNotations
import Verif.Props.AnswerOrderAny
import Verif.Props.AnswerOrderSorted
import Verif.Props.EntryOrderOne
import Verif.Lemmas.ParserOne
import Verif.Props.EntryRepeat
