import Verif.Base.Bytes
import Verif.Base.Ext
import Verif.Base.Num
import Verif.Conformance.Body
import Verif.Conformance.EndToEnd
import Verif.Conformance.Parser
import Verif.Conformance.Router
import Verif.Conformance.Serializer
import Verif.Conformance.Small
import Verif.Conformance.Suit
import Verif.Model.Address
import Verif.Model.Again
import Verif.Model.App
import Verif.Model.Arena
import Verif.Model.Body
import Verif.Model.BodyMem
import Verif.Model.Callbacks
import Verif.Model.Certs
import Verif.Model.Client
import Verif.Model.Coding
import Verif.Model.Concurrent
import Verif.Model.Config
import Verif.Model.Cookie
import Verif.Model.CookieBuilder
import Verif.Model.Descriptors
import Verif.Model.Escape
import Verif.Model.Examples
import Verif.Model.Files
import Verif.Model.Https
import Verif.Model.Json
import Verif.Model.Maps
import Verif.Model.Method
import Verif.Model.Middleware
import Verif.Model.NilResponse
import Verif.Model.OneResponse
import Verif.Model.Parser
import Verif.Model.Proto
import Verif.Model.Query
import Verif.Model.Radix
import Verif.Model.Recover
import Verif.Model.Request
import Verif.Model.Resource
import Verif.Model.Response
import Verif.Model.ResponseMem
import Verif.Model.Router
import Verif.Model.Serializer
import Verif.Model.Serve
import Verif.Model.Shorthands
import Verif.Model.Static
import Verif.Model.Status
import Verif.Model.Storage
import Verif.Model.Timed
import Verif.Model.UriDecode
import Verif.Model.ValueAccessors
import Verif.Model.Virtual
import Verif.Proofs.Address
import Verif.Proofs.Again
import Verif.Proofs.App
import Verif.Proofs.AppFail
import Verif.Proofs.Body
import Verif.Proofs.Body2
import Verif.Proofs.Body3
import Verif.Proofs.BodyMem
import Verif.Proofs.Chunked
import Verif.Proofs.Concurrent
import Verif.Proofs.Cookie
import Verif.Proofs.Cut
import Verif.Proofs.Deaf
import Verif.Proofs.DeafServe
import Verif.Proofs.DeafWrite
import Verif.Proofs.Exchange
import Verif.Proofs.Fault
import Verif.Proofs.Fault2
import Verif.Proofs.FaultPath
import Verif.Proofs.FaultRead
import Verif.Proofs.FaultSeen
import Verif.Proofs.Kinds
import Verif.Proofs.LongLine
import Verif.Proofs.Maps
import Verif.Proofs.Memory
import Verif.Proofs.Outcome
import Verif.Proofs.Overlong
import Verif.Proofs.ParserBase
import Verif.Proofs.ParserHead
import Verif.Proofs.ParserHead2
import Verif.Proofs.ParserHead3
import Verif.Proofs.ParserHead4
import Verif.Proofs.ParserInv
import Verif.Proofs.ParserLike
import Verif.Proofs.ParserSplit
import Verif.Proofs.ParserSplit2
import Verif.Proofs.ParserSum
import Verif.Proofs.PathSeen
import Verif.Proofs.Proto
import Verif.Proofs.Query
import Verif.Proofs.QueryTotal
import Verif.Proofs.Radix
import Verif.Proofs.Reject
import Verif.Proofs.Response
import Verif.Proofs.Reuse
import Verif.Proofs.Router
import Verif.Proofs.Router2
import Verif.Proofs.Router3
import Verif.Proofs.Router4
import Verif.Proofs.Router5
import Verif.Proofs.Router6
import Verif.Proofs.RouterAll
import Verif.Proofs.RouterCase
import Verif.Proofs.RouterHead
import Verif.Proofs.RouterSame
import Verif.Proofs.Serializer
import Verif.Proofs.Serve
import Verif.Proofs.Serve2
import Verif.Proofs.Serve3
import Verif.Proofs.Serve4
import Verif.Proofs.Serve5
import Verif.Proofs.ServeBody
import Verif.Proofs.ServeParser
import Verif.Proofs.ServeWrite
import Verif.Proofs.Session
import Verif.Proofs.SessionParser
import Verif.Proofs.Static
import Verif.Proofs.Storage
import Verif.Proofs.Stream
import Verif.Proofs.Timed
import Verif.Proofs.Tokens
import Verif.Proofs.Unique
import Verif.Proofs.Uri
import Verif.Proofs.Virtual
import Verif.Proofs.Wire
import Verif.Props.Additions
import Verif.Props.Address
import Verif.Props.Again
import Verif.Props.AnyCase
import Verif.Props.AnyCaseHosts
import Verif.Props.App
import Verif.Props.AppFail
import Verif.Props.AppWitness
import Verif.Props.Arena
import Verif.Props.Behaves
import Verif.Props.Body
import Verif.Props.BodyMem
import Verif.Props.Builder
import Verif.Props.Callbacks
import Verif.Props.Certs
import Verif.Props.Coding
import Verif.Props.Combined
import Verif.Props.Concurrent
import Verif.Props.Config
import Verif.Props.Cookie
import Verif.Props.CookieBuilder
import Verif.Props.Crowd
import Verif.Props.CrowdAny
import Verif.Props.Cut
import Verif.Props.Deaf
import Verif.Props.DeafHosts
import Verif.Props.DefaultLimits
import Verif.Props.Descriptors
import Verif.Props.Escape
import Verif.Props.EscapeExact
import Verif.Props.Every
import Verif.Props.EveryFraming
import Verif.Props.EveryHead
import Verif.Props.EveryHost
import Verif.Props.EveryProgram
import Verif.Props.EveryRouter
import Verif.Props.EveryWitness
import Verif.Props.Examples
import Verif.Props.FaultRead
import Verif.Props.FileBuffer
import Verif.Props.Files
import Verif.Props.Framing
import Verif.Props.Garbled
import Verif.Props.HeadHosts
import Verif.Props.HeadLike
import Verif.Props.Hijack
import Verif.Props.Hosts
import Verif.Props.Https
import Verif.Props.Json
import Verif.Props.Kinds
import Verif.Props.KindsWitness
import Verif.Props.LastRead
import Verif.Props.Maps
import Verif.Props.Middleware
import Verif.Props.NewHost
import Verif.Props.NewRoute
import Verif.Props.NilResponse
import Verif.Props.OneResponse
import Verif.Props.Outcome
import Verif.Props.Overlong
import Verif.Props.Parser
import Verif.Props.Paths
import Verif.Props.Program
import Verif.Props.Query
import Verif.Props.QueryRaw
import Verif.Props.QueryTotal
import Verif.Props.Radix
import Verif.Props.RadixExact
import Verif.Props.Recover
import Verif.Props.Rejected
import Verif.Props.RejectedApp
import Verif.Props.Reorder
import Verif.Props.Replies
import Verif.Props.Resource
import Verif.Props.Response
import Verif.Props.ResponseMem
import Verif.Props.Reuse
import Verif.Props.ReuseProgram
import Verif.Props.RootMiddlewares
import Verif.Props.Router
import Verif.Props.RouterTotal
import Verif.Props.RouterVars
import Verif.Props.Same
import Verif.Props.SameHosts
import Verif.Props.SameProgram
import Verif.Props.Serve
import Verif.Props.Serve2
import Verif.Props.ServeWitness
import Verif.Props.Session
import Verif.Props.SessionHosts
import Verif.Props.SessionProgram
import Verif.Props.Shorthands
import Verif.Props.Site
import Verif.Props.Spelling
import Verif.Props.Static
import Verif.Props.StatusNames
import Verif.Props.Storage
import Verif.Props.Timed
import Verif.Props.Tokens
import Verif.Props.TraceWire
import Verif.Props.Upgrade
import Verif.Props.Uri
import Verif.Props.ValueAccessors
import Verif.Props.Virtual
import Verif.Props.Wire
import Verif.Spec.Additions
import Verif.Spec.Address
import Verif.Spec.AnyCase
import Verif.Spec.App
import Verif.Spec.Arena
import Verif.Spec.Body
import Verif.Spec.BodyMem
import Verif.Spec.Builder
import Verif.Spec.Certs
import Verif.Spec.Chunked
import Verif.Spec.Combined
import Verif.Spec.Cookie
import Verif.Spec.CookieBuilder
import Verif.Spec.Cut
import Verif.Spec.Deaf
import Verif.Spec.Descriptors
import Verif.Spec.Every
import Verif.Spec.EveryHost
import Verif.Spec.EveryProgram
import Verif.Spec.EveryRouter
import Verif.Spec.Exchange
import Verif.Spec.Fault
import Verif.Spec.Files
import Verif.Spec.Form
import Verif.Spec.Head
import Verif.Spec.HeadLike
import Verif.Spec.Hosts
import Verif.Spec.Https
import Verif.Spec.Json
import Verif.Spec.Kinds
import Verif.Spec.Multimap
import Verif.Spec.NewRoute
import Verif.Spec.OneResponse
import Verif.Spec.Outcome
import Verif.Spec.Overlong
import Verif.Spec.Paths
import Verif.Spec.Program
import Verif.Spec.Radix
import Verif.Spec.RadixExact
import Verif.Spec.Reject
import Verif.Spec.Rejected
import Verif.Spec.Reorder
import Verif.Spec.Replies
import Verif.Spec.Response
import Verif.Spec.ResponseMem
import Verif.Spec.Reuse
import Verif.Spec.Router
import Verif.Spec.Same
import Verif.Spec.Serve
import Verif.Spec.Session
import Verif.Spec.Site
import Verif.Spec.Spelling
import Verif.Spec.Static
import Verif.Spec.Timed
import Verif.Spec.Tokens
import Verif.Spec.Uri
import Verif.Spec.Utf8
import Verif.Spec.Virtual
import Verif.Spec.Wire
