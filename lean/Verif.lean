import Verif.Conformance.Host
import Verif.Conformance.Rest
import Verif.Conformance.Settings
import Verif.Conformance.StreamInput
import Verif.Conformance.StreamOutput
import Verif.Conformance.Transport
import Verif.Lemmas.Bits
import Verif.Lemmas.Dict
import Verif.Lemmas.Display
import Verif.Lemmas.Ensures
import Verif.Lemmas.Float
import Verif.Lemmas.Header
import Verif.Lemmas.Host
import Verif.Lemmas.HostInv
import Verif.Lemmas.HostSends
import Verif.Lemmas.HostState
import Verif.Lemmas.Ieee
import Verif.Lemmas.Int
import Verif.Lemmas.Interp
import Verif.Lemmas.Local
import Verif.Lemmas.Message
import Verif.Lemmas.Messages
import Verif.Lemmas.PassOn
import Verif.Lemmas.Pays
import Verif.Lemmas.Proto
import Verif.Lemmas.ProtoSize
import Verif.Lemmas.ProtoWrite
import Verif.Lemmas.Protobuf
import Verif.Lemmas.Repr
import Verif.Lemmas.Rest
import Verif.Lemmas.Reuse
import Verif.Lemmas.Sample
import Verif.Lemmas.Server
import Verif.Lemmas.Stream
import Verif.Lemmas.Text
import Verif.Lemmas.Utf8
import Verif.Lemmas.Values
import Verif.Lemmas.Varint
import Verif.Lemmas.VarintSpec
import Verif.Model.Address
import Verif.Model.Aliasing
import Verif.Model.Base64
import Verif.Model.Construct
import Verif.Model.Display
import Verif.Model.Edit
import Verif.Model.Handlers
import Verif.Model.Header
import Verif.Model.Host
import Verif.Model.Leave
import Verif.Model.Listen
import Verif.Model.Live
import Verif.Model.Log
import Verif.Model.Message
import Verif.Model.Messages
import Verif.Model.Nested
import Verif.Model.NetworkMessage
import Verif.Model.Points
import Verif.Model.Process
import Verif.Model.Protobuf
import Verif.Model.Reasons
import Verif.Model.Rest
import Verif.Model.Reuse
import Verif.Model.RunLog
import Verif.Model.Samples
import Verif.Model.Scripts
import Verif.Model.Server
import Verif.Model.Setting
import Verif.Model.Settings
import Verif.Model.Sharing
import Verif.Model.StreamInput
import Verif.Model.StreamOutput
import Verif.Model.TimeValue
import Verif.Model.Using
import Verif.Model.Values
import Verif.Model.Version
import Verif.Model.VersionDisplay
import Verif.Model.Within
import Verif.Props.Accept
import Verif.Props.Address
import Verif.Props.Amplification
import Verif.Props.Answered
import Verif.Props.Base64
import Verif.Props.Collections
import Verif.Props.Configured
import Verif.Props.Construct
import Verif.Props.Conversation
import Verif.Props.Decoding
import Verif.Props.Defaults
import Verif.Props.Display
import Verif.Props.Early
import Verif.Props.Edit
import Verif.Props.EditResponse
import Verif.Props.EndSettings
import Verif.Props.Environment
import Verif.Props.Extension
import Verif.Props.Flags
import Verif.Props.Floats
import Verif.Props.Frame
import Verif.Props.Framing
import Verif.Props.Given
import Verif.Props.Glob
import Verif.Props.Handlers
import Verif.Props.Header
import Verif.Props.Headers
import Verif.Props.Ids
import Verif.Props.Independence
import Verif.Props.Init
import Verif.Props.Json
import Verif.Props.JsonExact
import Verif.Props.Leave
import Verif.Props.Lifecycle
import Verif.Props.Lines
import Verif.Props.Listen
import Verif.Props.Live
import Verif.Props.Liveness
import Verif.Props.Log
import Verif.Props.LogDebug
import Verif.Props.Marks
import Verif.Props.Message
import Verif.Props.Messages
import Verif.Props.NodeStrings
import Verif.Props.Numbers
import Verif.Props.Optional
import Verif.Props.Order
import Verif.Props.Parsers
import Verif.Props.PassOn
import Verif.Props.PassOnHost
import Verif.Props.Peers
import Verif.Props.PeersExact
import Verif.Props.Pending
import Verif.Props.Points
import Verif.Props.Primitives
import Verif.Props.Process
import Verif.Props.Proto
import Verif.Props.Protobuf
import Verif.Props.Reasons
import Verif.Props.Requests
import Verif.Props.Rest
import Verif.Props.Reuse
import Verif.Props.RunLog
import Verif.Props.RunLogEnds
import Verif.Props.Samples
import Verif.Props.Scripts
import Verif.Props.Secrets
import Verif.Props.Segments
import Verif.Props.Server
import Verif.Props.Settings
import Verif.Props.Sharing
import Verif.Props.Sorted
import Verif.Props.Texts
import Verif.Props.TimeValue
import Verif.Props.Told
import Verif.Props.Truncation
import Verif.Props.Unbounded
import Verif.Props.Using
import Verif.Props.Version
import Verif.Props.Whole
import Verif.Props.Wire
import Verif.Props.Within
import Verif.Py.Basic
import Verif.Py.Dict
import Verif.Py.Float
import Verif.Py.Fnmatch
import Verif.Py.Int
import Verif.Py.Repr
import Verif.Py.Str
import Verif.Py.Text
import Verif.Spec.Address
import Verif.Spec.Answered
import Verif.Spec.Ascii
import Verif.Spec.Base64
import Verif.Spec.Build
import Verif.Spec.Bytes
import Verif.Spec.Collections
import Verif.Spec.Construct
import Verif.Spec.Context
import Verif.Spec.Decoding
import Verif.Spec.Display
import Verif.Spec.Domains
import Verif.Spec.Edit
import Verif.Spec.Environment
import Verif.Spec.Extension
import Verif.Spec.Flags
import Verif.Spec.Floats
import Verif.Spec.Frames
import Verif.Spec.Generic
import Verif.Spec.Glob
import Verif.Spec.Handlers
import Verif.Spec.Headers
import Verif.Spec.History
import Verif.Spec.Host
import Verif.Spec.Ids
import Verif.Spec.Independence
import Verif.Spec.Json
import Verif.Spec.Leave
import Verif.Spec.Lifecycle
import Verif.Spec.Listen
import Verif.Spec.Live
import Verif.Spec.Liveness
import Verif.Spec.Log
import Verif.Spec.Marks
import Verif.Spec.NodeString
import Verif.Spec.Numbers
import Verif.Spec.PassOn
import Verif.Spec.Peers
import Verif.Spec.Points
import Verif.Spec.Process
import Verif.Spec.Protobuf
import Verif.Spec.Reasons
import Verif.Spec.Reuse
import Verif.Spec.RoundTrip
import Verif.Spec.Routes
import Verif.Spec.RunLog
import Verif.Spec.Sample
import Verif.Spec.Samples
import Verif.Spec.Server
import Verif.Spec.Settings
import Verif.Spec.Sharing
import Verif.Spec.Shown
import Verif.Spec.Single
import Verif.Spec.Template
import Verif.Spec.Text
import Verif.Spec.Trace
import Verif.Spec.Units
import Verif.Spec.Unknown
import Verif.Spec.Using
import Verif.Spec.Varint
import Verif.Spec.Version
import Verif.Spec.Wire
import Verif.Spec.Within
