import Verif.Model.Packet
import Verif.Model.TransportParameters
import Verif.Model.Routing
import Verif.Spec.Wire
import Verif.Proofs.Rd
import Verif.Proofs.Bytes
import Verif.Proofs.VarInt
import Verif.Proofs.Cid
import Verif.Props.VarInt
import Verif.Props.Fixed
import Verif.Props.Frame
import Verif.Props.Header
import Verif.Props.PacketNumber
import Verif.Props.Crypto
import Verif.Props.Packet
import Verif.Props.Decode
import Verif.Props.Conform
import Verif.Props.Profile
import Verif.Props.Endpoint
import Verif.Props.Rules
import Verif.Props.AppData
import Verif.Props.Construct
import Verif.Props.Real
import Verif.Props.Vectors
import Verif.Props.Stale
import Verif.Props.TransportParameters
import Verif.Model.SockHistory
import Verif.Model.Concurrent
import Verif.Props.Routing
import Verif.Props.Concurrent
import Verif.Model.FrameNew
import Verif.Proofs.Fate
import Verif.Props.Exact
import Verif.Props.ExactFrames
import Verif.Props.ExactMore
import Verif.Props.Bounds
import Verif.Props.Identity
import Verif.Proofs.Local
import Verif.Props.Local
import Verif.Props.Numbers
import Verif.Props.Limits
import Verif.Props.Resources
import Verif.Props.Serial
import Verif.Props.Malleable
import Verif.Model.Alloc
import Verif.Props.Alloc
import Verif.Props.Progress
import Verif.Props.Logging
import Verif.Props.Shortest
import Verif.Props.Fairness
import Verif.Props.Application
import Verif.Props.Authentic
import Verif.Props.Keyed
import Verif.Props.Accepted
import Verif.Props.Codes
import Verif.Model.Env
import Verif.Proofs.Env
import Verif.Props.Env
import Verif.Model.Output
import Verif.Model.Random
import Verif.Model.Anywhere
import Verif.Props.Output
import Verif.Model.Debug
import Verif.Proofs.Debug
import Verif.Proofs.DebugTypes
import Verif.Props.Debug
import Verif.Props.DebugKeys
import Verif.Props.AuthenticAll
import Verif.Props.Threads
import Verif.Props.Tools
import Verif.Props.Usage
import Verif.Props.ShortRules
import Verif.Props.Address
import Verif.Props.ExactRest
import Verif.Props.Unique
import Verif.Props.Work
import Verif.Props.Send
import Verif.Props.History
import Verif.Props.Atomic
import Verif.Props.Oracle
import Verif.Props.OracleReal
import Verif.Model.ConnLife
import Verif.Props.Unprotected
import Verif.Props.Heeded
import Verif.Model.WorkOut
import Verif.Proofs.WorkOut
import Verif.Props.WorkOut
import Verif.Props.ExactRouting
import Verif.Props.Network
import Verif.Props.Instances
import Verif.Props.Every
import Verif.Props.Seal
import Verif.Props.Derive
import Verif.Props.Life
import Verif.Props.Build
import Verif.Props.Acked
import Verif.Props.Write
import Verif.Props.Later
import Verif.Props.Ending
import Verif.Props.Small
import Verif.Props.Random
import Verif.Props.Anywhere
import Verif.Proofs.Timing
import Verif.Props.Timing
import Verif.Props.FairAnywhere
import Verif.Props.Shown
import Verif.Props.Spaces
import Verif.Props.Failing
import Verif.Props.Hidden
import Verif.Props.Separate
import Verif.Props.Reuse
import Verif.Props.Broken
import Verif.Props.Meant
import Verif.Props.Concat
import Verif.Props.Padding
import Verif.Props.Cut
import Verif.Props.Pieces
import Verif.Props.Size
import Verif.Props.Fill
import Verif.Props.Beyond
import Verif.Props.Mend
import Verif.Props.Where
