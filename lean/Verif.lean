import Verif.Model.Client
import Verif.Model.Win
import Verif.Props.RoundTrip
import Verif.Props.Encoding
import Verif.Props.Text
import Verif.Props.Structures
import Verif.Props.Decode
import Verif.Props.Builders
import Verif.Props.Crypto
import Verif.Props.History
import Verif.Props.Names
import Verif.Props.Handshake
import Verif.Props.Session
import Verif.Props.Standard
import Verif.Props.Peer
import Verif.Props.Win
import Verif.Props.WinReuse
import Verif.Props.AbortText
import Verif.Props.Time
import Verif.Prims.Digest
import Verif.Prims.Cipher
import Verif.Check.Vectors
import Verif.Props.Debug
import Verif.Props.Extend
import Verif.Props.Server
import Verif.Props.Edit
import Verif.Props.Exchange
import Verif.Props.Confine
import Verif.Props.Mic
import Verif.Model.Writer
import Verif.Spec.Writer
import Verif.Lemmas.Writer
import Verif.Props.Writer
import Verif.Props.Log
import Verif.Model.Target
import Verif.Spec.Target
import Verif.Lemmas.Target
import Verif.Props.Target
import Verif.Spec.Unique
import Verif.Lemmas.Unique
import Verif.Props.Unique
import Verif.Props.Size
import Verif.Model.Trace
import Verif.Model.AbortText
import Verif.Lemmas.Trace
import Verif.Spec.Report
import Verif.Lemmas.Report
import Verif.Spec.ErrorMap
import Verif.Lemmas.Hom
import Verif.Props.Trace
import Verif.Model.DebugText
import Verif.Lemmas.DebugText
import Verif.Props.DebugText
import Verif.Model.Output
import Verif.Spec.Output
import Verif.Props.Output
import Verif.Model.Level
import Verif.Spec.Level
import Verif.Props.Level
import Verif.Model.Failing
import Verif.Spec.Failing
import Verif.Props.Failing
import Verif.Model.Threads
import Verif.Spec.Threads
import Verif.Props.Threads
import Verif.Model.Memory
import Verif.Spec.Memory
import Verif.Props.Memory
import Verif.Lemmas.Des
import Verif.Props.Replay
import Verif.Spec.Public
import Verif.Props.Public
import Verif.Props.Leak
import Verif.Model.PanicText
import Verif.Spec.PanicText
import Verif.Props.PanicText
import Verif.Spec.Offer
import Verif.Props.Offer
import Verif.Spec.Duties
import Verif.Props.Duties
import Verif.Model.Cost
import Verif.Lemmas.Cost
import Verif.Props.Cost
import Verif.Model.AnyWriter
import Verif.Spec.AnyWriter
import Verif.Lemmas.AnyWriter
import Verif.Props.AnyWriter
import Verif.Model.Calls
import Verif.Spec.Calls
import Verif.Lemmas.Calls
import Verif.Props.Calls
import Verif.Model.Slice
import Verif.Spec.Slice
import Verif.Props.Slice
