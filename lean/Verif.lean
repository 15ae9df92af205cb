import Verif.Lemmas.Samples
import Verif.Model.Basic
import Verif.Model.Unicode
import Verif.Model.V4
import Verif.Lemmas.V4
import Verif.Model.Bytes
import Verif.Lemmas.Bytes
import Verif.Props.V4
import Verif.Model.V6
import Verif.Props.FixedString
import Verif.Props.V6Text
import Verif.Props.U128
import Verif.Props.V6Addr
import Verif.Props.Unicode
import Verif.Props.Net
import Verif.Props.NetText
import Verif.Props.NetIter
import Verif.Props.Class
import Verif.Props.ClassNet
import Verif.Props.Throw
import Verif.Props.AnyNet
import Verif.Props.AnyNetIter
import Verif.Model.Stream
import Verif.Spec.Stream
import Verif.Lemmas.Stream
import Verif.Props.Stream
import Verif.Model.AnyAddr
import Verif.Model.Compare
import Verif.Spec.Compare
import Verif.Lemmas.Compare
import Verif.Props.AnyAddr
import Verif.Props.Compare
import Verif.Model.Float
import Verif.Model.U128Ops
import Verif.Spec.Float
import Verif.Spec.U128Ops
import Verif.Lemmas.Float
import Verif.Props.Float
import Verif.Props.U128Ops
import Verif.Model.Texts
import Verif.Props.Texts
import Verif.Model.Report
import Verif.Spec.Report
import Verif.Lemmas.Report
import Verif.Props.Report
import Verif.Model.Const
import Verif.Spec.Const
import Verif.Props.Const
import Verif.Model.Containers
import Verif.Spec.Containers
import Verif.Props.Containers
import Verif.Model.Hash32
import Verif.Spec.Hash
import Verif.Lemmas.Hash
import Verif.Props.Hash
import Verif.Props.Hash32
import Verif.Model.Scope
import Verif.Props.Scope
import Verif.Props.Endian
import Verif.Props.EndianMirror
import Verif.Props.EndianCount
import Verif.Props.EndianHosts
import Verif.Props.StreamFull
import Verif.Props.StreamSpaces
import Verif.Props.NetLaws
import Verif.Props.StdAlgo
import Verif.Props.V6Nul
import Verif.Props.NetTaken
import Verif.Props.Utf8Loose
import Verif.Props.LooseLess
import Verif.Props.NulText
import Verif.Props.Rest
import Verif.Props.Reverse
import Verif.Props.Leftover
import Verif.Model.Union
import Verif.Spec.Union
import Verif.Props.Union
import Verif.Model.Config
import Verif.Spec.Config
import Verif.Props.Config
import Verif.Spec.Message
import Verif.Lemmas.Message
import Verif.Props.Message
import Verif.Spec.Diag4
import Verif.Lemmas.Diag4
import Verif.Props.Diag4
import Verif.Spec.Diag6
import Verif.Lemmas.Diag6
import Verif.Lemmas.Diag6Shape
import Verif.Props.Diag6
import Verif.Spec.DiagNet
import Verif.Lemmas.DiagNet
import Verif.Props.DiagNet
import Verif.Props.DiagAny
import Verif.Model.Program
import Verif.Spec.Program
import Verif.Lemmas.Program
import Verif.Props.Program
import Verif.Spec.ScopeText
import Verif.Props.ScopeText
import Verif.Spec.Undefined
import Verif.Lemmas.Undefined
import Verif.Props.Undefined
import Verif.Model.FloatIn
import Verif.Spec.FloatIn
import Verif.Lemmas.FloatIn
import Verif.Props.FloatIn
import Verif.Model.UProgram
import Verif.Spec.UProgram
import Verif.Props.UProgram
import Verif.Model.StaticInit
import Verif.Spec.StaticInit
import Verif.Lemmas.StaticInit
import Verif.Props.StaticInit
import Verif.Props.Exact
import Verif.Model.Pointers
import Verif.Spec.Pointers
import Verif.Lemmas.Pointers
import Verif.Lemmas.PointersLoop
import Verif.Lemmas.PointersV6
import Verif.Lemmas.CodesWrong
import Verif.Lemmas.PointersNet
import Verif.Lemmas.PointersFixed
import Verif.Lemmas.PointersText
import Verif.Lemmas.PointersPlace
import Verif.Props.Pointers
import Verif.Model.Locale
import Verif.Spec.Locale
import Verif.Lemmas.Locale
import Verif.Props.Locale
import Verif.Vectors.Check
import Verif.Vectors.V4
import Verif.Vectors.V6
import Verif.Vectors.V6Invalid
import Verif.Vectors.Net4
import Verif.Vectors.Net6
import Verif.Vectors.Any
import Verif.Vectors.Misc
import Verif.Vectors.Doc
import Verif.Model.AnyProgram
import Verif.Spec.AnyProgram
import Verif.Lemmas.AnyProgram
import Verif.Lemmas.AnyHeld
import Verif.Props.AnyProgram
import Verif.Props.ExcludeEmpty
import Verif.Spec.AnyUndefined
import Verif.Lemmas.AnyUndefined
import Verif.Props.AnyUndefined
import Verif.Model.LiteralEnv
import Verif.Spec.LiteralEnv
import Verif.Lemmas.LiteralEnv
import Verif.Props.LiteralEnv
import Verif.Spec.ExcludeCtor
import Verif.Lemmas.ExcludeCtor
import Verif.Props.ExcludeCtor
import Verif.Props.SubnetsExact
import Verif.Spec.ScopedNet
import Verif.Props.ScopedNet
import Verif.Lemmas.PointersZone
import Verif.Props.UndefinedAll
import Verif.Props.AnyUndefinedAll
import Verif.Spec.Refs
import Verif.Props.Refs
import Verif.Props.WrapExact
import Verif.Model.Lifetimes
import Verif.Spec.Lifetimes
import Verif.Lemmas.Lifetimes
import Verif.Lemmas.LifetimesSim
import Verif.Props.Lifetimes
import Verif.Spec.Tables
import Verif.Lemmas.Tables
import Verif.Lemmas.TablesLaw
import Verif.Props.Tables
import Verif.Spec.Pools
import Verif.Lemmas.Pools
import Verif.Props.Pools
import Verif.Model.Narrow
import Verif.Spec.Narrow
import Verif.Lemmas.Narrow
import Verif.Props.Narrow
import Verif.Model.LiteralQuiet
import Verif.Spec.LiteralQuiet
import Verif.Lemmas.LiteralQuiet
import Verif.Props.LiteralQuiet
import Verif.Spec.Keyed
import Verif.Lemmas.Keyed
import Verif.Props.Keyed
import Verif.Props.StreamWide
import Verif.Model.Ask
import Verif.Lemmas.FamHom
import Verif.Lemmas.Leftover
import Verif.Spec.Alike
import Verif.Props.Alike
import Verif.Lemmas.Steps
import Verif.Props.AnySwap
import Verif.Model.AnyAsk
import Verif.Lemmas.AnyLeftover
import Verif.Spec.AnyAlike
import Verif.Lemmas.AnySteps
import Verif.Props.AnyAlike
import Verif.Model.V6Host
import Verif.Spec.V6Host
import Verif.Lemmas.V6Host
import Verif.Model.WideShort
import Verif.Props.WideShort
import Verif.Props.Answers
import Verif.Model.StreamWords
import Verif.Spec.StreamWords
import Verif.Lemmas.StreamWords
import Verif.Props.StreamWords
import Verif.Props.EndianSubnets
