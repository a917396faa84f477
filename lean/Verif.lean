import Verif.Model.Res
import Verif.Model.Bytes
import Verif.Model.EnumReflect
import Verif.Model.Traits
import Verif.Model.Special
import Verif.Model.Mon
import Verif.Model.Machine
import Verif.Spec.Values
import Verif.Spec.Pow2
import Verif.Spec.Nested
import Verif.Spec.EnumText
import Verif.Spec.Layout
import Verif.Spec.Optional
import Verif.Spec.ProgOK
import Verif.Lemmas.Bytes
import Verif.Lemmas.EnumRound
import Verif.Lemmas.Traits
import Verif.Lemmas.TraitsLeaf
import Verif.Lemmas.TraitsTy
import Verif.Lemmas.Nested
import Verif.Lemmas.EnumText
import Verif.Lemmas.EnumSentinel
import Verif.Lemmas.MachineObj
import Verif.Lemmas.Sim
import Verif.Props.Levels
import Verif.Props.Patterns
import Verif.Props.EnumReflect
import Verif.Props.Special
import Verif.Lemmas.MachineRun
import Verif.Lemmas.MachineSim
import Verif.Lemmas.MachineOps
import Verif.Model.Api
import Verif.Spec.OptionalApi
import Verif.Lemmas.ApiSim
import Verif.Spec.View
import Verif.Lemmas.View
import Verif.Model.History
import Verif.Spec.History
import Verif.Spec.Lifetime
import Verif.Lemmas.Shape
import Verif.Lemmas.History
import Verif.Lemmas.Harmless
import Verif.Spec.Demo
import Verif.Lemmas.Demo
import Verif.Lemmas.Decide
import Verif.Lemmas.Lifetime
import Verif.Lemmas.SpecRun
import Verif.Spec.ViewApi
import Verif.Lemmas.SpecApi
import Verif.Lemmas.DemoWorld
import Verif.Props.History
import Verif.Props.HistoryExact
import Verif.Props.Machine
import Verif.Props.Api
import Verif.Props.Laws
import Verif.Model.Compare
import Verif.Spec.Order
import Verif.Props.Compare
import Verif.Model.Iter
import Verif.Props.Iter
import Verif.Model.RefOption
import Verif.Spec.RefOption
import Verif.Lemmas.RefOption
import Verif.Props.RefOption
import Verif.Model.Access
import Verif.Spec.Access
import Verif.Props.Access
import Verif.Model.Strategy
import Verif.Spec.Strategy
import Verif.Props.Strategy
import Verif.Model.AsOption
import Verif.Spec.AsOption
import Verif.Lemmas.Tight
import Verif.Props.AsOption
import Verif.Model.NestedOps
import Verif.Lemmas.NestedOps
import Verif.Props.NestedOps
import Verif.Model.Unzip
import Verif.Spec.Unzip
import Verif.Lemmas.Unzip
import Verif.Lemmas.UnzipList
import Verif.Lemmas.UnzipSim
import Verif.Props.Unzip
import Verif.Model.Noexcept
import Verif.Spec.Noexcept
import Verif.Lemmas.Noexcept
import Verif.Props.Noexcept
import Verif.Model.Overload
import Verif.Spec.Overload
import Verif.Props.Overload
import Verif.Props.SelfSource
import Verif.Spec.Propagate
import Verif.Lemmas.Propagate
import Verif.Props.Propagate
import Verif.Model.NestElem
import Verif.Lemmas.NestElem
import Verif.Props.NestElem
import Verif.Model.RefBind
import Verif.Spec.RefBind
import Verif.Props.RefBind
import Verif.Model.Accessor
import Verif.Spec.Accessor
import Verif.Props.Accessor
import Verif.Model.Invoke
import Verif.Spec.Invoke
import Verif.Props.Invoke
import Verif.Spec.Frame
import Verif.Lemmas.Frame
import Verif.Props.Frame
import Verif.Spec.Engaged
import Verif.Lemmas.Engaged
import Verif.Props.Engaged
import Verif.Model.Flatten
import Verif.Spec.Flatten
import Verif.Props.Flatten
import Verif.Model.GetType
import Verif.Props.GetType
import Verif.Model.Braces
import Verif.Props.Braces
import Verif.Model.Typestate
import Verif.Spec.Typestate
import Verif.Props.Typestate
import Verif.Model.Pure
import Verif.Spec.Pure
import Verif.Props.Pure
import Verif.Spec.Checks
import Verif.Lemmas.Checks
import Verif.Props.Checks
import Verif.Spec.IterRange
import Verif.Model.IterProg
import Verif.Lemmas.IterRange
import Verif.Props.IterRange
import Verif.Model.CmpNested
import Verif.Props.CmpNested
import Verif.Model.Build
import Verif.Props.Build
import Verif.Spec.DocTable
import Verif.Props.DocTable
import Verif.Spec.Guide
import Verif.Props.Guide
import Verif.Model.PaddingBits
import Verif.Props.PaddingBits
import Verif.Model.Manual
import Verif.Spec.Manual
import Verif.Props.Manual
import Verif.Model.IntSentinel
import Verif.Spec.IntSentinel
import Verif.Props.IntSentinel
import Verif.Model.Wrapper
import Verif.Spec.Wrapper
import Verif.Props.Wrapper
import Verif.Model.ConstParts
import Verif.Spec.ConstParts
import Verif.Props.ConstParts
import Verif.Spec.Threads
import Verif.Lemmas.Threads
import Verif.Props.Threads
import Verif.Spec.StdOptional
import Verif.Lemmas.StdOptional
import Verif.Lemmas.StdHarmless
import Verif.Props.StdOptional
import Verif.Model.Reentrant
import Verif.Spec.Reentrant
import Verif.Lemmas.Reentrant
import Verif.Lemmas.ReentrantHarmless
import Verif.Props.Reentrant
import Verif.Spec.Init
import Verif.Model.AggInit
import Verif.Lemmas.Init
import Verif.Props.AggInit
import Verif.Model.TupleLike
import Verif.Spec.TupleLike
import Verif.Props.TupleLike
import Verif.Spec.Stable
import Verif.Lemmas.Stable
import Verif.Props.Stable
import Verif.Model.Natvis
import Verif.Spec.Natvis
import Verif.Lemmas.Natvis
import Verif.Props.Natvis
import Verif.Replay.Lifetime
import Verif.Replay.Traits
import Verif.Model.ConstEval
import Verif.Spec.ConstEval
import Verif.Lemmas.ConstEval
import Verif.Lemmas.ConstEvalStep
import Verif.Props.ConstEval
import Verif.Replay.ConstEval
import Verif.Spec.Calm
import Verif.Lemmas.Calm
import Verif.Lemmas.CalmStep
import Verif.Lemmas.CalmClear
import Verif.Props.Calm
import Verif.Spec.Suite
import Verif.Lemmas.Suite
import Verif.Lemmas.SuiteDemo
import Verif.Props.Suite
import Verif.Spec.Stored
import Verif.Lemmas.Stored
import Verif.Props.Stored
import Verif.Model.ResultType
import Verif.Spec.ResultType
import Verif.Props.ResultType
import Verif.Model.X86
import Verif.Model.Codegen
import Verif.Spec.Codegen
import Verif.Lemmas.X86
import Verif.Lemmas.Codegen
import Verif.Props.Codegen
import Verif.Spec.Rep
import Verif.Lemmas.Rep
import Verif.Props.Rep
import Verif.Model.CodegenRun
import Verif.Model.CodegenSample
import Verif.Spec.CodegenRun
import Verif.Lemmas.CodegenRun
import Verif.Lemmas.CodegenSample
import Verif.Props.CodegenRun
import Verif.Spec.CodegenText
import Verif.Lemmas.CodegenText
import Verif.Props.CodegenText
import Verif.Model.CmpSelect
import Verif.Spec.CmpSelect
import Verif.Lemmas.CmpSelect
import Verif.Props.CmpSelect
import Verif.Spec.CodegenLine
import Verif.Lemmas.CodegenLine
import Verif.Props.CodegenLine
import Verif.Model.Alias
import Verif.Spec.Alias
import Verif.Lemmas.Alias
import Verif.Props.Alias
import Verif.Model.Examples
import Verif.Spec.Examples
import Verif.Lemmas.Examples
import Verif.Props.Examples
import Verif.Model.SentinelF
import Verif.Spec.SentinelF
import Verif.Props.SentinelF
import Verif.Spec.FloatOps
import Verif.Lemmas.FloatOps
import Verif.Props.FloatOps
import Verif.Spec.Tagged
import Verif.Props.Tagged
import Verif.Model.Benchmark
import Verif.Spec.Benchmark
import Verif.Props.Benchmark
import Verif.Model.CMake
import Verif.Spec.CMake
import Verif.Props.CMake
import Verif.Spec.DocCode
import Verif.Lemmas.DocCode
import Verif.Props.DocCode
