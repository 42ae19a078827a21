import Verif.Prop.Util
import Verif.Prop.SimdArray
import Verif.Prop.SimdArrayMove
import Verif.Prop.Where
import Verif.Prop.SimdCast
import Verif.Prop.SimdMask
import Verif.Prop.Gather
import Verif.Prop.Memory
import Verif.Prop.Algorithms
import Verif.Prop.Bits
import Verif.Prop.Iterators
import Verif.Prop.GatherScatter
import Verif.Prop.Cpuid
import Verif.Prop.SseInt
import Verif.Prop.SseMask
import Verif.Prop.SseShuffle
import Verif.Prop.SseReduce
import Verif.Prop.SseDiv
import Verif.Prop.FloatBits
import Verif.Prop.Random
import Verif.Prop.FloatRound
import Verif.Prop.SortNet
import Verif.Model.Interleave
import Verif.Model.Subscript
import Verif.Spec.Interleave
import Verif.Spec.Subscript
import Verif.Lemma.Interleave
import Verif.Lemma.InterleaveW
import Verif.Lemma.InterleaveR
import Verif.Lemma.InterleaveP
import Verif.Lemma.Subscript
import Verif.Prop.Interleave
import Verif.Prop.Subscript
import Verif.Model.Simdize
import Verif.Model.SimdizeType
import Verif.Model.SimdizeIter
import Verif.Spec.Simdize
import Verif.Lemma.Simdize
import Verif.Prop.Simdize
import Verif.Prop.SimdizeType
import Verif.Prop.SimdizeIter
import Verif.Prop.FloatExp
import Verif.Prop.FloatCvt
import Verif.Prop.FloatCastOffset
import Verif.Prop.AvxDiv
import Verif.Prop.AvxMask
import Verif.Prop.AvxShuffle
import Verif.Prop.Masked
import Verif.Prop.Fma
import Verif.Prop.Transpose
import Verif.Prop.Deinterleave
import Verif.Prop.AvxCast
import Verif.Prop.GatherAvx2
import Verif.Prop.AvxInt
import Verif.Prop.AvxReduce
import Verif.Prop.AvxIndex
import Verif.Spec.LoadStore
import Verif.Model.LoadStore
import Verif.Lemma.LoadStore
import Verif.Lemma.Store
import Verif.Prop.Load
import Verif.Prop.Store
import Verif.Spec.Allocator
import Verif.Model.Allocator
import Verif.Lemma.Allocator
import Verif.Prop.Allocator
import Verif.Spec.MakeContainer
import Verif.Model.MakeContainer
import Verif.Prop.MakeContainer
import Verif.Spec.FloatReal
import Verif.Spec.Ulp
import Verif.Model.Exp
import Verif.Lemma.FloatReal
import Verif.Lemma.FloatReal2
import Verif.Lemma.ExpReal
import Verif.Lemma.ExpF
import Verif.Lemma.ExpF2
import Verif.Lemma.ExpF3
import Verif.Lemma.ExpF4
import Verif.Lemma.ExpF5
import Verif.Lemma.ExpD
import Verif.Lemma.ExpD2
import Verif.Prop.Exp
import Verif.Lemma.Cheb
import Verif.Lemma.RelApx
import Verif.Model.Log
import Verif.Lemma.LogLane
import Verif.Lemma.LogRed
import Verif.Lemma.LogSeries
import Verif.Lemma.LogConst
import Verif.Lemma.LogF
import Verif.Lemma.LogD
import Verif.Lemma.LogL
import Verif.Prop.Log
import Verif.Spec.Trig
import Verif.Model.Trig
import Verif.Lemma.TrigLane
import Verif.Lemma.TrigSign
import Verif.Prop.Trig
import Verif.Lemma.PiDigits
import Verif.Lemma.TrigReal
import Verif.Lemma.TrigBase
import Verif.Lemma.TrigSerF
import Verif.Lemma.TrigSerD
import Verif.Lemma.TrigRed
import Verif.Lemma.TrigFoldD
import Verif.Lemma.TrigFoldD2
import Verif.Lemma.TrigFoldF
import Verif.Lemma.TrigEnd
import Verif.Lemma.TrigRel
import Verif.Lemma.TrigSmall
import Verif.Prop.TrigAcc
import Verif.Prop.TrigDoc
import Verif.Spec.Arc
import Verif.Model.Arc
import Verif.Lemma.ArcLane
import Verif.Lemma.ArcSpecial
import Verif.Prop.Arc
import Verif.Lemma.AtanReal
import Verif.Lemma.RelBound
import Verif.Lemma.AtanBase
import Verif.Lemma.AtanSerF
import Verif.Lemma.AtanF
import Verif.Lemma.AtanF2
import Verif.Lemma.AtanSerD
import Verif.Lemma.AtanD
import Verif.Prop.ArcAcc
import Verif.Lemma.Atan2Real
import Verif.Lemma.Atan2Acc
import Verif.Prop.ArcAcc2
import Verif.Model.Asin
import Verif.Lemma.AsinLane
import Verif.Lemma.AsinSpecial
import Verif.Lemma.Sqrt
import Verif.Lemma.AsinReal
import Verif.Lemma.AsinBase
import Verif.Lemma.AsinSerF
import Verif.Lemma.AsinSerD
import Verif.Lemma.AsinF
import Verif.Lemma.AsinD
import Verif.Prop.Asin
import Verif.Prop.AsinAcc
import Verif.Lemma.Enc
import Verif.Lemma.LogDoc
import Verif.Lemma.LogCell
import Verif.Lemma.LogAccF
import Verif.Lemma.LogAccD
import Verif.Lemma.LogTwo
import Verif.Lemma.LogTwoI
import Verif.Lemma.LogTen
import Verif.Prop.LogAcc
import Verif.Model.MixedOp
import Verif.Spec.Cpp
import Verif.Prop.MixedOp
import Verif.Model.Recip
import Verif.Spec.Recip
import Verif.Lemma.Recip
import Verif.Prop.Recip
import Verif.Model.Span
import Verif.Prop.Span
import Verif.Model.FloatSum
import Verif.Spec.FloatSum
import Verif.Lemma.FloatSum
import Verif.Prop.FloatSum
import Verif.Model.Apply
import Verif.Spec.Apply
import Verif.Lemma.Apply
import Verif.Prop.Apply
import Verif.Spec.Reference
import Verif.Model.ElementRef
import Verif.Prop.ElementRef
import Verif.Model.Io
import Verif.Spec.Io
import Verif.Prop.Io
import Verif.Model.Logical
import Verif.Spec.Logical
import Verif.Prop.Logical
import Verif.Model.Shift
import Verif.Spec.Shift
import Verif.Prop.Shift
import Verif.Model.NewDelete
import Verif.Spec.NewDelete
import Verif.Prop.NewDelete
import Verif.Model.Version
import Verif.Prop.Version
import Verif.Model.VcArray
import Verif.Spec.VcArray
import Verif.Prop.VcArray
import Verif.Model.Containers
import Verif.Prop.Containers
import Verif.Model.Constants
import Verif.Spec.Constants
import Verif.Prop.Constants
import Verif.Model.CpuidLeaf2
import Verif.Spec.CpuidLeaf2
import Verif.Prop.CpuidLeaf2
import Verif.Model.LsFlags
import Verif.Spec.LsFlags
import Verif.Prop.LsFlags
import Verif.Model.IndexArg
import Verif.Spec.IndexArg
import Verif.Prop.IndexArg
import Verif.Model.Limits
import Verif.Spec.Limits
import Verif.Prop.Limits
import Verif.Model.Functor
import Verif.Spec.Functor
import Verif.Prop.Functor
import Verif.Model.ImplSelect
import Verif.Spec.ImplSelect
import Verif.Lemma.ImplSelect
import Verif.Prop.ImplSelect
import Verif.Model.SetLanes
import Verif.Spec.SetLanes
import Verif.Lemma.SetLanes
import Verif.Prop.SetLanes
import Verif.Model.MaskReduce
import Verif.Prop.MaskReduce
import Verif.Model.Classify
import Verif.Spec.Classify
import Verif.Prop.Classify
import Verif.Model.TieGather
import Verif.Prop.TieGather
import Verif.Model.ExpSplit
import Verif.Prop.ExpSplit
import Verif.Model.GatherSet
import Verif.Prop.GatherSet
import Verif.Spec.TypeTraits
import Verif.Model.TypeTraits
import Verif.Prop.TypeTraits
