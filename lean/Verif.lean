import Verif.Props.Collect
import Verif.Props.Fill
import Verif.Props.ForEach
import Verif.Props.Position
import Verif.Props.Vec
import Verif.Props.Views
import Verif.Props.Fusion
import Verif.Props.Adapter
import Verif.Props.AdapterTrace
import Verif.Props.Stride
import Verif.Props.Zip
import Verif.Props.StrideZip
import Verif.Props.Merge
import Verif.Props.Shuffle
import Verif.Props.Transmute
import Verif.Props.Arith
import Verif.Props.Horizontal
import Verif.Props.Abs
import Verif.Props.Cast
import Verif.Props.Sum
import Verif.Props.Popcnt
import Verif.Props.Soft
import Verif.Props.Select
import Verif.Props.FloatSum
import Verif.Props.Gate
import Verif.Props.Float
import Verif.Props.Rounding
import Verif.Props.EndToEnd
import Verif.Props.Trace
import Verif.Props.StrideTrace
import Verif.Props.DebugSafe
import Verif.Props.DebugBuilt
import Verif.Props.EndBlend
import Verif.Props.BlendTrace
import Verif.Programs
import Verif.Props.Kernels
import Verif.Props.Programs
import Verif.Props.Destride
import Verif.Props.ZipTrace
import Verif.Props.PassSafe
import Verif.Props.Pipeline
import Verif.Props.Portability
import Verif.Debug
import Verif.Props.Debug
import Verif.Props.SoftFrom
import Verif.Props.ShortFill
import Verif.Props.StrideZipTrace
import Verif.Props.Base100
import Verif.Base100Soft
import Verif.Props.Base100Soft
import Verif.Props.ZipLanes
import Verif.Props.ZipLengths
import Verif.Props.Examples
import Verif.Props.FloatArith
import Verif.Props.FloatCast
import Verif.Props.FloatUse
import Verif.Bench
import Verif.Props.FloatError
import Verif.Props.Bench
import Verif.BenchZip
import Verif.Props.BenchZip
import Verif.Props.FloatBound
import Verif.Props.FloatZip
import Verif.Tests
import Verif.Props.Tests
import Verif.Intrin.Endian
import Verif.Props.Endian
import Verif.Intrin.PatternTables
import Verif.Intrin.Patterns
import Verif.Props.Patterns
import Verif.Props.Docs
import Verif.MacroTables
import Verif.Macros
import Verif.Props.Macros
import Verif.Unwind
import Verif.Props.Unwind
import Verif.Props.UnwindMore
import Verif.Props.Split
import Verif.Props.VectorPos
import Verif.SoftCast
import Verif.Props.IntCast
import Verif.Props.Protocol
import Verif.Intrin.ImplTables
import Verif.Props.Impls
import Verif.Props.TableTypes
import Verif.FloatTests
import Verif.Props.FloatTests
import Verif.IntTests
import Verif.Props.IntTests
import Verif.ForLoops
import Verif.Props.ForLoops
import Verif.PatternTests
import Verif.Props.PatternTests
import Verif.Props.SizeChange
import Verif.Props.FillAny
import Verif.Props.FillDriver
import Verif.Props.CollectAt
import Verif.Props.FillAt
import Verif.Props.EndAt
import Verif.Props.PassAt
import Verif.Props.MergeExact
import Verif.Props.CastIff
import Verif.Props.AgainAt
import Verif.Props.LenAt
import Verif.Props.FillAllAny
import Verif.Props.Finalize
import Verif.Props.MaskAt
import Verif.Props.EndToEndAll
import Verif.Props.StrideAny
import Verif.Props.TestPower
import Verif.Props.FinalizePairs
import Verif.Props.Exhaustion
import Verif.Props.ForEachRest
import Verif.Props.UnpackAny
import Verif.Props.ZipPositions
import Verif.UnwindAll
import Verif.Props.DebugCaught
import Verif.Props.PassAgain
import Verif.Props.Builds
import Verif.Props.BuildsMethods
import Verif.Props.ZipWidths
import Verif.Props.ZipOutcome
import Verif.StdIter
import Verif.Props.StdIter
import Verif.Props.FusionAll
import Verif.SoftExamples
import Verif.Props.Checked
import Verif.Props.CheckedExamples
import Verif.Props.CheckedPairs
import Verif.Props.CheckedForEach
import Verif.BenchZipSoft
import Verif.Props.BenchZipSoft
import Verif.Props.AnyArray
import Verif.Props.NestedStride
import Verif.Props.AnyAdapter
import Verif.Props.StridedZipTrace
import Verif.Props.StridedZipAny
import Verif.Props.ZipRuns
import Verif.Props.ReduceDoc
import Verif.Props.Consume
import Verif.RawRef
import Verif.Props.RawRef
import Verif.Alloc
import Verif.Props.Alloc
import Verif.Props.AnyIter
import Verif.Props.AnyIterMore
import Verif.Props.Default
import Verif.Props.StrideZipExact
import Verif.Props.StrideZipRuns
import Verif.Props.BenchBound
import Verif.Props.ZipMany
import Verif.Props.FloatSpecial
import Verif.Props.FloatQuiet
import Verif.Props.Staged
import Verif.Props.StagedAll
import Verif.Props.InPlace
import Verif.Props.StrideReduce
import Verif.Props.CountEqual
import Verif.Props.Extreme
import Verif.Props.SatSum
import Verif.Props.FloatExtreme
import Verif.Props.CompareSlices
import Verif.Props.BitCount
import Verif.Props.Product
import Verif.Props.ZipSelf
import Verif.Props.SliceSum
import Verif.Props.LaneTotals
import Verif.Props.SoftSum
import Verif.Props.StrideCopy
import Verif.Props.UpcastSum
import Verif.Props.SoftProduct
import Verif.Props.FlipSlice
import Verif.Props.LaneNumbers
import Verif.Props.Unrolled
import Verif.Props.Accumulators
import Verif.Props.AbsDiff
import Verif.Props.CountBound
import Verif.Props.SoftAccumulators
import Verif.Props.FloatAccumulators
import Verif.Props.DotProduct
import Verif.Props.SatAccumulators
import Verif.Props.ExtremeAccumulators
import Verif.Props.SumSquares
import Verif.Props.AdvanceAt
import Verif.Props.ZipWidthsMap
import Verif.Props.MapReduce
import Verif.Props.ZipOrder
import Verif.Props.TraceWrap
import Verif.Witness.Common
import Verif.Witness.W01
import Verif.Witness.W02
import Verif.Witness.W03
import Verif.Witness.W04
import Verif.Witness.W05
import Verif.Witness.W06
import Verif.Witness.W07
import Verif.Witness.W08
import Verif.Witness.W09
import Verif.Witness.W10
import Verif.Witness.W11
import Verif.Witness.W12
import Verif.Witness.Floats
import Verif.Witness.Ops
import Verif.Witness.Iters
import Verif.Witness.Pipes
import Verif.Witness.Orders
import Verif.Witness.Staged
