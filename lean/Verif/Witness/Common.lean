import Verif.Props.Abs
import Verif.Props.Adapter
import Verif.Props.AdapterTrace
import Verif.Props.AdvanceAt
import Verif.Props.AgainAt
import Verif.Props.Alloc
import Verif.Props.AnyAdapter
import Verif.Props.AnyArray
import Verif.Props.AnyIter
import Verif.Props.AnyIterMore
import Verif.Props.Arith
import Verif.Props.Base100
import Verif.Props.Bench
import Verif.Props.BenchBound
import Verif.Props.BenchZip
import Verif.Props.BlendTrace
import Verif.Props.Builds
import Verif.Props.BuildsMethods
import Verif.Props.Cast
import Verif.Props.CastIff
import Verif.Props.Checked
import Verif.Props.CheckedExamples
import Verif.Props.Collect
import Verif.Props.CollectAt
import Verif.Props.Consume
import Verif.Props.Debug
import Verif.Props.DebugBuilt
import Verif.Props.DebugCaught
import Verif.Props.DebugSafe
import Verif.Props.Default
import Verif.Props.Destride
import Verif.Props.Docs
import Verif.Props.EndAt
import Verif.Props.EndBlend
import Verif.Props.EndToEnd
import Verif.Props.EndToEndAll
import Verif.Props.Endian
import Verif.Props.Examples
import Verif.Props.Exhaustion
import Verif.Props.Fill
import Verif.Props.FillAllAny
import Verif.Props.FillAny
import Verif.Props.FillAt
import Verif.Props.FillDriver
import Verif.Props.Finalize
import Verif.Props.FinalizePairs
import Verif.Props.Float
import Verif.Props.FloatArith
import Verif.Props.FloatBound
import Verif.Props.FloatCast
import Verif.Props.FloatError
import Verif.Props.FloatSpecial
import Verif.Props.FloatSum
import Verif.Props.FloatTests
import Verif.Props.FloatUse
import Verif.Props.FloatZip
import Verif.Props.ForEach
import Verif.Props.ForEachRest
import Verif.Props.ForLoops
import Verif.Props.Fusion
import Verif.Props.FusionAll
import Verif.Props.Gate
import Verif.Props.Horizontal
import Verif.Props.Impls
import Verif.Props.IntCast
import Verif.Props.IntTests
import Verif.Props.Kernels
import Verif.Props.LenAt
import Verif.Props.Macros
import Verif.Props.MapReduce
import Verif.Props.MaskAt
import Verif.Props.Merge
import Verif.Props.MergeExact
import Verif.Props.NestedStride
import Verif.Props.PassAgain
import Verif.Props.PassAt
import Verif.Props.PassSafe
import Verif.Props.PatternTests
import Verif.Props.Patterns
import Verif.Props.Pipeline
import Verif.Props.Popcnt
import Verif.Props.Portability
import Verif.Props.Position
import Verif.Props.Programs
import Verif.Props.Protocol
import Verif.Props.RawRef
import Verif.Props.ReduceDoc
import Verif.Props.Rounding
import Verif.Props.Select
import Verif.Props.ShortFill
import Verif.Props.Shuffle
import Verif.Props.SizeChange
import Verif.Props.Soft
import Verif.Props.SoftFrom
import Verif.Props.Split
import Verif.Props.StdIter
import Verif.Props.Stride
import Verif.Props.StrideAny
import Verif.Props.StrideTrace
import Verif.Props.StrideZip
import Verif.Props.StrideZipExact
import Verif.Props.StrideZipTrace
import Verif.Props.StridedZipTrace
import Verif.Props.Sum
import Verif.Props.TestPower
import Verif.Props.Tests
import Verif.Props.Trace
import Verif.Props.TraceWrap
import Verif.Props.Transmute
import Verif.Props.UnpackAny
import Verif.Props.Unwind
import Verif.Props.UnwindMore
import Verif.Props.Vec
import Verif.Props.VectorPos
import Verif.Props.Views
import Verif.Props.Zip
import Verif.Props.ZipLanes
import Verif.Props.ZipLengths
import Verif.Props.ZipMany
import Verif.Props.ZipOrder
import Verif.Props.ZipOutcome
import Verif.Props.ZipPositions
import Verif.Props.ZipTrace
import Verif.Props.ZipWidths
import Verif.Props.ZipWidthsMap

/-!
# Concrete collections for the witnesses

The theorems of `Verif/Props` are stated for all collections, positions and
closures. The modules beside this one apply them to concrete ones: the
iterator over the bytes 1 to 5 in vectors of four lanes, at any position, and
the zip of two such iterators.
-/

namespace Faster

/-- The rows of a zip of the bytes 1 to 5 with the bytes 6 to 10. -/
abbrev exRows : List (BitVec 8 × BitVec 8 × Unit) :=
  [(1, 6, ()), (2, 7, ()), (3, 8, ()), (4, 9, ()), (5, 10, ())]

/-- The default row in every lane: zeros. -/
abbrev exDv : Vector (BitVec 8 × BitVec 8 × Unit) 4 := Vector.replicate 4 (0, 0, ())

/-- The first iterator of the zip, at position `p`. -/
abbrev exFirst (p : Nat) : SIMDIter (Slice (BitVec 8) 4) (BitVec 8) 4 :=
  ⟨p, ⟨exRows.map Prod.fst⟩, exDv.map Prod.fst⟩

/-- The other iterators of the zip. -/
abbrev exRest : SIMDIter (Slice (BitVec 8) 4) (BitVec 8) 4 × Unit :=
  (⟨0, ⟨(exRows.map Prod.snd).map Prod.fst⟩, (exDv.map Prod.snd).map Prod.fst⟩, ())

/-- The iterator over the bytes 1 to 5, in vectors of four lanes, at position `p`. -/
abbrev exIter (p : Nat) : SIMDIter (Slice (BitVec 8) 4) (BitVec 8) 4 :=
  ⟨p, ⟨[1, 2, 3, 4, 5]⟩, Vector.replicate 4 0⟩

end Faster
