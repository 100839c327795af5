# Formal model of `faster` in Lean 4 — design

## What is modelled

The source is `/repo` (AdamNiederer/faster). Nothing was built or run; the model was
written by reading the text. Every definition cites the file and lines it models.

* `Verif/Prim.lean` — outcomes, machine integers, slices, `Vec` buffers.
  * `Res α = ok a | panic | ub | hang`. `panic` is a Rust panic, `ub` an out-of-bounds
    access (or other contract violation) made by an `unsafe` operation, `hang` means that
    a loop was still running when the fuel of the model ran out.
  * `Cfg` has the build profile (`debug`: `debug_assert!` and overflow checks on) and the
    size of the `usize` range. All `usize` arithmetic of the iterator code goes through
    `uadd/usub/umul/udiv`, which panic on overflow in debug builds and wrap in release
    builds. So a theorem "`= ok x` for every `Cfg`" says: no panic, no undefined
    behaviour, right value, in both profiles and for all pointer sizes.
  * A slice is a `List α`; a vector is a `Vector α w`, for an arbitrary width `w`;
    a `Vec` under construction has cells `Option α` (`none` = uninitialised).
* `Verif/Packed.lean` — `Packed` trait methods (`src/vecs.rs`), merge fallback.
* `Verif/Iters.lean` — traits of `src/iters.rs` as type classes (same default methods and
  blanket impls), `SIMDIter`, `SIMDMap`, `Unpacked`, `Unrolled`, `SIMDAdapter`,
  `simd_do_each`, `simd_reduce`, `simd_for_each`, `IntoScalar`.
* `Verif/Stride.lean` — `PackedStride` and the `stride*` constructors (`src/stride.rs`).
* `Verif/Zip.lean` — `Zip`, `SIMDZipMap` and the zipped consumers (`src/zip.rs`). The
  macro-generated tuples of every arity are one driving iterator and a nested pair list of
  followers (`ZipRest`), which is the structure of the macro text.
* `Verif/StrideZip.lean` — `src/stride_zip.rs`.
* `Verif/EndBlend.lean` — `end`, `end_unchecked` and `end` of zips compiled for SSE4.1/AVX2
  (`Verif/Iters.lean` and `Verif/Zip.lean` use the fallback of `merge_partitioned`; C80 says
  where that makes a difference).
* `Verif/Bench.lean` — the float programs of `benches/intrin.rs`, `benches/usage.rs` and
  `examples/main.rs`.
* `Verif/BenchZip.lean` — the zip programs of `benches/usage.rs` and their scalar loops.
* `Verif/Tests.lean` — the programs of `tests/iters.rs` and `tests/kernel.rs` on any slices.
* `Verif/Programs.lean` — the loops of the benches (`benches/usage.rs`,
  `benches/destride.rs`) which use an iterator or `unroll` in a `for` loop.
* `Verif/Soft.lean` — the vector types for targets without SIMD (`src/arch/unknown/vecs.rs`).
* `Verif/SoftCast.lean` — the scalar `as` in the casts of these types, and `sum_upcast` of floats.
* `Verif/Debug.lean` — the diagnostics of the `trace` feature (`src/debug.rs`).
* `Verif/Select.lean` — which vector type an element type gets for a set of target
  features (`impl_packed!` of `src/vecs.rs`).
* `Verif/Intrin/Bits.lean` — `transmute` between vector types as regrouping of bits.
* `Verif/Intrin/X86.lean` — the x86 instructions used, as functions on
  `Vector (BitVec n) w` following the Intel manual.
* `Verif/Intrin/{Merge,Shuffle,Destride,Arith,Cast,Sum,Round}.lean` — the optimized
  implementations written with these instructions, and the fallback implementations.
* `Verif/Intrin/*Tables.lean` — the literal arguments of the implementation macros
  (vector type, instruction, feature gate, lane lists, control bytes, bounds), extracted
  from the sources by `tools/gen_tables.py`. The script also checks the shape of the text
  around the literals, and stops if an instance does not match. Theorems quantify over the
  rows; examples beside them fix the number of rows.
* `Verif/Intrin/{PatternTables,Patterns}.lean` — the literals of the pattern constructors,
  extracted by `tools/gen_patterns.py`, and the script of the repository which writes them
  (`scripts/vec_patterns_gen.py`) as a function of the number of lanes.
* `Verif/{MacroTables,Macros}.lean` — the arguments of the macros which write out tuples and types
  (`impl_iter_zip!`, `tuplify!`, the literals of `stride_two` …, `impl_packed_transmute!`),
  extracted by `tools/gen_macros.py`, and their expansions.
* `Verif/FloatTests.lean` — the unit tests of `round`, `trunc`, `ceil`, `floor` and `recip` and the
  documentation examples of `recip` and `rsqrt` as programs with any limit (C126).
* `Verif/IntTests.lean` — the unit tests of `hadd`, `hsub`, `saturating_hadd`, `saturating_hsub`,
  `upcast`, `abs`, `count_ones`, `sum` and `sum_upcast`, with parameters for their literals; proofs in
  `Props/IntTests.lean` (C127).
* `Verif/ForLoops.lean` — `for` loops over the iterators (`next` until `None`, never `end`) and the
  unit tests of `src/stride.rs` with parameters for their literals; proofs in
  `Props/ForLoops.lean` (C128).
* `Verif/PatternTests.lean` — the unit tests of merges, `swap_bytes`, `flip`, masks, `sqrt`,
  `product` and the reinterpretations with parameters for their literals; proofs in
  `Props/PatternTests.lean` (C129).
* `Props/SizeChange.lean` — maps between vectors of different total sizes (C130);
  `Props/FillAny.lean`, `Props/FillDriver.lean` — the outcome of `scalar_fill` for every buffer and closure:
  slices; strided iterators and zips (C08).
  `Props/CollectAt.lean` — `scalar_collect` of maps on partly consumed slices, strides and zips (C09).
  `Props/FillAt.lean` — `scalar_fill` and `scalar_collect` at every position of the iterator, also where `end`
  fails and behind the end, with and without maps (C08, C09).
  `Props/EndAt.lean` — `end` and `len` at every position of all iterator types (C13, C14, C16).
  `Props/PassAt.lean` — the other consumers at every position (C02, C03, C24, C31, C32).
  `Props/MergeExact.lean` — the blend versions of merge_partitioned and partition for every offset (C36, C37).
  `Props/CastIff.lean` — for which vectors the wrong downcasts are right (C46, C47).
  `Props/AgainAt.lean` — lanes of `simd_reduce`, and what the consumers leave, at every position (C141, C142).
  `Props/LenAt.lean` — `len()` against the vectors still to come, for all iterator types (C16).
  `Props/FillAllAny.lean` — `scalar_fill_all` and `scalar_collect_all` for every buffer, closure and position (C31, C32).
  `Props/Exhaustion.lean` — what comes after `end`, for strides, adapters, zips and `stride_zip`s (C15).
* `Props/ForEachRest.lean` — `simd_for_each` at every position with any closure (C11).
* `Props/ZipPositions.lean` — the positions of the further iterators of a zip, for any number of them (C56).
* `Props/UnpackAny.lean` — `unpack` of strides (C18), `len()` of `stride_zip`s and adapters (C16).
* `Props/Finalize.lean`, `Props/FinalizePairs.lean` — `advance` and `finalize` of maps, zips and `stride_zip`s at every position (C34).
  `Props/MaskAt.lean` — `partition_mask` for every offset and build (C57).
  `Props/EndToEndAll.lean` — C70 and C73 for the remaining operations and for targets without SIMD.
  `Props/StrideAny.lean` — C78 at every index, also where computations wrap around.
* `Props/TestPower.lean` — which implementations pass the unit tests (C131).
* `Verif/AnyAdapter.lean`, `Props/AnyAdapter.lean` — `SIMDAdapter` around an arbitrary state machine (C134).
* `Props/StridedZipTrace.lean` — sequences of calls on zips of strided iterators (C140).
* `Props/StridedZipAny.lean` — the same with positions which wrap around: exactly which sequences are undefined behaviour (C140); sequences of calls on any zip in debug builds (C79).
* `Props/ZipRuns.lean` — the order of rows for all sequences of calls in debug builds (C89, C140), and how often rows can be handed out in release builds (C89).
* `Props/ReduceDoc.lean` — the lanes of `simd_reduce` and the results its documentation shows (C141).
* `Props/Consume.lean` — `simd_do_each` and `simd_reduce` from any position, and a second pass (C142).
* `RawRef.lean`, `Props/RawRef.lean` — addresses, lengths and alignment of the slice references made by unsafe code (C143).
* `Alloc.lean`, `Props/Alloc.lean` — the limit on allocations in `scalar_collect` and `scalar_collect_all` (C144).
* `Props/AnyIter.lean`, `Props/AnyIterMore.lean` — the scalar consumers and `unroll` on any implementation of the iterator traits (C135).
* `Lemmas/Below.lean`, `Lemmas/BelowMore.lean`, `Lemmas/BelowMut.lean` — a relation between computations over different collections (the left one undefined, or both the same), preserved by every function of the model.
* `Props/AnyArray.lean` — iterators over collections of any kind (C136).
* `Props/NestedStride.lean` — strides of strides (C137).
* `Props/Default.lean` — what `default` is and which lanes it fills (C133).
* `Props/StrideZipExact.lean` — the answers of a `stride_zip` to every sequence of calls (C98).
* `Props/StrideZipRuns.lean` — the order of the pairs for any amounts passed to `advance` (C98).
* `Props/BenchBound.lean` — `reduce_simd` on arbitrary nonzero numbers (C106).
* `Props/FloatSpecial.lean` — float operators with infinities, NaNs and signed zeros (C132).
* `Props/FloatQuiet.lean` — the NaNs that the float operators return are quiet (C132).
* `Verif/Intrin/ImplTables.lean` — which vector types have which methods, and under which target
  features each version is compiled, extracted by `tools/gen_impls.py`.
* `Verif/Unwind.lean` — `scalar_fill`, `simd_do_each`, `simd_reduce` (also of zips), maps and zip maps with the buffer and the
  iterator as places, which keep their values when a closure panics.
* `Verif/UnwindAll.lean` — the same for `stride_zip`, the adapter, `scalar_collect`, `scalar_fill_all` and
  `scalar_collect_all`.
* `Props/PassAgain.lean` — pipelines used again after caught panics, also in release builds (C145).
* `Props/Builds.lean`, `Props/BuildsMethods.lean` — release builds compare to debug builds (C146).
* `Props/ZipWidths.lean` — complete passes over zips of slices with different numbers of lanes (C147).
* `Props/ZipOutcome.lean` — the outcome of such passes for any number of slices (C23, C147).
* `Props/ZipWidthsMap.lean` — maps over such zips, collected (C147).
* `Props/AdvanceAt.lean` — `advance` and `finalize` at every position, of strides, maps and zips (C34).
* `Props/MapReduce.lean` — a map consumed by `simd_reduce` or `simd_do_each` (C149).
* `Props/ZipOrder.lean` — the order in which collections are zipped (C150).
* `Props/Staged.lean`, `Props/StagedAll.lean` — pipelines which collect an intermediate result (C151).
* `Props/InPlace.lean` — passes in place, compared with one pass and with collecting (C152).
* `Props/StrideReduce.lean` — reducing all strides of a slice in turn (C153).
* `Props/CountEqual.lean` — counting the elements equal to a value with `eq_mask` (C154).
* `Props/Extreme.lean` — the smallest or largest element of a slice (C155).
* `Props/FloatExtreme.lean` — the same for floats (C157).
* `Props/SatSum.lean` — saturating sums of slices (C158).
* `Props/BitCount.lean` — set bits of a slice and bits in which two slices differ (C159).
* `Props/Product.lean` — products of slices (C160).
* `Props/ZipSelf.lean` — a collection zipped with itself or with columns computed from it (C161).
* `Props/SliceSum.lean` — sums of slices with overflow checks (C162).
* `Props/LaneTotals.lean` — exactly when products and sums of slices overflow (C160, C162).
* `Props/SoftSum.lean` — sums of slices with software vectors (C163).
* `Props/StrideCopy.lean` — passes over strides are passes over a slice with the same elements (C164).
* `Props/UpcastSum.lean` — passes which add up sum_upcast (C165).
* `Props/SoftProduct.lean` — products of slices with software vectors (C166).
* `Props/FlipSlice.lean` — mapping flip over a slice (C167).
* `Props/LaneNumbers.lean` — closures which treat the lanes of a vector differently (C168).
* `Props/Unrolled.lean` — complete passes with unroll (C169).
* `Props/Accumulators.lean` — unrolled loops with several accumulators (C170).
* `Props/AbsDiff.lean` — the sum of the absolute differences of two slices (C171).
* `Props/CountBound.lean` — counting elements which are at most, or at least, a bound (C172).
* `Props/SoftAccumulators.lean` — unrolled loops with several accumulators and checked operators (C173).
* `Props/FloatAccumulators.lean` — rounding errors of float sums in unrolled loops with several accumulators (C174).
* `Props/DotProduct.lean` — the dot product of two slices of integers (C175).
* `Props/SatAccumulators.lean` — saturating sums in unrolled loops with several accumulators (C176).
* `Props/ExtremeAccumulators.lean` — products, minima and maxima in unrolled loops with several accumulators (C177).
* `Props/SumSquares.lean` — sums of what an operation makes of the elements, such as squares (C178).
* `Props/CompareSlices.lean` — comparing two slices with `eq_mask` (C156).
* `Props/TraceWrap.lean` — sequences of calls whose `advance` wraps the position around (C76).
* `Witness/*.lean` — non-vacuity: every claimed theorem with hypotheses which is not already followed by an `example`
  applied to concrete arguments with all hypotheses proved (but for `C109_simd_scalar`, whose hypotheses about the results of
  two sums are the conclusions of `C109_reduce` and `C109_scalar`). `Witness/Common.lean` holds the concrete collections; the modules
  `W01`, `W02`, … were found by a search over such collections and the rows of the tables, the others are written by hand.
* `StdIter.lean`, `Props/StdIter.lean` — provided methods of `Iterator` and `ExactSizeIterator` (C148). These are code of the standard library, modelled from its documentation.
* `Props/DebugCaught.lean` — no undefined behaviour in debug builds after caught panics (C138).
* `Props/FusionAll.lean` — consumers of composed maps, over any iterator (C55).
* `Verif/Base100Soft.lean`, `Props/Base100Soft.lean` — the base100 benchmark with software vectors (C99).
* `Verif/BenchZipSoft.lean`, `Props/CheckedPairs.lean`, `Props/BenchZipSoft.lean` — operators which may panic in a lane, over pairs of
  consecutive elements: `stride_two`, `stride_zip` and their benchmarks (C139, C110). `Props/CheckedForEach.lean` — `simd_for_each` with such operators (C139).
* `Verif/SoftExamples.lean`, `Props/Checked.lean`, `Props/CheckedExamples.lean` — pipelines with operators which
  may panic in a lane, and the integer programs of examples/main.rs with such operators (C139).
* `Verif/Intrin/Endian.lean` — memory of vectors and `transmute` on targets of either endianness,
  and the bitcast maps of the tests of `src/iters.rs`.
* Closures are stateful: `σ → V → Res (V' × σ)` (an `FnMut` which may panic).
* Loops `while let Some(v) = self.next()` are fuel-indexed recursions; theorems hold for
  every fuel larger than the number of vectors.

`Verif/Spec.lean` holds the independent specification vocabulary of the iterator theorems
(`fullWindows`, `leftover`, `padFront`, `calls`, `callAll`, `unpad`); the arithmetic
theorems have theirs (`num`, `nearest`, `total`, `byte`, …) at the top of their files.
`Verif/Props/*.lean` hold the property theorems (named `C01_…`), each with examples.
Helper lemmas live in `Verif/Lemmas/*.lean`.

### Simplifications

* `&mut self` methods return the new value. Only for `simd_for_each`, and in
  `Unwind.lean` and `UnwindAll.lean`, does the state survive a panic (`MutM`). The
  captured variables of a panicking closure are those before the call (any, in C138 and C145).
* Borrowed slices are values. The one place where aliasing matters (`unroll`, C20) has an
  explicit handle (`ScratchRef`) which is read back through the current state.
* Signed, unsigned and float lanes are bit patterns (`BitVec n`); a `Kind` says how a lane
  is read. In C44–C63 float `+`, `-` and conversions are parameters of the theorems.
  `Verif/Intrin/Ieee.lean` defines float `+ - * / sqrt` and conversions on bit patterns;
  `Props/FloatArith.lean` proves that they are correctly rounded (`IsRoundOf`), and C63, C69,
  C103 and C104 use them. Their NaN results are always the same NaN.
  Before the proofs they were compared to the machine's floats on 60000 random and
  special operand pairs (a test, not part of this repository). Float comparisons, `abs`, the masks and rounding to integers are exact on IEEE bit
  patterns; `ieee` (`Props/Float.lean`) decodes them to rationals for the specifications.
  Which NaN a rounding function returns is left open: no theorem depends on it.
* `f32::min(0.0, -0.0)` may return either zero in Rust; the model takes the second operand.
* `as` from floats to integers saturates (Rust since 1.45; before, values out of range were undefined).
* `Vec::with_capacity` succeeds with exactly the capacity asked for, except in `Alloc.lean` (C144),
  where it panics beyond `isize::MAX` bytes. Running out of memory is not modelled.
* Alignment is ignored, also for the transmuted `PART_MASK` table, except in `RawRef.lean` (C143),
  which states where the references made by unsafe code point; the other modules treat the
  transmuted table as readable within its 128 bytes.
* `ExactSizeIterator` arguments of `SIMDAdapter` are lists.

### Size hypotheses

"Every length" means every length a Rust slice can have. The theorems assume
`len + WIDTH` below the `usize` range (a slice has at most `isize::MAX` bytes, so this always
holds), for results of another lane size the same for the number of result lanes, and for
stride `s` that `len + s * (WIDTH + 1)` is below it. The last is not implied for arbitrary
numbers `s`, but `stride_into` asserts that `s` default vectors were passed, and these and the
slice are in memory together. `fuel` only bounds the number of loop iterations; each theorem
gives a bound which suffices, so it is also a proof of termination. What happens when index
computations do overflow (after `advance`) is the subject of C15, C27, C75, C76 and C78.

## Not modelled

* The approximate instructions RCPPS and RSQRTPS.
* Code generation, LLVM, allocation failure, the `packed_simd`/`vektor` crates: their
  operations are trusted definitions.
* The `#[cfg]` selection of optimized or fallback versions is not executed: theorems are
  stated for both versions (C62 and C64 are about the selection itself).
* x86 `addsub.rs` and `cast.rs` (commented out), and the bits returned by RCPPS and RSQRTPS (C106, C107 and C126 assume of RSQRTPS, and C126 of RCPPS, the documented relative error of 1.5·2^-12 and ±∞ for ±0).
* `swizzle.rs` is modelled (C58) although it is missing from the `mod` list.

## Trusted base

* Lean's kernel. No theorem depends on an axiom other than `propext`, `Classical.choice`
  and `Quot.sound`; nothing uses `sorry`, `native_decide` or `bv_decide`. Facts about
  table rows are closed terms evaluated by the kernel (`decide +kernel`).
* The reading of the Rust source into the definitions, and `tools/gen_tables.py`,
  `tools/gen_patterns.py`, `tools/gen_macros.py` and `tools/gen_impls.py` for the literal tables.
* The instruction semantics in `Verif/Intrin/X86.lean` and the instruction tables
  (`Instr.lanes`, `Instr.abs`, `Instr.ext`, `Instr.pack`, `Instr.rounds`,
  `Instr.needs`).
* The semantics of `core` and `packed_simd` operations in `Verif/Prim.lean`,
  `Verif/Packed.lean` and the scalar functions of `Verif/Intrin/{Arith,Cast,Round}.lean`.

The model was tested against wrong programs: see `seeded/LOG.jsonl` (one edit of a
definition per line, with the theorems that stop proving). An entry without failing
theorems says why: N36 does not change the function it edits. `tightened` lists the claims which an edit
survived at first (M26, M29, M73, M74, M87: parts of C02, C15, C23, C48 were not stated).

## How the iterator proofs are organised

`Runs`/`Emits` (`Lemmas/Stream.lean`) say that an iterator delivers a list of vectors by
`next`, and then what `end` returns. They are established for `SIMDIter` and
`PackedStride` over any array that represents a list (`Represents`), are preserved by
`SIMDMap`, and are the hypothesis of the generic consumer theorems (`scalar_collect`,
`scalar_fill`, `simd_reduce`, …). `Driver` is the same interface for the first iterator of
a zip, `LawfulRest` for the followers, `PowT` is a tuple of any arity.

## Findings

Properties which the code violates have a theorem `Cxx_false` (a concrete
counterexample), where possible a theorem with the exact behaviour for all inputs, and a
`_partial` theorem for the part which holds.

| id | what goes wrong |
|----|----|
| C08 | `scalar_fill` into a short buffer writes out of bounds in release builds |
| C09 | `scalar_collect` after `next` returns uninitialised elements |
| C11 | `simd_for_each` after `next`: consumed elements are overwritten with zeros, or a panic |
| C13, C14 | `end()` at position > 0 of a slice of at most one vector writes outside its vector |
| C15 | after an `advance` to a position near `usize::MAX`, `end` returns None but `next` panics |
| C16 | `len()` does not decrease; a fresh stride can claim one vector too many |
| C20 | chunks of `unroll` alias one buffer |
| C22, C23, C56 | `zip` compares numbers of vectors, and ignores positions and widths |
| C26 | strides lose the last `len % stride` elements |
| C27, C78 | `load` and `next` of strides read out of bounds in release builds when the index computation overflows |
| C75 | `scalar` then `end()` on a slice of at most one vector is undefined behaviour in release builds |
| C80, C81 | `end()` with more than one vector left, in release builds with SSE4.1/AVX2: reads beyond the mask table, or returns a wrong count, where other targets panic |
| C85 | the unrolled loops of `benches/usage.rs` store chunks on top of each other; an incomplete chunk panics |
| C86 | the `destride_two` bench for bytes with AVX2 (from C48) |
| C87, C89 | `finalize`, `scalar_len`, `vector_len` of zips count vectors (from C33, C34); in release builds `finalize` moves a zip back |
| C96 | any lane-wise pipeline overruns a short buffer in release builds (C08 in general) |
| C97 | `advance` then `end` of a `stride_zip` of a slice of at most one vector, release builds (from C75) |
| C98 | `next` of a `stride_zip` can return None and still move on |
| C100 | the zip benchmark cuts off sums at 2^31 - 1 in most lanes (from C46) |
| C104 | `saturating_downcast` from f64 to f32 returns infinities instead of saturating |
| C99 | the base100 benchmark encodes no byte right; merging discards half of each operand |
| C105 | the `round` benchmark differs from its scalar version at even integers plus a half (from C68) |
| C106 | `reduce_uneven_simd` never returns a finite number: the padding is 0.0, its reciprocal root is infinite |
| C108 | not a violation: `high_latency` runs on a negative array and computes only NaN |
| C110 | the benchmarks `stride_zip` and `stride_zip_naive` give different results unless the length is a multiple of two vectors (from C29); `zip_scalar` returns rounded floats, `zip_simd` integers |
| C88 | `end` of a zip strictly inside slices of at most one vector, release builds (from C75) |
| C76 | an `advance` which overflows makes a slice iterator go back |
| C29 | `stride_zip` puts the tail into wrong lanes |
| C30, C31 | `SIMDAdapter` and `scalar_collect_all` fail on almost every input |
| C33, C34 | `scalar_len` and `finalize` of maps and zips count vectors; `finalize` can move a map back, and `end` after it is undefined behaviour on one vector; `finalize` of a `stride_zip` leaves the last element of an odd number, with the same consequence |
| C36, C37, C57 | `merge_partitioned`: offsets accepted depend on the target; release builds can read outside the mask table |
| C41 | `sum` of i16x16 and i32x8 with AVX2 can panic in debug builds although the sum fits |
| C42 | `sum_upcast` of i8 vectors wraps to 8 bits |
| C46, C47 | downcasts: u64 clamped to 2^31-1 in some lanes; unsigned packs read signed lanes; AVX2 packs interleave |
| C48 | `destride_two` of 8-bit lanes with AVX2 returns even lanes twice |
| C54 | software `load`/`store` ignore the offset in the check |
| C55 | fusing maps changes the number of unfilled lanes for some lane sizes |
| C139 | a checked operator panics for the default lanes of the last vector although no element overflows |
| C140 | in a release build, `end` inside at most one vector of rows, or `next` after an `advance` which overflows, accesses memory out of bounds; `finalize` hands out rows again |
| C141 | the documentation of `simd_reduce` shows the last call with the elements first and the default after them, and with 8 lanes the result 26.0 ×4, 24.0 ×4; the elements are the last lanes, and the result is 24.0 ×4, 26.0 ×4 |
| C142 | the documentation says that `simd_do_each` does not modify the iterator; it uses it up, and a second pass sees nothing |
| C143 | `partition_mask` transmutes the byte table to a slice of 128 lanes of the scalar type: for every lane wider than a byte the reference extends beyond the table (and may be misaligned) |
| C144 | `scalar_collect` computes its capacity without checks: with 32-bit `usize` in release builds a closure from `u64x2` to `u8x64` over 2^27 elements wraps it and writes out of bounds |
| C145 | after a caught panic in the middle of a pass, `scalar_collect` of the rest returns a vector as long as the whole collection, whose last cells are uninitialised |
| C147 | `impl_iter_zip!` accepts iterators whose vectors have different numbers of lanes and reads all of them at the position of the first one. If the vectors of the second one are narrower by a factor of two or more and there are at least two of them, every pass panics or reads out of bounds (`C147_narrower`); slices of equal lengths are mostly rejected. |
| C148 | no iterator of the crate defines `size_hint`, so the contract of `ExactSizeIterator` is broken in every state: `iter.take(n).len()` panics for n > 0, `skip`, `peekable` and the standard `zip` too. |
| C150 | of slices of four and five elements, one order of `zip` succeeds and the other panics; in release builds the order decides which elements of slices of five and six elements meet in the last call (from C22, C23) |
| C151 | a sum over `x + 1` in one pass counts the missing elements of the last vector, after collecting it does not (the default lanes go through the first closure) |
| C152 | adding one and then reversing vectors in two passes in place leaves another last element than in one pass (the default lanes, as C151) |
| C153 | reducing all strides of a slice leaves out its last `len % s` elements |
| C154 | counting zeros with `eq_mask` counts the zeros of the default vector too |
| C155 | the smallest of positive numbers seems to be zero if zero is the default and the last vector is not full |
| C156 | a slice compared with itself through `eq_mask` seems different if the two defaults differ |
| C157 | with SSE/AVX the minimum of a slice of floats forgets, lane by lane, the elements before a NaN |
| C158 | saturating sums of signed elements depend on which elements share a lane |
| C159 | counting the bits of a slice counts those of the default lanes too |
| C160 | debug builds: lane products wrap silently, and `product()` may panic where a loop does not |
| C162 | debug builds: lanes which overflow wrap silently, and `sum()` may panic where a loop does not |
| C165 | with the i8 versions of sum_upcast the sum of sixteen eights is -128; the default lanes of the last vector are part of the sum |
| C167 | mapping flip over a slice of odd length loses an element and returns a lane of the default instead; simd_for_each writes it into the slice |
| C168 | merge_interleaved over zipped slices of odd length takes the elements after the full vectors from the wrong slice |
| C172 | counting elements up to a bound with min, eq_mask and count_ones counts default lanes which are within the bound |
| C176 | signed saturating sums depend on the number of accumulators: 100, 100, -100, -100 add up to -73 with one, to 0 with two (C176_false) |
| C64 | 8 instructions are used in code compiled for a smaller feature set |
| C66 | float `min`/`max` with the instructions return NaN if only the second operand is NaN |
| C68 | `round` with the instructions rounds ties to even, without them away from zero |
| C115 | the documentation example of `saturating_downcast` fails with AVX2 |
| C53 | `coalesce` of a constant vector of NaN panics in debug builds |
| C119 | `vector_pos` of a `stride_zip` made at an unaligned position runs ahead; `vector_len` of a zip mapped to another lane width counts vectors of the input |
| C122 | `end` is a safe method: one call on a fresh adapter with more scalars than one vector writes out of bounds in release builds |
| C123 | zips of slices of different lengths with as many full vectors combine elements of different indices in release builds |
| C125 | `count_ones` exists on x86 only; `rsqrt` of `f64s` and `saturating_add` of 32-bit and 64-bit lanes exist on other targets only |
| C127 | the loop of the integer sum tests runs once for every type, so the tests miss that `i8x16::sum_upcast` and `i8x32::sum_upcast` are wrong for constants outside -8 to 7 and -4 to 3 (C42) |
| C128 | a `for` loop over a strided iterator misses the last complete vector if the elements fill it and no further element of the iterator follows in the slice, since `next` compares the position after the vector with the length; the test `vector_iter` therefore never looks at the last vector. Over a `SIMDAdapter` the loop visits the first half of the vectors |
| C130 | a map to vectors of another total size (`f64x4` to `f32x4`, allowed by the types) goes wrong whenever there is a remainder: narrowing reads lanes which do not exist (undefined behaviour in release builds) on slices shorter than a vector, panics, or overwrites results; widening returns images of default lanes |
| C133 | `default()` of a map or a `stride_zip` is the zero vector, not what its empty lanes contain |
| C134 | `SIMDAdapter::end` trusts the length of a safe `ExactSizeIterator`: one which reports fewer scalars than it has makes it write out of bounds in release builds |
| C135 | `scalar_collect` trusts `len` of a safe trait: too small writes past the allocation, too large returns uninitialised memory |
| C136 | `SIMDIter::next` checks `position + width <= scalar_len()` with wrapping arithmetic in release builds: after `advance(usize::MAX)` it calls `load_unchecked` outside its contract. Slices panic by luck, collections of a user have undefined behaviour from safe code |
| C121 | `sum_upcast` of floats drops the fraction of every lane: four halves have the sum 0; NaN counts as 0; u64 lanes of at least 2^63 count as negative |
| C113 | the tests `bitcast_map_width_doubles` and `_quadruples` fail on big-endian targets: `to_le` swaps the bytes of the elements, not of the parts |

Also seen while reading, not formalised: the header in `scripts/vec_patterns_gen.py` uses
`crate::std`, the generated files `crate::core`, so running the script again would not
reproduce them; the software vectors do not define
`from_slice_unaligned`/`write_to_slice_unaligned`, which the `Packed` implementation
calls; there is no population count for them; "avx512" is not a rustc feature name, so the
64-byte types are never selected; `Packed::replace(&mut self)` returns the new vector and
leaves `self` unchanged.

## Plan per property

| id | what is modelled / how proved |
|----|----|
| C01 | SIMDIter+SIMDMap+scalar_collect; a `Streams` relation (sequence of vectors from `next`, tail from `end`) is established by induction for SIMDIter, shown preserved by SIMDMap, and consumed by a generic collect theorem |
| C02 | `simd_do_each` with a logging/stateful closure; equality with a monadic fold over the specified window sequence, including panics |
| C03 | same, for `simd_reduce` |
| C04 | from C03, by commutative-monoid fold algebra |
| C05 | generic collect theorem at arbitrary closure |
| C06 | generic collect theorem with `w * size = w' * size'` |
| C07 | generic fill theorem with frame |
| C08 | FALSE of the code: too short buffers are written out of bounds in release builds; negation by witness, partial theorem: safe when buffer is large enough |
| C09 | FALSE: partly consumed iterator with no tail; negation, exact result for every position; maps with any closure over slices, strides and zips |
| C10 | invariant on the slice over the loop |
| C11 | FALSE: zeros clobber consumed elements; negation; partial theorem: holds when one full vector remains, or nothing remains |
| C12 | state-preserving outcome of `simd_for_each`; induction over calls |
| C13 | FALSE: element-wise branch uses wrong lane index for position > 0; negation; partial |
| C14 | from the two branches of `end`; partial because of C13; lanes spelled out in `C14_lanes` |
| C15 | invariants of `next`/`end`; FALSE at positions near `usize::MAX` (`next` panics) |
| C16 | FALSE (len does not shrink); negation; partial for fresh iterators; exact for slices, strides, maps and zips at every position |
| C17 | direct list lemmas |
| C18 | induction on remaining |
| C19 | induction; chunks specification |
| C20 | FALSE: slice handle model (pointer into scratch); negation; partial: contents right until the next call |
| C21 | Zip of one driving iterator and a nested pair of followers (all arities at once) |
| C22 | FALSE: check is in vectors; negation; partial: panics when vector counts differ |
| C23 | FALSE: different lane widths; negation; partial |
| C24 | as C02/C03 on Zip |
| C25 | PackedStride as lawful array/iterator over the strided list |
| C26 | FALSE when len mod s > k; negation; partial when s divides len |
| C27 | `next` and `end` never `ub`; `load` exact in release builds; FALSE when its index computation overflows |
| C28 | composition of C25 and C21 |
| C29 | exact sequence of calls for every length (`pairCalls`, `pairTail`); FALSE in the tail; partial when 2w divides the length |
| C30 | exact outcome for every length; FALSE unless the length is 0 or w |
| C31 | FALSE for every non-empty iterator with two or more lanes; partial for empty ones; exact outcome and condition |
| C32 | generic fill_all theorem; outcome for every buffer |
| C33 | FALSE for map and zip; negation; partial for slices and strides |
| C34 | FALSE for map/zip finalize; partial for slice iterators; exact result of finalize at every position |
| C35 | blend at byte level = lane selection, for all element sizes |
| C36 | FALSE: offset = WIDTH; negation; partial |
| C37 | pattern constructors generic in width; PART_MASK load; FALSE only for the panic of large offsets in release builds |
| C38 | pshufb with the literal masks = lane-wise byte reversal, for all rows |
| C39 | every row: instruction and fallback = exact value clamped (`nearest`) |
| C40 | unpack/shuffle/hadd models = interleaved spec (`hSpec`), values exact, wrapped or clamped; panics exactly on overflow in debug builds |
| C41 | SAD / hadd chains = sum mod 2^n; overflow conditions exact; FALSE in debug builds for two AVX2 versions |
| C42 | FALSE for i8 vectors on SSE2/AVX2; negation; partial for other types |
| C43 | nibble table (exhaustive per byte) and SAD |
| C44 | per lane |
| C45 | cvt + shuffles; every row; values and order |
| C46 | FALSE for several types; exact behaviour of each; partial for the right ones |
| C47 | composition of upcast and downcast rows; FALSE on 256-bit packs |
| C48 | FALSE for 8-bit lanes on AVX2; partial elsewhere |
| C49 | polyfill; residue classes (`IsResidue`); consistency with destride_two |
| C50 | per lane |
| C51 | integer lanes, every row; `IsExtreme` |
| C52 | bit-level regrouping: round trip, composition, injectivity, byte view, number of set bits |
| C53 | direct; `coalesce` for any comparison. FALSE for NaN; exact condition; partial |
| C54 | FALSE: offset ignored by the assertion; negation; partial |
| C55 | generic in the inner iterator; consumers by simulation (`Alike`) |
| C56 | FALSE: what a zip of moved iterators delivers is proved exactly |
| C57 | bounds of the read of the transmuted table; FALSE in release builds, exact offsets |
| C58 | pshufb with the literal masks = exchange of adjacent lanes, for all rows |
| C59 | loops of `impl_ops!` = lane-wise application, first failing lane; operator tables |
| C60 | fold = all lanes equal |
| C61 | cast loop; cast tables |
| C62 | all consistent feature sets; all rows |
| C63 | addition plans (binary trees over lanes); every lane exactly once; exact if no addition rounds |
| C64 | 398 uses of instructions against their extension; FALSE for 8; partial: the list is complete |
| C65 | bits → rational values (`ieee`); equality of values = equality of the sign-magnitude keys |
| C66 | FALSE for the instructions when only the second operand is NaN; partial: exact condition |
| C67 | rounding of the magnitude bits = rounding of the value in units of the smallest subnormal; floor/ceil of ℚ |
| C68 | FALSE: ties; partial: both nearest, exact set of differences |
| C69 | lane lists of all rows, scalar functions are parameters |
| C70 | C05/C10 with any total lane-wise operation (`LaneOp1`), elements related pointwise; instances from C38, C44, C67, C68, C69, all targets |
| C71 | C03 and C04 for addition modulo 2^n, versions of `sum` from C41 |
| C72 | from C70, C71, C04; the non-portable reduction of the documentation exactly |
| C73 | C21 with any total lane-wise operation of two arguments (`LaneOp2`); instances from C39, C50, C51, C65, C66, all targets |
| C74 | C28 at stride four |
| C75 | one step of each method exactly, induction over the calls; FALSE: exact condition |
| C76 | each step delivers a prefix of what remains (`delivered`), induction; FALSE when `advance` overflows |
| C77 | simulation between the map and the inner iterator; tails bounded by the width (`TailBound`) |
| C78 | as C75 and C76 for strides; FALSE on overflow and as C75, exact condition for every index and argument |
| C79 | `Res.Ensures` (a Hoare logic for outcomes), one lemma per method and constructor; `Built`/`BuiltZip`: everything the constructors and methods can produce |
| C80 | `Verif/EndBlend.lean`: `end` with the blend merge; equality with the fallback from C35; exact outcome when the count wraps |
| C81 | C75 repeated for `Blend`; FALSE: exact condition |
| C82 | C24 with a lane-wise kernel, sums of lanes reordered; the padding contributes the kernel at the defaults |
| C83 | `Emits` of a zipped map, then the fill theorem |
| C84 | C21 with a strided driver or follower; C28 at stride nine |
| C85 | `Verif/Programs.lean`; loop over `Runs`; FALSE for the unrolled loops: closed form of what they write |
| C86 | loop over chunks = `chunksOf` (C19), residue classes from C48/C49; zipped strides from C24; FALSE for AVX2 bytes |
| C87 | simulation: every answer of a zip is the split answer of an iterator over rows; FALSE for `finalize`, `scalar_len`, `vector_len` (exact) |
| C88 | from C87 and the outcomes of one call (C75); FALSE, exact condition |
| C89 | from C87 and the moves of one call (C76); FALSE for `finalize` in release builds |
| C90 | step-wise simulation of `SIMDZipMap` by `SIMDMap` over rows, including failures |
| C91 | inductive `Pipe`/`ZipPipe` (slices, strides, zips, `stride_zip`, maps; closures which return or panic); invariant: number of vectors ≤ `len()`, end count ≤ lanes |
| C92 | inductive `Lanewise` carries the list of scalars; invariant: the pipeline emits the windows of the list |
| C93 | state after `i / w` calls by `mapIdx` over the calls; sum of the calls plus their number |
| C94 | model of `debug_output_once!` with thread-local sets and failing outputs; induction over the run |
| C95 | table of `impl_from!` compared with all pairs; chains of conversions as an inductive relation |
| C96 | `lanewise_emits` (C92) and the outcome of the fill loop for short buffers (C08) |
| C97 | all outcomes of every call; induction over the sequence of calls |
| C98 | step-wise simulation by an iterator over the slice of pairs; exactly: by a machine on the vector kept back and the position (`pairMachine`) |
| C99 | calls of the closure (C02), one lane at a time through C45, C46, C48, C58; FALSE: exact bytes written; the scalar loop by induction |
| C100 | pass with a lane-dependent relation (`laneOf`), zipped strides; closure by C44, C45, C46; FALSE: exact limit of every lane |
| C101 | C92 for nested maps, C07, C100 |
| C102 | last lane of every call from the definition of `calls`; closures with assertions: all calls checked or panic |
| C103 | every f32 and i32 is an f64 (`exists_float`), order from C45 |
| C104 | lanes from the literal lists, `fconv_spec`; FALSE: exact limit of saturation |
| C105 | every function lane by lane on its rows, then C70; FALSE for `round`: exact condition |
| C106 | relative error of one rounding (`isRoundOf_rel`), so root, reciprocal root and ceiling give one; sums of integers in floats are exact (`acc_int`, C63); arbitrary nonzero elements: bounds for every step (`curve_bounds`), then C109; FALSE for uneven lengths: infinity is absorbing |
| C107 | bounds of two roots by monotony and relative error; C63; padding adds zero |
| C108 | lanes through upcast and downcast; chain of relative errors (`rel_step`) and bounds of π; negative numbers stay negative, their root is NaN |
| C109 | relative error of one addition, also in the subnormal range where sums are exact (`fadd_small`); induction over the plan of additions |
| C110 | loops over `chunks` succeed exactly on multiples (`chunks_loop`), C74, C84, C100; FALSE for `stride_zip` (C29) and for sums above 2^24 |
| C111 | zipped reductions are folds over the lane-wise results (`zip_reduce_vectors`), then C109 for sequences of vectors (`C109_vectors`); integers by `C111_vectors_int` |
| C112 | C10, C71 and C83; no overflow in the partial sums of `sum` because the terms are not negative (`sumFallback_vectors`); floats by C111 and C109 |
| C113 | `memory`/`ofMemory` per endianness; `transmuteOn` is `reinterpret` on little-endian and `reinterpret` between byte swaps on big-endian targets; collect by C06 |
| C114 | the script as a function of the width, proved for all widths; the committed literals are its output for 40 rows (`decide +kernel`) |
| C115 | from C35, C37, C38, C44–C46, C50, C51, C58, C67–C69 applied to patterns and constant vectors |
| C116 | the tables by kernel evaluation, the expansions by induction on the tuple |
| C117 | equality with the models without places; induction on the vectors before the panic |
| C118 | the calls of a concatenation, then C02, C03, C05, C10 |
| C119 | unfolding of the overriding bodies; arithmetic of quotients. FALSE for `stride_zip` from unaligned positions and for `vector_len` of mapped zips; exact conditions; partial |
| C120 | table facts by `decide +kernel`; `ftoInt` truncates the exact fraction, `fofInt_spec` |
| C121 | fold of checked additions; distance of truncation. FALSE for fractions and large u64; exact result; partial |
| C122 | `next` and `end` in every state; induction over the calls. FALSE in release builds for more scalars than lanes; exact condition; partial |
| C123 | exact `next_unchecked`/`end_unchecked` for every argument, then passes. FALSE in release builds if the first slice has a partial vector and the second another length; exact result; partial. Any number of slices in `Props/ZipMany.lean`, by a class over the tuple |
| C124 | the versions of each method have complementary conditions, checked row by row |
| C125 | comparison of the lists of methods of vectors of 16 and 32 bytes |
| C126 | error analysis of the sums in the tests: the rounded sum lies on the same side of the tie as the exact one |
| C127 | `hSpec` and the halves of an upcast on alternating vectors; sums of constant vectors are `w * x`; the second value of the loop variable is above the limit |
| C128 | `for` is the loop of `simd_do_each` without the tail; the number of positions at which `next` goes on is `(len - 1 - k) / s / w` |
| C129 | each test is a function of its literals; reduce to the lane theorems C35, C38, C50, C52, C53, C58, C65, C66, C69 |
| C130 | `fillTail` with more empty lanes than lanes: the loop fails at its first step without full vectors, otherwise the store of the last vector lands `n` places before the end; then as C05 and C07 |
| C131 | a chain of binds is `ok` exactly if every step is; induction for the loops |
| C132 | the rounding theorems of `FloatArith.lean` and the cases of the definitions; uniqueness from `isRoundOf_unique` |
| C133 | a class of iterators whose calls keep `default`; the loops of `end` write only above the empty lanes; tuples by a class. FALSE for maps and `stride_zip`; partial |
| C134 | `pull k`: at most `k` calls of the wrapped `next`; the loops are `pull` followed by a store of all scalars at once, by induction on the lane. FALSE in release builds (`end` trusts `len`); partial |
| C135 | the loops stop at the first store which does not fit; `tailStored` lists the cases of the last vector. FALSE (`len` is trusted); partial |
| C136 | `Strict`: a collection for which every unchecked access outside the bounds is `ub`; `Below` relates it to any collection with the same contents, `C136_exact` says when it is `ub`. FALSE in release builds (`next` after a wrap-around); partial |
| C137 | the strided list of a strided list is a strided list; the passes by the driver lemma for any represented collection |
| C138 | the invariants of C79 are kept by `next` and `end` with places (`Sturdy`), by induction over the constructors; `Caught` is kept by the consumers |
| C139 | closures which lift a scalar computation compose (`Lifts`); the lanes of a pass are the elements and the default lanes |
| C140 | one call on a zip with a strided first iterator (`szip_step_spec`), induction on the sequence |
| C141 | column `j` of the calls (`column_calls`), then `C03_reduce_foldl` and exact integer sums (`acc_int`) |
| C142 | `Driver.runs_from`, then `C15` for the second pass |
| C143 | arithmetic of addresses; induction on the loop of `Unrolled::next` |
| C144 | unfolding, `fillLoop_runs_short` with the wrapped capacity. FALSE for closures to larger vectors with 32-bit `usize`; exact conditions; partial |
| C145 | an invariant with the number of vectors still to come (`Steady`), from `Driver` for the sources, by induction over the constructors; finishing of the collecting functions by C135. FALSE for uninitialised memory; partial |
| C146 | a relation `Agree` between the outcomes of the two builds, kept by every construct of the model; code which only debug builds run neither is undefined behaviour nor runs forever (`agree_extra`); induction over the iterator types |
| C147 | `C23_next_exact` and `endSeen` for lists of slices of any widths (`MixedRest`); induction over the full vectors; closed form of the first vector which is missing |
| C148 | induction over the vectors which `next` delivers (`Delivers`), from `Runs` and `ZRuns` |
| C149 | induction over the loops; the arithmetic in the map's `end` cannot fail (`SmallTail`), instances for every iterator |
| C150 | `calls_map` with the rearrangement of the columns, over C21 and C24. FALSE for different lengths; partial |
| C151 | `calls` of a list without the padding of its last vector, over C03 and C05. FALSE if the first closure changes the default; partial |
| C152 | as C151, over C10. FALSE if the first closure changes the default; partial |
| C153 | sums over strides as products in a commutative monoid, over C25. FALSE if the stride does not divide the length; partial |
| C154 | C42, C43, C50 along C03. FALSE if the default contains the value; partial |
| C155 | C51 along C03. FALSE for defaults beyond all elements; partial |
| C156 | C43, C50 along C24. FALSE for different defaults; partial |
| C157 | C66 along C03. FALSE for the instructions on NaNs; partial |
| C158 | C39 along C03. FALSE for signed elements; partial |
| C159 | C43 along C03 and C24. FALSE for defaults with set bits; partial |
| C160 | C04 with multiplication; exact values by sizes of factors. TRUE in release builds; FALSE in debug builds; partial |
| C161 | C24 and C03 with rows computed from the first column |
| C162 | C41 and C71 with bounds on absolute values. TRUE in release builds; FALSE in debug builds; partial |
| C163 | C59 and C139 for the lanes, C41 for sum |
| C164 | C03, C05, C31, C32, C130 for two drivers of one list |
| C165 | C42 for the vectors, C03 for the pass, induction with a bound on the partial sums |
| C166 | softMul_fold as for C163, with products of numbers in place of sums |
| C167 | swapPairs commutes with concatenation at even positions; C05 and C10 |
| C168 | the lane of every element (laneOf); C05, C10 and C21 for closures which depend on the lane |
| C169 | unrolled loops as programs; unrolled_next of C19, reduceLoop_runs |
| C170 | as C169; the accumulators together are a fold over all vectors |
| C171 | zipped vectors as vectors of one pass over combined elements (calls_combine), then C165 |
| C172 | masks of lanes within the bound; as C154 |
| C173 | the accumulators of a checked loop follow a loop over integers (Tracks); C170, C163 |
| C174 | the accumulators are those of a fold over the chunks, for every operation (accLoop_chunks); every lane is a tree of additions; C109 |
| C175 | the vectors of two zipped passes are those of a pass over pairs (calls_combine); C71, C163, C166 |
| C176 | unsigned saturating addition is associative and commutative, C170; signed: additions are exact as long as a budget of magnitudes lasts (budget_chunks) |
| C177 | all versions of min and max are the scalar one in every lane (extremeOp_eq); C170, C155, C160 |
| C178 | the loop is a fold over the vectors, which commutes with lanewise operations (calls_map); C71, C170 |

## Where the theorems are

Modules under `lean/Verif/` with the theorems which MANIFEST.json names for each property.

| Property | Modules |
|---|---|
| C01 | `Props/Collect` |
| C02 | `Props/Collect`, `Props/Protocol`, `Props/PassAt` |
| C03 | `Props/Collect`, `Props/PassAt` |
| C04 | `Props/Collect` |
| C05 | `Props/Collect`, `Props/Protocol` |
| C06 | `Props/Collect` |
| C07 | `Props/Fill` |
| C08 | `Props/Fill`, `Props/FillAny`, `Props/FillDriver`, `Props/FillAt` |
| C09 | `Props/Fill`, `Props/CollectAt`, `Props/FillAt` |
| C10 | `Props/ForEach` |
| C11 | `Props/ForEach`, `Props/ForEachRest` |
| C12 | `Props/ForEach`, `Props/ForEachRest` |
| C13 | `Props/Position`, `Props/EndAt` |
| C14 | `Props/Position`, `Props/EndAt` |
| C15 | `Props/Position`, `Props/Trace`, `Props/Protocol`, `Props/Exhaustion` |
| C16 | `Props/Position`, `Props/LenAt`, `Props/UnpackAny`, `Props/EndAt` |
| C17 | `Props/Vec` |
| C18 | `Props/Views`, `Props/UnpackAny` |
| C19 | `Props/Views` |
| C20 | `Props/Views` |
| C21 | `Props/Zip` |
| C22 | `Props/Zip`, `Props/ZipMany` |
| C23 | `Props/Zip`, `Props/Protocol`, `Props/ZipLengths`, `Props/ZipOutcome` |
| C24 | `Props/Zip`, `Props/PassAt` |
| C28 | `Props/Zip` |
| C56 | `Props/Zip`, `Props/ZipPositions` |
| C25 | `Props/Stride` |
| C26 | `Props/Stride` |
| C27 | `Props/Stride`, `Props/EndAt` |
| C29 | `Props/StrideZip` |
| C30 | `Props/Adapter` |
| C31 | `Props/Fill`, `Props/FillAllAny`, `Props/PassAt` |
| C32 | `Props/Fill`, `Props/FillAllAny`, `Props/PassAt` |
| C33 | `Props/Position`, `Props/Stride`, `Props/Zip`, `Props/StrideZip` |
| C34 | `Props/Position`, `Props/Stride`, `Props/Zip`, `Props/StrideZip`, `Props/Finalize`, `Props/FinalizePairs`, `Props/AdvanceAt` |
| C53 | `Props/Vec` |
| C55 | `Props/Fusion`, `Props/FusionAll` |
| C35 | `Props/Merge`, `Props/Shuffle` |
| C36 | `Props/Merge`, `Props/MergeExact` |
| C37 | `Props/Merge`, `Props/MergeExact` |
| C38 | `Props/Shuffle` |
| C48 | `Props/Shuffle` |
| C49 | `Props/Shuffle` |
| C52 | `Props/Transmute` |
| C57 | `Props/Merge`, `Props/MaskAt` |
| C58 | `Props/Shuffle` |
| C39 | `Props/Arith` |
| C40 | `Props/Horizontal` |
| C50 | `Props/Arith` |
| C51 | `Props/Arith` |
| C44 | `Props/Abs` |
| C45 | `Props/Cast` |
| C46 | `Props/Cast`, `Props/CastIff` |
| C47 | `Props/Cast`, `Props/CastIff` |
| C41 | `Props/Sum` |
| C42 | `Props/Sum` |
| C43 | `Props/Popcnt` |
| C54 | `Props/Soft` |
| C59 | `Props/Soft` |
| C60 | `Props/Soft` |
| C61 | `Props/Soft` |
| C62 | `Props/Select` |
| C63 | `Props/FloatSum`, `Props/FloatUse` |
| C64 | `Props/Gate` |
| C65 | `Props/Float` |
| C66 | `Props/Float` |
| C67 | `Props/Rounding` |
| C68 | `Props/Rounding` |
| C69 | `Props/Rounding`, `Props/FloatUse` |
| C70 | `Props/EndToEnd`, `Props/EndToEndAll` |
| C71 | `Props/EndToEnd`, `Props/Sum` |
| C72 | `Props/EndToEnd` |
| C73 | `Props/EndToEnd`, `Props/EndToEndAll` |
| C74 | `Props/EndToEnd` |
| C75 | `Props/Trace` |
| C76 | `Props/Trace`, `Props/TraceWrap` |
| C77 | `Props/Trace` |
| C78 | `Props/StrideTrace`, `Props/StrideAny` |
| C79 | `Props/DebugBuilt`, `Props/DebugSafe`, `Props/StridedZipAny` |
| C80 | `Props/EndBlend` |
| C81 | `Props/BlendTrace` |
| C82 | `Props/Kernels` |
| C83 | `Props/Kernels` |
| C84 | `Props/Kernels` |
| C85 | `Props/Programs` |
| C86 | `Props/Destride` |
| C87 | `Props/ZipTrace` |
| C88 | `Props/ZipTrace` |
| C89 | `Props/ZipTrace`, `Props/ZipRuns`, `Props/ZipPositions` |
| C90 | `Props/ZipTrace` |
| C91 | `Props/PassSafe` |
| C92 | `Props/Pipeline` |
| C93 | `Props/Portability` |
| C94 | `Props/Debug` |
| C95 | `Props/SoftFrom` |
| C96 | `Props/ShortFill` |
| C97 | `Props/StrideZipTrace` |
| C98 | `Props/StrideZipTrace`, `Props/StrideZipExact`, `Props/StrideZipRuns` |
| C99 | `Props/Base100`, `Props/Base100Soft` |
| C100 | `Props/ZipLanes` |
| C101 | `Props/Examples` |
| C102 | `Props/Examples` |
| C103 | `Props/FloatCast` |
| C104 | `Props/FloatCast` |
| C105 | `Props/Bench` |
| C106 | `Props/Bench`, `Props/BenchBound`, `Props/FloatError` |
| C107 | `Props/Bench` |
| C108 | `Props/Bench` |
| C109 | `Props/FloatBound` |
| C110 | `Props/BenchZip`, `Props/BenchZipSoft` |
| C111 | `Props/FloatZip` |
| C112 | `Props/Tests` |
| C113 | `Props/Endian` |
| C114 | `Props/Patterns` |
| C115 | `Props/Docs` |
| C116 | `Props/Macros` |
| C117 | `Props/Unwind`, `Props/UnwindMore` |
| C118 | `Props/Split` |
| C119 | `Props/VectorPos` |
| C120 | `Props/IntCast` |
| C121 | `Props/IntCast` |
| C122 | `Props/AdapterTrace` |
| C123 | `Props/ZipLengths`, `Props/ZipMany` |
| C124 | `Props/Impls`, `Props/TableTypes` |
| C125 | `Props/Impls` |
| C126 | `Props/FloatTests` |
| C127 | `Props/IntTests` |
| C128 | `Props/ForLoops` |
| C129 | `Props/PatternTests` |
| C130 | `Props/SizeChange`, `Props/FillDriver` |
| C131 | `Props/TestPower` |
| C132 | `Props/FloatSpecial`, `Props/FloatQuiet` |
| C133 | `Props/Default` |
| C134 | `Props/AnyAdapter` |
| C135 | `Props/AnyIter`, `Props/AnyIterMore` |
| C136 | `Props/AnyArray` |
| C137 | `Props/NestedStride` |
| C138 | `Props/DebugCaught` |
| C139 | `Props/Checked`, `Props/CheckedPairs`, `Props/CheckedForEach`, `Props/CheckedExamples` |
| C140 | `Props/StridedZipAny`, `Props/StridedZipTrace`, `Props/ZipRuns` |
| C141 | `Props/ReduceDoc`, `Props/AgainAt` |
| C142 | `Props/Consume`, `Props/AgainAt` |
| C143 | `Props/RawRef` |
| C144 | `Props/Alloc` |
| C145 | `Props/PassAgain` |
| C146 | `Props/Builds`, `Props/BuildsMethods` |
| C147 | `Props/ZipWidths`, `Props/ZipOutcome`, `Props/ZipWidthsMap` |
| C148 | `Props/StdIter` |
| C149 | `Props/MapReduce` |
| C150 | `Props/ZipOrder` |
| C151 | `Props/Staged`, `Props/StagedAll` |
| C152 | `Props/InPlace` |
| C153 | `Props/StrideReduce` |
| C154 | `Props/CountEqual` |
| C155 | `Props/Extreme` |
| C156 | `Props/CompareSlices`, `Props/CountEqual` |
| C157 | `Props/FloatExtreme` |
| C158 | `Props/SatSum` |
| C159 | `Props/BitCount`, `Props/CountEqual` |
| C160 | `Props/Product`, `Props/LaneTotals` |
| C161 | `Props/ZipSelf` |
| C162 | `Props/SliceSum`, `Props/LaneTotals`, `Props/EndToEnd` |
| C163 | `Props/SoftSum` |
| C164 | `Props/StrideCopy` |
| C165 | `Props/UpcastSum` |
| C166 | `Props/SoftProduct` |
| C167 | `Props/FlipSlice` |
| C168 | `Props/LaneNumbers` |
| C169 | `Props/Unrolled` |
| C170 | `Props/Accumulators` |
| C171 | `Props/AbsDiff` |
| C172 | `Props/CountBound` |
| C173 | `Props/SoftAccumulators` |
| C174 | `Props/FloatAccumulators` |
| C175 | `Props/DotProduct` |
| C176 | `Props/SatAccumulators` |
| C177 | `Props/ExtremeAccumulators` |
| C178 | `Props/SumSquares` |
