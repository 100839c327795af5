{"id": "C01", "title": "Lane-wise map then collect equals the scalar map", "statement": "For a collection `data`, any default vector and any closure that applies a scalar function g to every lane, with results of the size of the arguments (other sizes: C130), `data.simd_iter(default).simd_map(f).scalar_collect()` returns exactly `data.iter().map(g).collect()`: same length, same order, no element lost, duplicated or taken from the default vector, no uninitialised element, and neither a panic nor an out-of-bounds access occurs.", "quantifier": "every collection (every length, in particular lengths smaller than, equal to and not divisible by the vector width), every vector width, every default vector, every g, debug and release builds", "why_tests_cant": "Tests sample a few lengths per machine width; the tail is written with overlapping stores into uninitialised memory, so a wrong offset shows only for particular (length mod width) and contents.", "anchors": ["src/iters.rs: SIMDIter::next, SIMDIterator::end, SIMDMap, IntoScalar::scalar_collect", "src/into_iters.rs: simd_iter/into_simd_iter"]}
{"id": "C02", "title": "Closure call protocol of a full pass", "statement": "A full pass (`simd_do_each`, `simd_map`+consumer, `simd_reduce`) over a fresh iterator calls the closure once for each consecutive full window of `width` elements, in order, and then, exactly when the length is not a multiple of the width, once more on a vector whose first n = width - (len mod width) lanes are the default's first n lanes and whose remaining lanes are the remaining elements in order. No other calls are made, and closure state is threaded through the calls in that order.", "quantifier": "every collection, width, default vector, and every stateful (FnMut) closure, including closures that panic at some call", "why_tests_cant": "The claim is about every call history of an arbitrary stateful closure; tests observe only final results for commutative closures.", "anchors": ["src/iters.rs: simd_do_each, simd_reduce, SIMDMap::next, SIMDMap::end, blanket end"]}
{"id": "C03", "title": "simd_reduce is a left fold over the call sequence", "statement": "`simd_reduce(start, f)` on an iterator returns f(...f(f(start, v1), v2)..., vk) where v1..vk are the vectors of the call protocol, in order; on an empty collection it returns `start` without calling f.", "quantifier": "every accumulator type, start value, closure, collection, width, default", "why_tests_cant": "Order and count of calls for non-commutative, stateful closures at all lengths cannot be enumerated.", "anchors": ["src/iters.rs: SIMDIterator::simd_reduce"]}
{"id": "C04", "title": "Vectorised reduction followed by a lane reduction equals the scalar reduction", "statement": "For an associative and commutative operation op with identity e, reducing with lane-wise op from splat(e) over an iterator whose default vector is splat(e), then folding the lanes with op from e (`scalar_reduce`), gives the same value as folding the whole collection with op from e, whatever the vector width.", "quantifier": "every commutative monoid, every collection, every width (so the answer is portable across machines)", "why_tests_cant": "Tests use one machine width and constant data such as [2; 129], where lane placement mistakes and duplicated elements cancel out or are invisible.", "anchors": ["src/iters.rs: simd_reduce, end", "src/vecs.rs: scalar_reduce, splat"]}
{"id": "C05", "title": "Collect with an arbitrary (not lane-wise) closure", "statement": "For every closure from vectors to vectors of the same total size (other sizes: C130), `simd_map(f).scalar_collect()` is the concatenation, in order, of all lanes of f applied to each full window, followed by the lanes of f(tail) from lane n on, where n is the number of default lanes of the tail; its length is (full windows)*width + (width - n).", "quantifier": "every closure (shuffles, cross-lane operations, stateful), every collection, width, default", "why_tests_cant": "The overlapping tail store followed by the repair store must be right for arbitrary vectors; tests only use lane-wise closures.", "anchors": ["src/iters.rs: IntoScalar::scalar_collect, SIMDMap"]}
{"id": "C06", "title": "Width-changing maps keep order and drop exactly the default part", "statement": "When the closure returns vectors of a different lane size with the same total byte size (e.g. reinterpreting i64 lanes as u8 lanes), so that every input lane becomes k output lanes, `scalar_collect` returns k outputs per input element, in order, including for the partial last vector; the number of dropped lanes is n*k.", "quantifier": "every expansion factor k, every width, length, default and per-lane expansion function", "why_tests_cant": "Tests cover one 5-element array on the machine's single width.", "anchors": ["src/iters.rs: SIMDMap::end (nr), SIMDMap::width, scalar_collect"]}
{"id": "C07", "title": "scalar_fill writes the collected result and nothing else", "statement": "If the buffer has at least as many elements as the result, `scalar_fill(buf)` leaves buf[0..m] equal to what `scalar_collect` would return (m = its length) and leaves every element from m on unchanged.", "quantifier": "every buffer of sufficient length with arbitrary previous contents, every collection, width, closure to vectors of the same total size (other sizes: C130)", "why_tests_cant": "Requires a frame condition over all untouched cells and all buffer lengths; the test compares only a sum over an exactly sized buffer.", "anchors": ["src/iters.rs: IntoScalar::scalar_fill"]}
{"id": "C08", "title": "scalar_fill never writes outside the caller's buffer", "statement": "`scalar_fill` is a safe function: for a buffer of any length it must either succeed or panic, but never write outside the buffer.", "quantifier": "every buffer length (including too short), every collection, width, both build profiles", "why_tests_cant": "An out-of-bounds write is undefined behaviour; a passing test proves nothing about other lengths or about release builds.", "anchors": ["src/iters.rs: IntoScalar::scalar_fill", "src/vecs.rs: store_unchecked"]}
{"id": "C09", "title": "scalar_collect never exposes uninitialised memory", "statement": "Whatever calls (next, end, advance) were made on the iterator before, every element of the vector returned by `scalar_collect` has been written with an output of the iterator.", "quantifier": "every reachable iterator state (all histories of next/end/advance before the collect), plain iterators and maps with any closure over slices, strides and zips", "why_tests_cant": "Uninitialised reads are invisible to assertions and depend on the allocator; the history quantifier is unbounded.", "anchors": ["src/iters.rs: scalar_collect (set_len)", "src/iters.rs: SIMDIter::len"]}
{"id": "C10", "title": "simd_for_each maps the collection in place", "statement": "On a fresh mutable iterator, `simd_for_each(f)` with a lane-wise closure leaves the collection equal to the scalar map of its previous contents, same length; each element is transformed exactly once (also for non-idempotent f); no access leaves the slice.", "quantifier": "every slice, width, default, lane function, both build profiles", "why_tests_cant": "The tail is stored over already mapped elements which are then restored; tests try only three lengths around one width with one function.", "anchors": ["src/iters.rs: SIMDIteratorMut::simd_for_each for SIMDIter"]}
{"id": "C11", "title": "simd_for_each on a partly consumed iterator touches only the remaining elements", "statement": "If some elements were consumed by next/advance before, `simd_for_each` maps exactly the elements not yet consumed and leaves the consumed ones unchanged.", "quantifier": "every position of the iterator, every slice, width, closure", "why_tests_cant": "Requires all interleavings of next/advance with simd_for_each.", "anchors": ["src/iters.rs: simd_for_each"]}
{"id": "C12", "title": "A panicking closure leaves simd_for_each data consistent", "statement": "If the closure panics at its k-th call, all windows of earlier calls hold their mapped values, and all elements from the k-th window on keep their original values (nothing is half written, nothing is lost).", "quantifier": "every crash point k, every slice, width and closure", "why_tests_cant": "Every crash point of every closure cannot be enumerated.", "anchors": ["src/iters.rs: simd_for_each"]}
{"id": "C13", "title": "end() is memory safe at every position", "statement": "`end` is a safe method: from any iterator position reachable with next, advance, unpack/pack it must never access a vector lane or slice element out of bounds.", "quantifier": "every position, length, width, both build profiles", "why_tests_cant": "Undefined behaviour in release builds; depends on position and length jointly.", "anchors": ["src/iters.rs: blanket SIMDIterator::end", "src/iters.rs: SIMDIterable::advance"]}
{"id": "C14", "title": "end() returns exactly the remaining elements, right aligned", "statement": "When fewer than `width` (and at least one) elements remain, `end` returns (v, n) with n = width - remaining, the first n lanes of v being the default's and the last lanes the remaining elements in order; when none remain it returns None. Afterwards the iterator is exhausted.", "quantifier": "every length, position, width and default vector", "why_tests_cant": "Two code paths (overlapping load + merge versus element-wise) must agree for all lengths and positions.", "anchors": ["src/iters.rs: blanket SIMDIterator::end", "src/intrin/merge.rs: merge_partitioned"]}
{"id": "C15", "title": "Exhaustion is permanent", "statement": "Once `next` returned None it keeps returning None, and once `end` was called (or a full pass finished) both `next` and `end` return None and a further reduce/do_each calls the closure zero times.", "quantifier": "every iterator state, every number of later calls", "why_tests_cant": "Unbounded number of later calls.", "anchors": ["src/iters.rs: SIMDIter::next, end, finalize"]}
{"id": "C16", "title": "len() reports the number of vectors still to come", "statement": "As the ExactSizeIterator contract says, `len()` equals the number of full vectors `next` will still return, in every state.", "quantifier": "every reachable iterator state and every iterator type of the crate", "why_tests_cant": "Needs all states; unsafe code relies on it.", "anchors": ["src/iters.rs: ExactSizeIterator for SIMDIter", "src/stride.rs: PackedStride::len", "src/zip.rs: Zip::len"]}
{"id": "C17", "title": "Vector load and store obey memory laws", "statement": "`load(data, i)` panics exactly when fewer than WIDTH elements start at i and otherwise returns those elements; `store(v, data, i)` panics exactly in the same case and otherwise changes exactly data[i..i+WIDTH] to the lanes of v; a load after a store at the same offset returns the stored vector; storing a loaded vector back changes nothing.", "quantifier": "every slice, offset, width and vector", "why_tests_cant": "All offsets, contents and lengths.", "anchors": ["src/vecs.rs: Packed::load, store, load_unchecked, store_unchecked"]}
{"id": "C18", "title": "unpack enumerates the remaining scalars and pack resumes", "statement": "`unpack()` yields, one by one, exactly the scalars from the current position to the end and then None; after taking k scalars, `pack()` gives back an iterator whose vectors continue with element position+k.", "quantifier": "every collection, position and k", "why_tests_cant": "Unbounded interleavings of scalar and vector consumption.", "anchors": ["src/iters.rs: Unpacked::next, Unpacked::pack, SIMDIterable::unpack"]}
{"id": "C19", "title": "unroll yields the vectors in order in chunks of the requested size", "statement": "`unroll(amt)` (1 <= amt <= 8) yields slices whose concatenation is the sequence of remaining full vectors, every slice having exactly amt vectors except possibly a shorter non-empty last one; amt > 8 panics.", "quantifier": "every amt, collection, width, every position whose sum with the width is a usize", "why_tests_cant": "All combinations of amt, length and width.", "anchors": ["src/iters.rs: Unrolled::next, SIMDIterable::unroll"]}
{"id": "C20", "title": "A chunk returned by unroll keeps its contents", "statement": "A slice returned by `unroll(..).next()` is a shared reference, so its contents must not change while the caller still holds it, in particular not when `next` is called again.", "quantifier": "every pair of successive next calls", "why_tests_cant": "Aliasing is a property of all later histories; the type checker was bypassed with unsafe code.", "anchors": ["src/iters.rs: Unrolled::next (from_raw_parts of scratch)"]}
{"id": "C21", "title": "Zipping equal-length collections is lane-wise zip", "statement": "For iterators over collections of equal length (same lane width), `(a, b, ...).zip().simd_map(f).scalar_collect()` with a lane-wise f equals zipping the collections element by element and mapping; the closure receives for each window the corresponding windows of every collection, and in the last call every tail is aligned in the same lanes with its own default before it.", "quantifier": "every arity 2..13, collections of every common length, widths, defaults, closures", "why_tests_cant": "Only iterator 0 is bounds-checked; the others use unchecked loads at its position, so alignment must hold for all lengths.", "anchors": ["src/zip.rs: impl_iter_zip! zip/next/end, SIMDZipMap", "src/iters.rs: UnsafeIterator"]}
{"id": "C22", "title": "zip rejects collections of different length", "statement": "`zip()` panics ('You can only zip iterators of the same length') whenever two collections have different numbers of elements, so a zip that succeeds pairs up all elements.", "quantifier": "every pair of lengths and widths", "why_tests_cant": "The check is made in vectors, not elements; only particular length pairs reveal a difference.", "anchors": ["src/zip.rs: IntoSIMDZip::zip"]}
{"id": "C23", "title": "Zip iteration never reads out of bounds", "statement": "Every use of a successfully created Zip through its safe methods only reads inside the zipped collections.", "quantifier": "every tuple of iterators accepted by zip (any element types/widths, any prior consumption)", "why_tests_cant": "Out-of-bounds reads of neighbouring memory pass unnoticed in tests.", "anchors": ["src/zip.rs: Zip::next, Zip::end", "src/iters.rs: next_unchecked, end_unchecked"]}
{"id": "C24", "title": "Zipped reduce and do_each follow the same call protocol", "statement": "`simd_reduce` and `simd_do_each` on a Zip call the closure with the tuple of windows in order, once per full window, then once on the tuple of tails if the common length is not a multiple of the width, and reduce returns the left fold.", "quantifier": "every arity, length, width, closure with state, accumulator", "why_tests_cant": "All call histories.", "anchors": ["src/zip.rs: SIMDZippedIterator::simd_reduce, simd_do_each"]}
{"id": "C25", "title": "Strided iterators visit elements k, k+s, k+2s, ...", "statement": "Iterator number k of `stride`/`stride_into`/`stride_two`/`three`/`four`/`nine` with stride s delivers (through a full pass) the elements with indices k, k+s, k+2s, ... in order, for the first floor(len/s) of them, the partial last vector being right aligned after its default lanes.", "quantifier": "every collection length, stride >= 1, offset k < s, width, default", "why_tests_cant": "Index arithmetic with base, stride and a conservative loop bound; correctness depends on len mod (s*w).", "anchors": ["src/stride.rs: PackedStride::next, load_unchecked, scalar_len, Stride::stride_into, stride_two, stride_three, stride_four, stride_nine"]}
{"id": "C26", "title": "Strided iterators do not lose elements", "statement": "The s iterators returned by a stride call together deliver every element of the collection: iterator k delivers all elements whose index is congruent to k modulo s.", "quantifier": "every collection length and stride", "why_tests_cant": "Only lengths not divisible by the stride matter, and only for some offsets.", "anchors": ["src/stride.rs: PackedStride::scalar_len", "src/stride.rs: doc of Stride::stride"]}
{"id": "C27", "title": "Strided iterators only read inside the collection", "statement": "Every scalar load performed by a strided iterator (next, end, zipped unchecked access) has an index smaller than the collection's length; `load(i)` panics exactly when its last element would be outside.", "quantifier": "every length, stride, offset, width, position reachable by iteration", "why_tests_cant": "Unsafe loads; no test can observe an over-read by one.", "anchors": ["src/stride.rs: PackedStride"]}
{"id": "C28", "title": "Zipped strides process structure-of-records data", "statement": "Zipping all s strided iterators of one collection and mapping a lane-wise function of s arguments, then collecting, equals applying the function to each complete group of s consecutive elements (chunks_exact(s)).", "quantifier": "every stride s, collection, width, defaults and function", "why_tests_cant": "The matrix-determinant tests use one size and periodic data, which hides misalignment.", "anchors": ["src/stride.rs", "src/zip.rs", "src/iters.rs: scalar_collect"]}
{"id": "C29", "title": "stride_zip delivers even/odd element pairs", "statement": "`it.stride_zip()` delivers, over a full pass, vectors of the elements at even positions paired with vectors of the elements at odd positions, in order; collecting a lane-wise binary map gives f(x0,x1), f(x2,x3), ... for all complete pairs.", "quantifier": "every collection length, width, default", "why_tests_cant": "The tail logic has four cases depending on the length modulo twice the width; there is no test at all.", "anchors": ["src/stride_zip.rs: StrideZip::next, StrideZip::end"]}
{"id": "C30", "title": "SIMDAdapter delivers all scalars of the wrapped iterator", "statement": "Packing a scalar iterator with SIMDAdapter delivers every scalar exactly once, in order, in full vectors followed by one right-aligned partial vector, and reports the number of unfilled lanes.", "quantifier": "every wrapped iterator length, width, default", "why_tests_cant": "Depends on the interplay of remaining length and position over the whole run.", "anchors": ["src/iters.rs: SIMDAdapter::next, SIMDAdapter::end, scalar_len"]}
{"id": "C31", "title": "scalar_collect_all returns all output lanes", "statement": "`scalar_collect_all()` returns the concatenation of all lanes of all vectors the iterator yields, including the redundant lanes of the partial vector, without panicking or writing out of bounds.", "quantifier": "every collection, width and closure", "why_tests_cant": "The length used for the buffer is measured in the wrong unit; whether this panics or silently truncates depends on length and profile.", "anchors": ["src/iters.rs: scalar_collect_all"]}
{"id": "C32", "title": "scalar_fill_all writes all output lanes in order", "statement": "For a buffer large enough for all lanes, `scalar_fill_all` stores the lanes of every yielded vector consecutively, the partial vector complete with its default lanes, and leaves the rest of the buffer unchanged.", "quantifier": "every buffer of sufficient size and contents, collection, width, closure", "why_tests_cant": "Frame condition and all lengths.", "anchors": ["src/iters.rs: scalar_fill_all"]}
{"id": "C33", "title": "scalar_len and vector_len agree with the data", "statement": "`scalar_len()` is the number of scalars the iterator ranges over and `vector_len()` is that number divided by the width, for every iterator type (slice iterators, maps, zips, strides).", "quantifier": "every iterator type, collection, width", "why_tests_cant": "Unit confusion between scalars and vectors is invisible when the width is not observed.", "anchors": ["src/iters.rs: SIMDSized for SIMDIter/SIMDMap", "src/zip.rs: SIMDZippedIterable::scalar_len"]}
{"id": "C34", "title": "advance and finalize skip elements", "statement": "`advance(k)` followed by a full pass behaves like a pass over the collection without the k next elements, and after `finalize()` no further element is delivered; on a map or zip the same holds.", "quantifier": "every position, k, collection, width", "why_tests_cant": "All positions and amounts.", "anchors": ["src/iters.rs: SIMDIterable::advance, finalize", "src/zip.rs: SIMDZippedIterable::finalize"]}
{"id": "C35", "title": "Merges select the documented lanes on every target", "statement": "`a.merge_halves(b)` takes the first half of a and the second half of b, `merge_interleaved` the even lanes of a and odd lanes of b, `merge_partitioned(b, n)` the first n lanes of a and the rest of b; the SSE4.1/AVX2 blend versions and the fallback versions return identical vectors for all bit patterns.", "quantifier": "every pair of vectors, every n < WIDTH, every element size and vector size", "why_tests_cant": "2^256 inputs; the tests use splats of two constants.", "anchors": ["src/intrin/merge.rs: impl_packed_merge!", "src/arch/x86/vec_patterns.rs: partition_mask, PART_MASK"]}
{"id": "C36", "title": "merge_partitioned accepts the same offsets on every target", "statement": "Whether `merge_partitioned(other, n)` panics depends only on n and WIDTH, not on the compilation target.", "quantifier": "every n, every type", "why_tests_cant": "Tests stop at n < WIDTH and run on one target.", "anchors": ["src/intrin/merge.rs: merge_partitioned (fallback and blend)"]}
{"id": "C37", "title": "Pattern constructors build the documented patterns", "statement": "`halfs(hi,lo)`, `interleave(hi,lo)`, `partition(hi,lo,off)`, `partition_mask(off)`, `ones()`, `zeroes()` return the documented lanes, the blend implementation of `partition` agreeing with the table implementation for all off <= WIDTH; larger off panics.", "quantifier": "every hi, lo, off, element size, vector size", "why_tests_cant": "Machine generated tables; all offsets and values.", "anchors": ["src/arch/x86/vec_patterns.rs", "src/arch/unknown/vec_patterns.rs", "src/vec_patterns.rs"]}
{"id": "C38", "title": "swap_bytes reverses the bytes of every lane", "statement": "`swap_bytes` reverses the byte order inside every lane, the SSSE3/AVX2 shuffle versions equal the per-lane version for all inputs, and applying it twice is the identity; to_be/to_le/from_be/from_le are mutually inverse and to_le/from_le are the identity on little-endian targets.", "quantifier": "every vector value, every integer lane size, 128- and 256-bit vectors", "why_tests_cant": "2^256 inputs; a wrong shuffle index only shows on asymmetric data.", "anchors": ["src/intrin/endian.rs", "src/arch/x86/intrin/endian.rs"]}
{"id": "C39", "title": "Saturating lane arithmetic clamps", "statement": "`saturating_add`/`saturating_sub` return in every lane the exact sum/difference clamped to the lane type's range.", "quantifier": "every pair of vectors, all lane types", "why_tests_cant": "All lane values.", "anchors": ["src/arch/x86/intrin/saturating_add.rs", "src/arch/x86/intrin/saturating_sub.rs"]}
{"id": "C40", "title": "Horizontal add/sub combine adjacent lanes in interleaved order", "statement": "`a.hadd(b)` (and hsub) returns [a0+a1, b0+b1, a2+a3, b2+b3, ...]; the unpack/shuffle + hadd versions return exactly the fallback's vector for all inputs when no lane overflows, and the wrapped values otherwise; saturating variants clamp each result.", "quantifier": "every pair of vectors, every type with an optimized version", "why_tests_cant": "Requires all lane values; the tests use a single sequence.", "anchors": ["src/intrin/macros.rs: hop!", "src/arch/x86/intrin/hadd.rs", "src/arch/x86/intrin/hsub.rs", "src/arch/x86/intrin/saturating_hadd.rs", "src/arch/x86/intrin/saturating_hsub.rs"]}
{"id": "C41", "title": "sum equals the sum of the lanes", "statement": "`sum()` equals the sum of all lanes modulo 2^bits for every optimized version (SAD for bytes, repeated hadd for 16/32 bit lanes), agreeing with the scalar fallback whenever that does not overflow.", "quantifier": "every vector value and integer vector type", "why_tests_cant": "All lane values; SAD-based signed sums split positive and negative parts.", "anchors": ["src/arch/x86/intrin/sum.rs: Sum impls", "src/intrin/sum.rs"]}
{"id": "C42", "title": "sum_upcast is the exact sum", "statement": "`sum_upcast()` returns the mathematically exact sum of all lanes as i64 for every 8-, 16- and 32-bit lane type on every target.", "quantifier": "every vector value", "why_tests_cant": "A truncation shows only when the sum exceeds the lane type; the crate's test says 'try not to overflow'.", "anchors": ["src/arch/x86/intrin/sum.rs: UpcastSum impls", "src/intrin/sum.rs"]}
{"id": "C43", "title": "Population count counts the set bits", "statement": "`count_ones()` equals the total number of one bits in the vector, `count_zeroes()` the number of zero bits, and they add up to the vector's size in bits, for all optimized versions.", "quantifier": "every vector value, element type, 128/256 bit", "why_tests_cant": "2^256 inputs; nibble table plus horizontal sum.", "anchors": ["src/arch/x86/intrin/popcnt.rs", "src/intrin/popcnt.rs"]}
{"id": "C44", "title": "abs returns the magnitude of every lane", "statement": "`abs()` of a signed integer vector returns in every lane the exact magnitude as unsigned, including for the minimum value; for floats it clears exactly the sign bit.", "quantifier": "every lane value", "why_tests_cant": "Boundary values.", "anchors": ["src/arch/x86/intrin/abs.rs", "src/intrin/abs.rs"]}
{"id": "C45", "title": "upcast preserves every value in order", "statement": "`upcast()` returns two vectors whose lanes, concatenated, are the exact values (sign- or zero-extended) of the input lanes in order, in optimized and fallback versions.", "quantifier": "every vector value, all integer lane types, 128/256 bit", "why_tests_cant": "Cross-lane shuffles in the AVX2 versions.", "anchors": ["src/arch/x86/intrin/upcast.rs", "src/intrin/upcast.rs"]}
{"id": "C46", "title": "saturating_downcast clamps every value in order", "statement": "`a.saturating_downcast(b)` returns the lanes of a then the lanes of b, each clamped to the narrower type of the same signedness, on every target.", "quantifier": "every pair of vectors, all integer lane types, every target", "why_tests_cant": "Unsigned saturation via signed pack instructions and lane crossing only fail on particular values/targets.", "anchors": ["src/arch/x86/intrin/downcast.rs", "src/arch/unknown/intrin/downcast.rs", "src/intrin/downcast.rs"]}
{"id": "C47", "title": "downcast undoes upcast", "statement": "For every vector v, with (lo, hi) = v.upcast(), lo.saturating_downcast(hi) == v.", "quantifier": "every vector value, integer types", "why_tests_cant": "All values; composition of the two shuffles.", "anchors": ["src/arch/x86/intrin/upcast.rs", "src/arch/x86/intrin/downcast.rs"]}
{"id": "C48", "title": "destride_two separates even and odd lanes", "statement": "`a.destride_two(b)` returns (even lanes of a then of b, odd lanes of a then of b) on every target.", "quantifier": "every pair of vectors, every type and target", "why_tests_cant": "Optimized AVX2 code path only compiled on some targets; no tests.", "anchors": ["src/arch/x86/intrin/destride.rs", "src/intrin/destride.rs"]}
{"id": "C49", "title": "destride_four separates the four residue classes", "statement": "`a.destride_four(b,c,d)` returns four vectors, the r-th holding the lanes with index congruent r modulo 4 of a, b, c, d in order; it is consistent with applying destride_two twice.", "quantifier": "every four vectors, every type", "why_tests_cant": "All values; macro index lists.", "anchors": ["src/intrin/destride.rs: destride_four_polyfill!", "src/arch/x86/intrin/destride.rs"]}
{"id": "C50", "title": "eq_mask and ne_mask are complementary lane masks", "statement": "`eq_mask(a,b)` has all bits set in lanes where a and b are equal and zero elsewhere; `ne_mask` is its bitwise complement.", "quantifier": "every pair of integer vectors, every type", "why_tests_cant": "All values.", "anchors": ["src/intrin/eq.rs", "src/arch/x86/intrin/eq.rs"]}
{"id": "C51", "title": "Lane-wise min and max", "statement": "`min`/`max` return in every lane the smaller/larger of the two lanes in the lane type's order (signed or unsigned), and max(a,b)+min(a,b) is lane-wise a+b as multisets.", "quantifier": "every pair of integer vectors", "why_tests_cant": "Signed versus unsigned instruction selection fails only for values with the top bit set.", "anchors": ["src/arch/x86/intrin/cmp.rs", "src/intrin/cmp.rs"]}
{"id": "C52", "title": "Reinterpretation is lossless", "statement": "Reinterpreting a vector as another lane type (be_u8s, be_i32s, ...) and back gives the original vector, preserves the number of set bits, and lane i of the byte view is byte i mod SIZE (little endian) of lane i / SIZE.", "quantifier": "every vector value, every pair of lane types of equal total size", "why_tests_cant": "All values and type pairs.", "anchors": ["src/intrin/transmute.rs", "src/arch/x86/intrin/transmute.rs"]}
{"id": "C53", "title": "coalesce inverts splat; lane reductions are left folds", "statement": "`splat(x).coalesce() == x`; coalesce in debug builds panics exactly when lanes differ; `scalar_reduce` folds the lanes from lane 0 up; `product` is the (checked) product of the lanes; extract/replace obey get/set laws and panic exactly for idx >= WIDTH.", "quantifier": "every vector, width, closure", "why_tests_cant": "All values and indices.", "anchors": ["src/vecs.rs: coalesce, splat, product, scalar_reduce, extract, replace"]}
{"id": "C54", "title": "Checked vector load on targets without SIMD", "statement": "The software vector types' safe inherent `load(slice, offset)` and `store(slice, offset)` never access memory outside the slice.", "quantifier": "every slice length and offset", "why_tests_cant": "Over-reads are invisible to tests.", "anchors": ["src/arch/unknown/vecs.rs: load, store"]}
{"id": "C55", "title": "Composed maps fuse", "statement": "`it.simd_map(f).simd_map(g)` delivers the same vectors, in the same order and with the same number of unfilled lanes as `it.simd_map(|v| g(f(v)))`, calling f and g alternately once per vector.", "quantifier": "every pair of stateful closures, every collection and width", "why_tests_cant": "All call histories of stateful closures.", "anchors": ["src/iters.rs: SIMDMap::next, SIMDMap::end"]}
{"id": "C56", "title": "Zipping partly consumed iterators pairs up their remaining elements", "statement": "A Zip built from iterators which have already delivered some elements pairs the next element of each: the i-th tuple holds, for every iterator, the element at that iterator's own position plus i.", "quantifier": "every arity, every position of every iterator", "why_tests_cant": "Only a zip of iterators at different positions shows a difference; tests zip fresh iterators.", "anchors": ["src/zip.rs: Zip::next, Zip::end (only self.iters.0.scalar_pos())"]}
{"id": "C57", "title": "The partition mask table is read within bounds", "statement": "`partition_mask(off)` and the blend version of the safe function `merge_partitioned(other, off)` never read memory outside the 128-byte mask table.", "quantifier": "every off, every element size and vector size, debug and release builds", "why_tests_cant": "Out-of-bounds reads are silent and need offsets near 2^64 in release builds.", "anchors": ["src/arch/x86/vec_patterns.rs: partition_mask, PART_MASK", "src/intrin/merge.rs: merge_partitioned (blend)"]}
{"id": "C58", "title": "flip swaps adjacent lanes", "statement": "`flip` exchanges lanes 2k and 2k+1 for every k; the SSSE3/AVX2 byte shuffle equals the per-lane version for all inputs; flipping twice is the identity.", "quantifier": "every vector value, every type", "why_tests_cant": "All values; a wrong shuffle index only shows on asymmetric data (the test uses two constants).", "anchors": ["src/intrin/swizzle.rs", "src/arch/x86/intrin/swizzle.rs"]}
{"id": "C59", "title": "Software vector operators are lane-wise", "statement": "On targets without SIMD, `a op b` for + - * / % << >> & | ^ applies the scalar operator to every pair of lanes and panics exactly when the first failing lane panics; `a op= b` leaves in a what `a op b` returns; every trait uses its own operator.", "quantifier": "every vector value, every operator, all 30 vector types", "why_tests_cant": "All lane values; 540 macro-generated operators, most never exercised on this target.", "anchors": ["src/arch/unknown/vecs.rs: impl_ops!, impl_assignops!"]}
{"id": "C60", "title": "Software vector equality compares all lanes", "statement": "On targets without SIMD, two vectors are equal if and only if all lanes are equal under the scalar ==.", "quantifier": "every pair of vectors of every type", "why_tests_cant": "A difference in one lane only shows for particular values.", "anchors": ["src/arch/unknown/vecs.rs: PartialEq::eq"]}
{"id": "C61", "title": "Software vector casts convert every lane", "statement": "On targets without SIMD, `as_T` casts convert each lane with the scalar `as`, keep the number and order of lanes and never panic.", "quantifier": "every vector value, all 48 casts", "why_tests_cant": "All values; 48 instances.", "anchors": ["src/arch/unknown/vecs.rs: impl_cast!"]}
{"id": "C62", "title": "Every element type has exactly one vector type, all of the same size", "statement": "For every consistent set of target features each primitive element type has exactly one vector type; the vector types of all elements have the same number of bytes; the declared width and element size are those of the type.", "quantifier": "every set of target features", "why_tests_cant": "Tests run with one feature set; a missing or doubled instance breaks other builds only.", "anchors": ["src/vecs.rs: impl_packed!", "src/arch/x86/vecs.rs", "src/arch/unknown/vecs.rs"]}
{"id": "C63", "title": "Float sums add every lane exactly once", "statement": "`sum` of a float vector adds every lane exactly once, in an order that depends only on the type; where no addition rounds, all versions return the exact sum, in particular for integers whose magnitudes add up to at most 2^24 (f32) or 2^53 (f64).", "quantifier": "every vector, every meaning of float addition", "why_tests_cant": "All values; a lane added twice cancels out in symmetric tests.", "anchors": ["src/intrin/sum.rs: impl_packed_sum!", "src/arch/x86/intrin/sum.rs: f32x4, f64x2, f32x8, f64x4"]}
{"id": "C64", "title": "No instruction is used without its target feature", "statement": "Code compiled for a set of target features uses only instructions which these features provide.", "quantifier": "every set of target features closed under implication, every use of an instruction", "why_tests_cant": "Tests run on machines with all features; the fault shows only on older processors.", "anchors": ["src/arch/x86/intrin/*.rs", "src/arch/x86/vec_patterns.rs"]}
{"id": "C65", "title": "Float equality masks follow IEEE equality", "statement": "`eq_mask` of float vectors has all bits set in lanes whose values are equal (the two zeros are equal, NaN equals nothing) and zero elsewhere, on every target.", "quantifier": "every pair of float vectors, every type", "why_tests_cant": "Bit equality and value equality differ only for zeros and NaN.", "anchors": ["src/intrin/eq.rs", "src/arch/x86/intrin/eq.rs", "src/arch/unknown/intrin/eq.rs"]}
{"id": "C66", "title": "Float min and max", "statement": "`min`/`max` of float vectors return in every lane an operand whose value is not above/below the other; if only one operand is a number, that one; on every target.", "quantifier": "every pair of float vectors, every type", "why_tests_cant": "The versions differ for NaN in one operand only.", "anchors": ["src/intrin/cmp.rs", "src/arch/x86/intrin/cmp.rs", "src/arch/unknown/intrin/cmp.rs"]}
{"id": "C67", "title": "floor, ceil and trunc are exact", "statement": "`floor`, `ceil` and `trunc` return in every lane the exact integer below, above or towards zero, keep the sign, infinities and NaN, and return the same lanes on every target.", "quantifier": "every float vector, every type", "why_tests_cant": "2^32 or 2^64 values per lane; mistakes at exponent boundaries, at zero and near 2^23.", "anchors": ["src/intrin/round.rs", "src/arch/x86/intrin/round.rs", "src/arch/unknown/intrin/round.rs"]}
{"id": "C68", "title": "round returns the nearest integer, the same on every target", "statement": "`round` returns in every lane the nearest integer and returns the same lanes with and without the instruction.", "quantifier": "every float vector, every type", "why_tests_cant": "The versions can differ only half-way between integers.", "anchors": ["src/intrin/round.rs", "src/arch/x86/intrin/round.rs: _MM_FROUND_TO_NEAREST_INT", "src/intrin/macros.rs: rust_fallback_impl!"]}
{"id": "C69", "title": "Roots and reciprocals are lane-wise", "statement": "Without instructions, `sqrt`, `recip` and `rsqrt` apply the scalar function to every lane and keep the order of the lanes; `rsqrt` is the reciprocal of the square root. Square roots (every version) and reciprocals without instructions are correctly rounded.", "quantifier": "every vector, every type, every meaning of the scalar functions", "why_tests_cant": "Lane lists are literals in the source, one per type.", "anchors": ["src/arch/x86/intrin/sqrt.rs", "src/arch/x86/intrin/recip.rs", "src/arch/x86/intrin/rsqrt.rs", "src/arch/unknown/intrin/"]}
{"id": "C70", "title": "Mapping a lane-wise operation over a slice is the scalar map", "statement": "`simd_map` (or `simd_for_each`) with any vector operation that works lane by lane, then collecting, returns for every element of the slice the operation's scalar result and nothing for the padding; in particular for abs, floor, ceil, trunc, round, sqrt and swap_bytes, with the instruction and with the fallback, also on targets without SIMD.", "quantifier": "every slice, every length, every default vector, every vector type of these operations, both versions", "why_tests_cant": "The combination of length, position in the last vector, type and target is too large to enumerate.", "anchors": ["src/lib.rs: Mapping example", "src/iters.rs: SIMDMap, simd_for_each", "src/arch/x86/intrin/abs.rs", "src/arch/x86/intrin/round.rs", "src/arch/x86/intrin/endian.rs"]}
{"id": "C71", "title": "A SIMD sum over a slice is the sum of its elements", "statement": "In a release build `simd_reduce(splat(0), |acc, v| acc + v).sum()` with default 0 is the sum of all elements modulo 2^bits, for every integer type and every version of sum.", "quantifier": "every slice of every length, every integer vector type and version", "why_tests_cant": "All lengths and values; the sum is spread over lanes and reduced by different code on each target.", "anchors": ["src/lib.rs: Reduction example", "src/iters.rs: simd_reduce", "src/intrin/sum.rs", "src/arch/x86/intrin/sum.rs"]}
{"id": "C72", "title": "Pure lane-wise programs give the same result for every vector width", "statement": "The collected result of a lane-wise map, and of a reduction with a commutative associative operation starting from its identity, does not depend on the vector width, the default vector of a map or the version of the operation; the documented non-portable reduction returns the length rounded up to a multiple of the width.", "quantifier": "every slice, every two widths, every operation", "why_tests_cant": "Only one width can be run per build.", "anchors": ["src/lib.rs: Portability", "src/iters.rs"]}
{"id": "C73", "title": "Zipping two slices and applying a two-argument operation is the scalar zip", "statement": "Zipping two slices of one length, mapping a lane-wise operation of two arguments and collecting gives for each index the scalar result for the two elements; in particular for +, saturating_add, saturating_sub, min, max and eq_mask, with the instruction and with the fallback, also on targets without SIMD.", "quantifier": "every two slices of one length, every pair of default vectors, every vector type of these operations, both versions", "why_tests_cant": "All lengths and values, all types and targets.", "anchors": ["src/lib.rs: Multiple collections example", "src/zip.rs", "src/arch/x86/intrin/saturating_add.rs", "src/arch/x86/intrin/cmp.rs"]}
{"id": "C74", "title": "The determinant example computes determinants", "statement": "`stride_four` on a slice, zipped, mapped with a * d - b * c and collected, returns for each complete group of four elements of the slice its determinant, in order.", "quantifier": "every slice of every length, every default vectors, every meaning of * and -", "why_tests_cant": "The example in the documentation uses one length and equal elements.", "anchors": ["src/lib.rs: Striping Collections example", "src/stride.rs: stride_four", "src/zip.rs"]}
{"id": "C75", "title": "No sequence of safe calls on a slice iterator has undefined behaviour", "statement": "Any sequence of calls of the safe methods of a slice iterator (next, end, advance, finalize, load, load_scalar, the length and position queries, and the std Iterator's next) has no undefined behaviour.", "quantifier": "every slice, every start position, every finite sequence of calls with every argument", "why_tests_cant": "Sequences of calls are unbounded and the arguments range over usize.", "anchors": ["src/iters.rs: SIMDIter", "src/iters.rs: impl SIMDIterator for T: SIMDArray"]}
{"id": "C76", "title": "Elements are handed out in order and at most once", "statement": "Whatever safe methods of a slice iterator are called in whatever order (vectors, the tail vector, single elements), the elements handed out are elements of the slice in their order, each at most once; if nothing is skipped with advance or finalize, and end() returned None at last, each exactly once.", "quantifier": "every slice, every finite sequence of calls with every argument", "why_tests_cant": "Interleavings of scalar and vector iteration are unbounded.", "anchors": ["src/iters.rs: SIMDIter", "src/iters.rs: impl Iterator for SIMDIter"]}
{"id": "C77", "title": "A map commutes with any sequence of next and end calls", "statement": "Any sequence of next, end and len calls on simd_map(it, f) returns what the same sequence returns on `it`, with f applied to each vector in order and the number of unfilled lanes converted by the lane sizes.", "quantifier": "every iterator with bounded tails, every closure with state, every sequence of calls", "why_tests_cant": "Sequences of calls and closures are unbounded.", "anchors": ["src/iters.rs: SIMDMap"]}
{"id": "C78", "title": "No sequence of safe calls on a strided iterator has undefined behaviour", "statement": "Any sequence of calls of the safe methods of a strided iterator has no undefined behaviour, and the elements handed out are elements of the stride in their order, each at most once.", "quantifier": "every slice, every stride and offset, every finite sequence of calls with every argument", "why_tests_cant": "The index computations overflow only for arguments close to usize::MAX / stride.", "anchors": ["src/stride.rs: PackedStride"]}
{"id": "C79", "title": "No undefined behaviour in debug builds", "statement": "In a build with debug assertions and overflow checks, no method and no consumer of any iterator built with the crate (slices, strides, maps, zips, stride_zip, the adapter, in any nesting and any reachable state) has undefined behaviour, whatever the arguments, buffer lengths and closures (themselves free of undefined behaviour).", "quantifier": "every nesting of constructors, every reachable state, every argument, buffer and closure", "why_tests_cant": "Nestings and call sequences are unbounded; a test shows only that its own inputs hit the assertions.", "anchors": ["src/iters.rs", "src/stride.rs", "src/zip.rs", "src/stride_zip.rs", "src/vecs.rs: load_unchecked, store_unchecked, extract_unchecked, replace_unchecked"]}
{"id": "C80", "title": "end() does not depend on the target", "statement": "end() and end_unchecked() return the same (or fail in the same way) with the SSE4.1/AVX2 blend version of merge_partitioned as with the fallback; in particular complete passes, reductions and collected pipelines have the same values on both kinds of targets.", "quantifier": "every iterator over every array, every state, every lane size and width of the crate, every closure, both build profiles", "why_tests_cant": "The versions are compiled for different targets; the states are unbounded.", "anchors": ["src/iters.rs: impl SIMDIterator for T: SIMDArray", "src/iters.rs: end_unchecked", "src/zip.rs: end", "src/intrin/merge.rs: merge_partitioned", "src/arch/x86/intrin/merge.rs"]}
{"id": "C81", "title": "No sequence of safe calls on a slice iterator has undefined behaviour on SSE4.1/AVX2 targets", "statement": "Any sequence of calls of the safe methods of a slice iterator, on a target where merge_partitioned is the blend version, has no undefined behaviour.", "quantifier": "every slice, every lane size and width of the crate, every start position, every finite sequence of calls with every argument", "why_tests_cant": "Sequences of calls are unbounded; the out-of-bounds read happens only for certain numbers of remaining elements and only in release builds.", "anchors": ["src/iters.rs: SIMDIter", "src/iters.rs: impl SIMDIterator for T: SIMDArray", "src/arch/x86/vec_patterns.rs: partition_mask"]}
{"id": "C82", "title": "Zipped reductions: dot products and squared distances are exact", "statement": "Zipping slices and reducing with a lane-wise kernel added to an accumulator of zeros, then summing the lanes, gives the kernel summed over the tuples of elements plus the kernel at the default lanes of the padding; with zero defaults and a kernel which is zero there (dot product, sum of squared differences) exactly the sum over the elements, modulo 2^bits.", "quantifier": "every arity, every kind of iterators, every slices of one length, every defaults, every correct version of sum", "why_tests_cant": "All lengths and values; the contribution of the padding depends on the length modulo the width.", "anchors": ["tests/kernel.rs", "tests/zip.rs: zip_simd_reduce", "src/zip.rs: simd_reduce", "src/iters.rs: simd_reduce"]}
{"id": "C83", "title": "Filling a buffer from a zipped map", "statement": "zip().simd_map(F).scalar_fill(buf) with lane-wise F writes the results for the tuples of elements to the front of buf and leaves the rest of buf as it was, if buf is long enough.", "quantifier": "every arity, every kind of iterators, every slices of one length, every buffer which is long enough", "why_tests_cant": "All lengths of slices and buffers.", "anchors": ["tests/kernel.rs", "src/iters.rs: scalar_fill", "src/zip.rs: SIMDZipMap"]}
{"id": "C84", "title": "Strided and contiguous iterators can be mixed in a zip", "statement": "A strided iterator zipped with a slice iterator, in either order, pairs every s-th element with the elements of the slice; the 3x3 determinant program of the tests computes the determinants of all complete matrices.", "quantifier": "every slices, every stride and offset, every function of two arguments, every meaning of the operations", "why_tests_cant": "The tests use one length and constant elements.", "anchors": ["tests/zip.rs: zipped_heterogeneous_iters, zipped_stride_iters", "src/stride.rs", "src/zip.rs"]}
{"id": "C85", "title": "Explicit store loops write each result to its place", "statement": "A for loop over an iterator which stores F(v) at i * width, and the same loop over unroll(n), write the results of the complete vectors one after the other to the front of the buffer, leave the rest, and panic if the buffer is too short.", "quantifier": "every slice, every F and pair of widths, every buffer, every unroll amount, as written in the benches", "why_tests_cant": "The benches use equal elements, so a misplaced store is not visible.", "anchors": ["benches/usage.rs: for_fill_simd, for_unrolled_simd, high_latency_for, high_latency_unrolled, for_simd", "src/iters.rs: Unrolled", "src/vecs.rs: store"]}
{"id": "C86", "title": "Destriding chunks equals zipping strides", "statement": "for v in slice.simd_iter(d).unroll(2) { v[0].destride_two(v[1]) } and slice.stride_two(..).zip().simd_do_each(..) see the same vectors, the deinterleaved elements, if the slice is a multiple of two vectors; the same for four.", "quantifier": "every slice, every default vectors, every type and version of destride", "why_tests_cant": "All lengths and values; the bench data are zeros.", "anchors": ["benches/destride.rs", "src/intrin/destride.rs", "src/arch/x86/intrin/destride.rs", "src/stride.rs", "src/zip.rs"]}
{"id": "C87", "title": "A zip is an iterator over rows", "statement": "Any sequence of calls of the safe methods of a zip of slices of one length returns what the same calls return on an iterator over the slice of tuples, split into columns (for two slices: the pairs of the answers of the two iterators); it panics or has undefined behaviour exactly when that iterator does.", "quantifier": "every arity, every element types, every slices of one length, every start position, every finite sequence of calls with every argument", "why_tests_cant": "Sequences of calls are unbounded.", "anchors": ["src/zip.rs: impl_iter_zip!", "src/zip.rs: SIMDZippedIterable", "src/iters.rs: UnsafeIterator"]}
{"id": "C88", "title": "No sequence of safe calls on a zip has undefined behaviour", "statement": "Any sequence of calls of the safe methods of a zip of slices of one length and one lane width has no undefined behaviour.", "quantifier": "every arity, every element types, every slices of one length, every start position, every finite sequence of calls with every argument, both build profiles", "why_tests_cant": "Sequences of calls are unbounded; the zip calls unsafe methods whose conditions only the first iterator's checks establish.", "anchors": ["src/zip.rs: impl_iter_zip!", "src/iters.rs: next_unchecked, end_unchecked"]}
{"id": "C89", "title": "A zip hands out each row once, in order", "statement": "Whatever safe methods of a zip are called in whatever order, the tuples of elements handed out consist of elements at the same index, in order, each index at most once; if nothing is skipped with advance or finalize, and end() returned None at last, each exactly once.", "quantifier": "every arity, every slices of one length, every finite sequence of calls with every argument", "why_tests_cant": "Interleavings of calls are unbounded.", "anchors": ["src/zip.rs: impl_iter_zip!"]}
{"id": "C90", "title": "A map over a zip commutes with any sequence of calls", "statement": "Any sequence of next, end, advance, len and scalar_pos calls on zip().simd_map(f) returns what the same sequence returns on the map of f over an iterator over the slice of tuples, with the same captured state, and fails in the same way.", "quantifier": "every arity, every slices of one length, every closure with state, every sequence of calls", "why_tests_cant": "Sequences of calls and closures are unbounded.", "anchors": ["src/zip.rs: SIMDZipMap"]}
{"id": "C91", "title": "A pipeline neither hangs nor has undefined behaviour in a release build", "statement": "simd_reduce, simd_do_each, scalar_collect, and scalar_fill into a large enough buffer, of a pipeline built from slices, strides, zips of equal lengths and lane widths, stride_zips and maps terminate with a result or a panic if the closures do, without undefined behaviour; scalar_collect returns no uninitialized cells.", "quantifier": "every nesting of slices, strides, zips, stride_zips and maps; every closures with state which return or panic and keep the total size of vectors (others: C130); every data; both build profiles", "why_tests_cant": "Pipelines nest without bound; release builds have no assertions which would show a violated condition.", "anchors": ["src/iters.rs", "src/zip.rs", "src/stride.rs", "src/stride_zip.rs"]}
{"id": "C92", "title": "A lane-wise pipeline computes the scalar program", "statement": "scalar_collect, scalar_fill, simd_reduce and simd_do_each of a pipeline of lane-wise maps over slices, strides and zips see exactly the list which the corresponding scalar program computes, independent of the nesting, of the vector width and of the build profile.", "quantifier": "every nesting of lane-wise maps over slices, strides and zips of any arity, every lengths, every lane-wise closures with results of the size of the arguments, every vector width", "why_tests_cant": "Nesting, lengths and closures are unbounded.", "anchors": ["src/iters.rs: SIMDMap, scalar_collect, scalar_fill, simd_reduce", "src/zip.rs", "src/stride.rs"]}
{"id": "C93", "title": "What the documentation's non-portable programs compute", "statement": "A map whose closure is lane-wise but changes its state with every call computes element i in the state after i / WIDTH calls; a reduction which adds a constant vector at every call adds it once per vector, the incomplete one included. So the two examples of the crate documentation give results which depend on the vector width in exactly this way.", "quantifier": "every data, every length, every vector width, every such closure and state, every integer version of sum", "why_tests_cant": "The dependence on width and length is a universally quantified formula; a test runs on one target.", "anchors": ["src/lib.rs", "src/iters.rs: SIMDMap, scalar_collect, simd_reduce"]}
{"id": "C94", "title": "Diagnostics are printed once per thread", "statement": "With the trace feature every thread prints each of its distinct messages exactly once, in the order of first reports, whatever the other threads do; a report panics only if standard output fails, and is then repeated the next time. The log file gets a line for every report whose message the thread has not printed before, if it can be written.", "quantifier": "every interleaving of reports of any number of threads, every failures of the log file and of standard output", "why_tests_cant": "Interleavings and failures are unbounded.", "anchors": ["src/debug.rs"]}
{"id": "C95", "title": "Software vector constructors and conversions", "statement": "On targets without SIMD new puts its arguments into the lanes in order, splat fills all lanes, len is the number of lanes; there is exactly one conversion between any two different integer vector types of one size; a chain of conversions depends only on the last type and changes no bit; unchecked loads and stores agree with the checked ones within bounds and fail otherwise.", "quantifier": "every integer vector type, every value, every chain of conversions of any length, every slice", "why_tests_cant": "All values and all chains of types.", "anchors": ["src/arch/unknown/vecs.rs: impl_packed_type!, impl_from!"]}
{"id": "C96", "title": "A pipeline never writes outside the buffer it fills", "statement": "scalar_fill of a lane-wise pipeline (maps over slices, strides and zips, nested) succeeds exactly if the buffer has room for all results; otherwise it panics and writes nothing outside the buffer.", "quantifier": "every lane-wise pipeline whose closures keep the size of lanes, every length of data and of buffer, every vector width, both build profiles", "why_tests_cant": "Pipelines and lengths are unbounded, and release builds have no assertion.", "anchors": ["src/iters.rs: scalar_fill", "src/zip.rs", "src/vecs.rs: store_unchecked"]}
{"id": "C97", "title": "No sequence of safe calls on a stride_zip has undefined behaviour", "statement": "No sequence of calls of the safe methods of a stride_zip of a slice has undefined behaviour.", "quantifier": "every finite sequence of calls, every slice, every position and kept vector, every amounts passed to advance, both build profiles", "why_tests_cant": "Sequences of calls are unbounded.", "anchors": ["src/stride_zip.rs", "src/iters.rs: end"]}
{"id": "C98", "title": "A stride_zip is an iterator over consecutive pairs", "statement": "A stride_zip of a slice answers every sequence of calls of next, advance, finalize, len, scalar_pos, scalar_len, vector_pos and vector_len as an iterator over the slice of its consecutive pairs; exhaustion is permanent, and end delivers at most once.", "quantifier": "every finite sequence of calls, every slice, every position", "why_tests_cant": "Sequences of calls are unbounded.", "anchors": ["src/stride_zip.rs"]}
{"id": "C99", "title": "The vectorised base100 encoder computes the scalar one", "statement": "base100_enc_simd writes the same bytes as base100_enc_scalar, four for each byte of the data, and fails exactly if the buffer is too short.", "quantifier": "every data and buffer, 16 and 32 lanes, every version of upcast, downcast, swap_bytes and merge_interleaved, both build profiles", "why_tests_cant": "The benchmark runs on one constant array and never looks at the result.", "anchors": ["benches/usage.rs: base100_enc_simd, base100_enc_scalar"]}
{"id": "C100", "title": "The zip benchmark computes sums of magnitudes", "statement": "zip_simd returns for every pair of consecutive elements the sum of their magnitudes, cut off at the largest u32; more generally, a total closure which treats lanes differently is applied to element i as in the lane in which element i travels.", "quantifier": "every slice, 128 and 256 bits and targets without SIMD, every version of upcast, abs and downcast, both build profiles", "why_tests_cant": "The benchmark runs on one constant array and never looks at the result; the limit of a lane matters only for sums of 2^31 and more.", "anchors": ["benches/usage.rs: zip_simd", "src/zip.rs", "src/stride.rs: stride_two", "src/arch/x86/intrin/downcast.rs"]}
{"id": "C101", "title": "The integer pipelines of the example program", "statement": "lots_of_84s computes 9 * |x| - 6 modulo 2^8 for every element, filled_u8s writes every element doubled to the start of the buffer and changes nothing else, strided returns the sums of consecutive pairs.", "quantifier": "every slice and buffer of sufficient length, every number of lanes, every version of abs, both build profiles", "why_tests_cant": "The example prints results for one array each.", "anchors": ["examples/main.rs"]}
{"id": "C102", "title": "Assertions about the last lane of a vector see data, never padding", "statement": "The last lane of every vector passed to a closure is the last element of its group, also for incomplete vectors; a pipeline over zipped strides whose closure asserts something about the last lanes fails exactly if the assertion is false for the last row of some group. The test of zipped strides passes for any number of copies of its matrix.", "quantifier": "every slice, every stride and number of lanes, every assertion", "why_tests_cant": "The test uses one matrix, one number of copies and one vector width.", "anchors": ["tests/zip.rs: zipped_stride_iters"]}
{"id": "C103", "title": "Upcasts to floats are exact", "statement": "upcast from f32 and i32 vectors to f64 vectors keeps every value and the order of the lanes; NaNs stay NaNs, and zeros and infinities keep their signs.", "quantifier": "every vector, every type and version", "why_tests_cant": "2^32 values in each lane.", "anchors": ["src/arch/x86/intrin/upcast.rs: f32x4, i32x4, f32x8, i32x8, f32x16, i32x16", "src/arch/unknown/intrin/upcast.rs"]}
{"id": "C104", "title": "Downcasts to f32 round to nearest and saturate", "statement": "saturating_downcast from f64 to f32 vectors returns the nearest f32 of every lane in order; as documented, numbers beyond the range of f32 become its largest or smallest number. Casting an f32 vector up and down again returns it.", "quantifier": "every pair of vectors, every type and version", "why_tests_cant": "2^64 values in each lane; large ones are not tested.", "anchors": ["src/intrin/downcast.rs", "src/arch/x86/intrin/downcast.rs: f64x2, f64x4", "src/arch/unknown/intrin/downcast.rs"]}
{"id": "C105", "title": "The benchmarks of functions compute what their scalar versions compute", "statement": "Each SIMD benchmark of benches/intrin.rs (abs, ceil, floor, min, max, recip, round, sqrt, trunc) returns for any slice the same list as its scalar benchmark.", "quantifier": "every slice of f32, 128 and 256 bits and targets without SIMD, every version except the reciprocal instruction, both build profiles", "why_tests_cant": "The benchmarks run on one constant array and never compare the results.", "anchors": ["benches/intrin.rs", "src/arch/x86/intrin/round.rs", "src/arch/x86/intrin/cmp.rs", "src/arch/x86/intrin/sqrt.rs", "src/arch/x86/intrin/recip.rs"]}
{"id": "C106", "title": "The float pipelines of the benchmarks agree with their scalar versions", "statement": "map_simd, map_uneven_simd and map_fill_simd give the result of map_scalar for every element in order, bit for bit without RSQRTPS, and 3.0 for every number of magnitude 1.002 or more with any reciprocal root within the documented error; reduce_simd and reduce_uneven_simd return the sum which reduce_scalar returns.", "quantifier": "every slice and length, every number of lanes, every version of abs, sqrt, ceil and sum, every rsqrt within the documented error, both build profiles", "why_tests_cant": "The benchmarks run on one constant array and never look at the result.", "anchors": ["benches/usage.rs: map_simd, map_uneven_simd, map_fill_simd, map_scalar, reduce_simd, reduce_uneven_simd, reduce_scalar"]}
{"id": "C107", "title": "The float pipelines of the example program", "statement": "reduced is exactly the sum of the fourth roots of the magnitudes rounded down, whatever the length and the order of the additions, as long as it is at most 2^24; lots_of_3s and lots_of_3s_sc are lists of 3.0.", "quantifier": "every slice of numbers whose fourth root is not within one part in a million below an integer, every number of lanes, every version of the functions, both build profiles", "why_tests_cant": "The example prints results for one array each.", "anchors": ["examples/main.rs"]}
{"id": "C108", "title": "The high latency benchmark computes pi times a root", "statement": "high_latency writes for every element x, at its place, the result of the scalar computation; for x from 2^-100 to 2^100 this is pi * sqrt(1.2 * x) with a relative error of at most 2^-22, for negative x it is NaN, so the array of the benchmark gives only NaN.", "quantifier": "every slice and every buffer of sufficient length, 128 and 256 bits and targets without SIMD, every version of upcast and sqrt, both build profiles", "why_tests_cant": "The benchmark runs on one constant negative array and never looks at the result; casts swapping lanes or halves would go unnoticed.", "anchors": ["benches/usage.rs: high_latency", "src/arch/x86/intrin/upcast.rs", "src/arch/x86/intrin/downcast.rs", "src/arch/x86/intrin/sqrt.rs"]}
{"id": "C109", "title": "The error of float sums is bounded by the number of roundings", "statement": "The result of sum, and of a reduction with vector additions followed by sum, if finite, differs from the exact sum of the terms by at most ((1 + u)^D - 1) times the sum of their magnitudes, where u is 2^-24 (f32) or 2^-53 (f64) and D is the number of additions which depend on one another: for sum its depth, for a slice one more per vector. It is finite if the bound on its magnitude is below the overflow limit. The scalar loop has the same bound with one rounding per element.", "quantifier": "every vector of finite floats, every slice and number of lanes, every lane-wise function, every version of sum, f32 and f64", "why_tests_cant": "The tests add a few small integers, for which no rounding happens.", "anchors": ["src/arch/x86/intrin/sum.rs", "src/arch/unknown/intrin/sum.rs", "src/iters.rs: simd_reduce"]}
{"id": "C110", "title": "The zip benchmarks compute what the scalar loops beside them compute", "statement": "determinant3_simd, determinant2_simd, zip_nop_simd, zip_simd and nop_simd give the results of determinant3_scalar, determinant2_scalar, zip_nop_scalar, zip_scalar and nop_scalar for every slice on which these do not panic, and stride_zip gives the results of stride_zip_naive.", "quantifier": "every slice, every number of lanes, both build profiles", "why_tests_cant": "The benchmarks run on constant arrays whose length is a multiple of the vector size and never compare the results.", "anchors": ["benches/usage.rs: nop_simd, nop_scalar, determinant3_simd, determinant3_scalar, determinant2_simd, determinant2_scalar, zip_simd, zip_scalar, zip_nop_simd, zip_nop_scalar, stride_zip_naive, stride_zip"]}
{"id": "C111", "title": "Float kernels over zipped slices are as exact as their roundings", "statement": "A zipped map or reduction which adds the float results of any lane-wise function and ends with sum returns, if finite, the exact sum of these results up to the factor (1 + u)^D - 1, where D counts the dependent additions. If all results are integers and their magnitudes add up to at most 2^24 (f32) or 2^53 (f64), the result is exact. A dot product differs from the exact one by one more rounding per product, and half the smallest float per product below the normal numbers.", "quantifier": "every pair of slices of finite floats, every number of lanes, every version of sum, f32 and f64", "why_tests_cant": "The tests use constant arrays of small integers.", "anchors": ["tests/zip.rs", "src/zip.rs: simd_reduce, simd_map", "src/arch/x86/intrin/sum.rs", "src/arch/unknown/intrin/sum.rs"]}
{"id": "C112", "title": "The programs of the integration tests are right for all inputs", "statement": "in_place_mutation leaves the slice which the scalar loop leaves. simd_reduce returns the sum of the slice if it is representable and no element is negative, and in release builds always, modulo 2^n. kernel_definite returns the sum of squared differences by filling a buffer and by reducing, if it is representable. kernel_relative returns the exact sum for floats of integral value up to 2^24 or 2^53, the same number as the scalar loop; for other floats both differ by at most the rounding errors of the additions.", "quantifier": "every slice and length, every number of lanes, every element type and version of sum, both build profiles", "why_tests_cant": "The tests run up to 129 equal elements.", "anchors": ["tests/iters.rs", "tests/kernel.rs"]}
{"id": "C113", "title": "Reinterpretation and byte orders on targets of either endianness", "statement": "Reinterpreting a vector as another lane type and back gives the original vector. to_le followed by a store writes the bytes of every lane in little-endian order, to_be in big-endian order. Mapping a slice with to_le and a reinterpretation as smaller lanes, as the bitcast_map_width tests do, collects the parts of every element from the least significant one, in order.", "quantifier": "every slice and length, every number of lanes, every pair of lane sizes of which one divides the other, little- and big-endian targets, both build profiles", "why_tests_cant": "The tests run on the endianness of the machine of the developer, on one slice each.", "anchors": ["src/iters.rs: bitcast_map_width_doubles, bitcast_map_width_quadruples, bitcast_map_width_octuples", "src/intrin/transmute.rs", "src/intrin/endian.rs", "src/arch/unknown/intrin/transmute.rs", "src/arch/x86/intrin/transmute.rs"]}
{"id": "C114", "title": "The generated pattern constructors have the right lanes in every implementation", "statement": "The script vec_patterns_gen.py writes, for any even number of lanes, a halfs whose first half is hi, an interleave whose even lanes are hi, and a partition which for every offset up to the width has hi in the lanes below the offset and panics for larger offsets; ones and zeroes are the constants with all bits set and clear. The committed files are what the script writes: each literal of the 40 implementations, the bytes of PART_MASK and the gates of the blend versions.", "quantifier": "every number of lanes (the script), all 40 vector types in the committed files, every pair of values, every offset", "why_tests_cant": "The files have 2500 lines of literals; the tests use the patterns only through one type and two values.", "anchors": ["scripts/vec_patterns_gen.py", "src/arch/x86/vec_patterns.rs", "src/arch/unknown/vec_patterns.rs", "src/vec_patterns.rs"]}
{"id": "C115", "title": "The assertions of the documentation examples hold for all values and versions", "statement": "With x and y in place of the literals: merging constant vectors gives the patterns halfs, interleave and partition; flip exchanges the values of an interleaved pattern; upcast of halfs gives two constant vectors; saturating_downcast of two constant vectors gives halfs of the clamped values; eq_mask and ne_mask of a pattern with a constant are the pattern of the comparisons; min, max, swap_bytes, abs, sqrt of squares, round, ceil, floor and trunc of constant vectors and patterns are the constants and patterns of the results.", "quantifier": "every value, every vector type, every optimized and fallback version", "why_tests_cant": "Documentation examples run with one pair of values on the target of the developer.", "anchors": ["src/intrin/merge.rs:17-43", "src/intrin/swizzle.rs:18-19", "src/intrin/upcast.rs:23", "src/intrin/downcast.rs:23-24", "src/intrin/eq.rs:23-39", "src/intrin/cmp.rs:16-30", "src/intrin/endian.rs:16", "src/intrin/abs.rs:19-20", "src/intrin/sqrt.rs:19-20", "src/intrin/round.rs:17-68"]}
{"id": "C116", "title": "The macros which write out tuples and types have consistent arguments", "statement": "The zip of a tuple expanded by each invocation of impl_iter_zip! is the zip which checks the length of, reads and fills every iterator once, in order. tuplify!(n, x) is n copies of x for n from 1 to 12. The struct literals of stride_two, stride_three, stride_four and stride_nine are the iterators of stride_into with as many defaults. Every element type has an IntoSIMDIterator implementation with its own vector type. Every be_ method returns a vector with the element type of its name and the same number of bytes.", "quantifier": "all 12 invocations, every iterator type, state and build profile; every n and value; every collection and defaults; every vector type and be_ method", "why_tests_cant": "The tests zip at most nine iterators and check few of the 40 x 10 conversions.", "anchors": ["src/zip.rs: impl_iter_zip!, tuplify!", "src/stride.rs: stride_two, stride_three, stride_four, stride_nine, stride_into", "src/into_iters.rs", "src/intrin/transmute.rs", "src/arch/x86/intrin/transmute.rs", "src/arch/unknown/intrin/transmute.rs"]}
{"id": "C117", "title": "A panicking closure leaves the buffer and the iterator in a known state", "statement": "If the closure of a map panics during scalar_fill and the caller catches the panic, the buffer holds the results of the completed calls and is otherwise unchanged, and the iterator stands behind the vector of the panicking call. Filling again from the same iterator writes the results of the later vectors, from the start of the buffer. A panic of the closure of simd_do_each or simd_reduce leaves the iterator behind the vector of the call, and reducing again reduces the later vectors.", "quantifier": "every slice, stride and zip of any number of iterators, every stateful closure, every position of the panicking call, every buffer, both build profiles", "why_tests_cant": "A test can catch one panic at one position. The states of the iterator between the vectors are not public.", "anchors": ["src/iters.rs: scalar_fill, SIMDMap, simd_do_each", "src/zip.rs: SIMDZipMap", "src/stride.rs: PackedStride"]}
{"id": "C118", "title": "Slices can be processed in parts which end with full vectors", "statement": "If a slice is cut at a multiple of the number of lanes, then simd_do_each, simd_reduce, simd_map with scalar_collect, and simd_for_each on the whole slice do what they do on the first part and then, with the state and the accumulator left by it, on the second. Reductions whose closure applies an associative operation with identity to the lanes can be done for both parts independently and combined.", "quantifier": "every slice and multiple of the number of lanes, every stateful closure, also closures which change the number of lanes (but not the size of the vector) or panic, both build profiles", "why_tests_cant": "Parallel programs cut slices at positions which depend on the number of threads.", "anchors": ["src/iters.rs: next, end, simd_do_each, simd_reduce, scalar_collect, simd_for_each"]}
{"id": "C119", "title": "Positions and lengths in vectors are those in scalars divided by the width", "statement": "For every iterator in every state, vector_pos() is scalar_pos() divided by width(), and vector_len() is scalar_len() divided by width(), although PackedStride, StrideZip and SIMDZipMap replace the default bodies by others.", "quantifier": "every iterator type (slices, maps, strides, adapters, zips, mapped zips, stride_zip), every position and base", "why_tests_cant": "The tests compare no positions in vectors; the overriding bodies differ only from positions which are not multiples of the width.", "anchors": ["src/iters.rs: vector_pos, vector_len", "src/stride.rs: vector_pos", "src/stride_zip.rs: vector_pos", "src/zip.rs: vector_pos, vector_len"]}
{"id": "C120", "title": "Casts between software vectors convert every lane like the scalar as", "statement": "Every cast between the vector types of targets without SIMD returns a vector of as many lanes, where a lane cast between integers has the same bits, an integer cast to a float becomes the nearest float with ties to even, and a float cast to an integer is rounded towards zero and limited to the range of the type, with 0 for NaN. Integers of at most 24 (53) bits survive the way to f32 (f64) and back.", "quantifier": "every cast of the table, every vector of bits including NaN, infinities and subnormal numbers", "why_tests_cant": "There are 2^128 vectors; rounding ties, limits and NaN are single values of them.", "anchors": ["src/arch/unknown/vecs.rs:215-228", "src/arch/unknown/vecs.rs:462-520"]}
{"id": "C121", "title": "sum_upcast of floats and 64-bit integers is the exact sum", "statement": "sum_upcast, which returns an i64 for every vector type, is the exact sum of the lanes if the sums fit in 63 bits.", "quantifier": "every number of lanes and every vector of f32, f64, i64 and u64, both build profiles", "why_tests_cant": "The tests use whole numbers between -100 and 100.", "anchors": ["src/intrin/sum.rs:35-47", "src/arch/x86/intrin/sum.rs:260-281", "src/arch/unknown/intrin/sum.rs:13"]}
{"id": "C122", "title": "No sequence of calls on an adapter accesses memory out of bounds or loses scalars", "statement": "Whatever sequence of the safe methods next, end, advance, scalar_pos and len is called on a SIMDAdapter, no lane outside the scratch vector is written, and the scalars handed out by the calls, followed by the scalars which are left in the wrapped iterator, are the scalars of the wrapped iterator in order.", "quantifier": "every wrapped iterator, number of lanes, state of the adapter, sequence of calls of any length, both build profiles", "why_tests_cant": "No test builds an adapter; the sequences of calls are unbounded, and positions near usize::MAX are out of reach of a test.", "anchors": ["src/iters.rs:225-309"]}
{"id": "C123", "title": "Zips of collections of different lengths combine elements with equal indices", "statement": "If zip accepts two collections of different lengths, a pass over it combines only elements with the same index and stops at the end of the shorter collection, as core::iter::zip does, without accessing memory out of bounds.", "quantifier": "every pair of lengths, lane widths and positions for single calls; every pair of lengths for complete passes; both build profiles", "why_tests_cant": "The tests zip collections of equal lengths; which wrong elements are combined depends on both lengths modulo the number of lanes.", "anchors": ["src/zip.rs:228", "src/zip.rs:243-281", "src/iters.rs:588-612"]}
{"id": "C124", "title": "Exactly one version of every vector method is compiled", "statement": "For every set of target features, exactly one version of each method of each vector type is compiled: never none and never two. No method is implemented twice. A vector type which has one method of a trait has all its required methods and those of its supertraits.", "quantifier": "every set of target features (any predicate on names), every method of every vector type under src/arch, both architecture directories", "why_tests_cant": "A compiler run sees only one set of target features; a missing or doubled version shows up only when someone compiles for just that set.", "anchors": ["src/arch/x86/intrin/sum.rs:255-280", "src/arch/x86/intrin/hadd.rs:16-130", "src/intrin/macros.rs:9-64", "src/intrin/merge.rs:49-116", "src/arch/x86/intrin/abs.rs", "src/arch/x86/intrin/upcast.rs", "src/arch/x86/intrin/downcast.rs"]}
{"id": "C125", "title": "Native vectors have the same methods on every target", "statement": "The native vector types u8s, \u2026, f64s have the same methods, with native vectors as type parameters, whatever the target architecture and its features, so a program which uses the prelude compiles for all targets or for none.", "quantifier": "every method of a vector trait, every element type, every set of target features without AVX-512, both architecture directories", "why_tests_cant": "Tests run on one target; a method which is missing on another one shows up only there.", "anchors": ["src/arch/x86/intrin/popcnt.rs:72-79", "src/arch/unknown/intrin/saturating_add.rs", "src/arch/x86/intrin/saturating_add.rs", "src/arch/unknown/intrin/rsqrt.rs:26-30", "src/arch/x86/intrin/rsqrt.rs:16-26", "src/arch/unknown/intrin/mod.rs", "src/arch/x86/intrin/mod.rs"]}
{"id": "C126", "title": "The unit tests of float rounding and reciprocals hold up to limits of a million", "statement": "The loops of the unit tests of round, trunc, ceil, floor and recip pass with every limit up to 2^20 in place of 32 and 1024, the sharp cases k+0.8, k+0.1 and k of the documentation for every k below 2^20, and the documentation examples of recip and rsqrt with every number of at least 1/10 (1/100), in every implementation that is compiled.", "quantifier": "every limit and start up to 2^20, every implementation of round, trunc, ceil and floor, every recip and rsqrt with at most the documented relative error of 1.5/4096, both build profiles", "why_tests_cant": "The tests check 32 or 2048 values on the implementation of one target; the assertions compare rounded sums, so that they hold for larger values has to be shown by an error analysis (they fail from 2^21 on).", "anchors": ["src/intrin/round.rs:79-165", "src/intrin/recip.rs:19-41", "src/intrin/rsqrt.rs:20-21"]}
{"id": "C127", "title": "The unit tests of horizontal operations, upcast, abs, popcnt and sums hold for all constants", "statement": "The unit tests of hadd, hsub, saturating_hadd, saturating_hsub, upcast, abs, count_ones, sum and sum_upcast, which compare results on constant and alternating vectors with expected ones, pass with any constants in place of the literals, on every version of every method, as long as no addition in the scalar arithmetic of the test overflows in a checked build.", "quantifier": "every constant (integers; whole floats below 2^24 and 2^53), every vector type, every implementation, both build profiles", "why_tests_cant": "The tests use one or two constants each; the loop of the integer sum tests, which is meant to cover the whole range, makes a single iteration for every type (with 1 for unsigned types and -1 for i8).", "anchors": ["src/intrin/hadd.rs:20-78", "src/intrin/hsub.rs:20-78", "src/intrin/saturating_hadd.rs:20-74", "src/intrin/saturating_hsub.rs:20-74", "src/intrin/upcast.rs:32-80", "src/intrin/abs.rs:29-75", "src/intrin/popcnt.rs:36-52", "src/intrin/sum.rs:49-81"]}
{"id": "C128", "title": "A for loop visits every complete vector", "statement": "`for v in it { body }` runs the body on every complete vector of the collection, in order, once each, for iterators over slices, maps, zips, strided iterators, stride_zip and SIMDAdapter. The unit tests of strided iterators, which use load_scalar, load and such a loop, pass for any elements with the tested property, and look at every complete vector.", "quantifier": "every length, width, stride, iterator number, default, every body with state or panic, both build profiles", "why_tests_cant": "The only loop in the tests asserts a property of each vector it sees and would also pass if it saw none.", "anchors": ["src/stride.rs: PackedStride::next", "src/stride.rs:352-393", "src/iters.rs: SIMDIter::next, SIMDAdapter::next", "src/zip.rs: Zip::next", "src/stride_zip.rs: next"]}
{"id": "C129", "title": "The tests of merges, swaps, masks, roots, products and reinterpretations hold for all constants", "statement": "The unit tests of merge_interleaved, merge_halves, merge_partitioned, swap_bytes, flip, eq_mask, ne_mask, sqrt, product and the be_* reinterpretations pass for all constants for which their expected values are right: merges, swap_bytes, flip and round trips for all integers and for all floats but NaN; the masks exactly for two constants with different values and no NaN; sqrt for every perfect square exactly if the limits enclose the root; product exactly if the expected value is the power, which in a checked build must fit.", "quantifier": "every constant of every type, every vector for the reinterpretations, every version (instruction or fallback) of each function, both build profiles", "why_tests_cant": "The tests use one pair of small literals each.", "anchors": ["src/intrin/merge.rs:118-140", "src/intrin/endian.rs:93-106", "src/intrin/eq.rs:78-95", "src/intrin/sqrt.rs:30-42", "src/intrin/transmute.rs:108-134", "src/arch/x86/intrin/swizzle.rs:99-117", "src/arch/x86/vecs.rs:40-56"]}
{"id": "C130", "title": "Maps may change the size of vectors", "statement": "simd_map and simd_map of zips accept closures which return vectors of any type; whatever the total sizes of argument and result, scalar_collect of a lane-wise map from w lanes to w lanes returns the results of all elements and nothing else, and neither scalar_collect nor scalar_fill has undefined behaviour or panics.", "quantifier": "every slice, strided iterator and zip, every closure (with state, panicking, not lane-wise), every pair of vector types, every length, both build profiles", "why_tests_cant": "Every test maps between vectors of the same size; whether the result is right, too long, partly overwritten, a panic or undefined behaviour depends on the length, both sizes and both numbers of lanes.", "anchors": ["src/iters.rs:85-86", "src/iters.rs: SIMDMap::end", "src/zip.rs: SIMDZipMap::end", "src/iters.rs: scalar_fill, scalar_collect"]}
{"id": "C131", "title": "Which implementations pass the unit tests", "statement": "An implementation passes the unit test of hadd, hsub, saturating_hadd, saturating_hsub, upcast, abs, popcnt, sum, the merges, swap_bytes, flip, eq_mask, sqrt or recip exactly if it returns the expected results on the few vectors of the test. Therefore the tests pass with implementations which reorder lanes of the result (horizontal operations, swap_bytes), exchange the halves (upcast), have anything in all lanes but the first (abs, recip), or look at the first lane of their arguments only (popcnt, sum, merges).", "quantifier": "every function from vectors to vectors in place of the implementation (right or wrong, panicking or undefined on some vectors), every literal, every type and width, both build profiles", "why_tests_cant": "This is a statement about the tests themselves, for all implementations.", "anchors": ["src/intrin/hadd.rs:20-78", "src/intrin/upcast.rs:32-80", "src/intrin/abs.rs:29-75", "src/intrin/popcnt.rs:36-52", "src/intrin/sum.rs:49-81", "src/intrin/merge.rs:118-140", "src/intrin/endian.rs:93-106", "src/intrin/eq.rs:78-95", "src/intrin/sqrt.rs:30-42", "src/intrin/recip.rs:31-41"]}
{"id": "C132", "title": "Float arithmetic is that of IEEE 754 in every case", "statement": "Addition, subtraction, multiplication and division of float lanes, as used by the sums, reductions, example pipelines and benchmarks, return the exact result rounded to nearest with ties to even; infinities, NaNs and zeros of both signs behave as in IEEE 754: invalid operations (opposite infinities added, zero times infinity, zero by zero, infinity by infinity) and nothing else create NaNs, a number divided by zero is infinite, a zero difference is +0 except for -0 operands, products and quotients have the exclusive or of the signs. NaNs returned by these operators, roots and casts are quiet. Together with C69 (roots) this determines every result up to the payload of NaNs.", "quantifier": "every pair of f32 and of f64 bit patterns", "why_tests_cant": "There are 2^64 and 2^128 pairs of operands; the tests of the crate use a handful, none of them infinite, NaN or a zero of negative sign.", "anchors": ["examples/main.rs: lots_of_3s, reduced", "benches/usage.rs", "src/intrin/sum.rs", "src/arch/x86/intrin/sum.rs"]}
{"id": "C133", "title": "default is the vector with which missing lanes are filled", "statement": "default() of a slice iterator or strided iterator is the vector given when it was made, default() of a zip is the tuple of the defaults of its parts, no safe call changes it, and the lanes which end reports as empty have the values of default(); default() of a map is what the closure makes of the default below.", "quantifier": "every iterator over every array, every position, every sequence of calls, zips of any number of iterators, every closure, both build profiles", "why_tests_cant": "Whether the padding is the user's vector shows only in lanes which most tests cut off again; the claim is about all positions and sequences of calls, and default() of a map is called by no test.", "anchors": ["src/iters.rs: SIMDIterable::default, SIMDIterator::end, SIMDMap::default", "src/stride.rs: PackedStride::default", "src/zip.rs: SIMDZippedIterable::default, SIMDZipMap::default", "src/stride_zip.rs: StrideZip::default"]}
{"id": "C134", "title": "SIMDAdapter is safe around every ExactSizeIterator", "statement": "ExactSizeIterator is a safe trait: the length which an implementation reports may be wrong, and it may return scalars after None. Around every such iterator, and for every sequence of calls of next, end, advance, scalar_pos and len, SIMDAdapter writes no lane outside its scratch vector, stops, and hands out exactly the scalars which it took from the iterator, in order.", "quantifier": "every implementation of the wrapped iterator (any states, any answers, panics), every state of the adapter, number of lanes, sequence of calls of any length, both build profiles", "why_tests_cant": "Tests use iterators over arrays, which are well-behaved; the claim is about all state machines which can be written in safe code.", "anchors": ["src/iters.rs: SIMDAdapter, Iterator::next, SIMDIterator::end, SIMDSized::scalar_len"]}
{"id": "C135", "title": "The scalar consumers are safe for every implementation of the iterator traits", "statement": "The iterator traits are safe to implement. Whatever next, end and len of an iterator answer, scalar_fill, scalar_collect, scalar_fill_all, scalar_collect_all and unroll do not access memory out of bounds and scalar_collect returns no uninitialised memory.", "quantifier": "every implementation of SIMDIterator (any vectors, any lane count of end, any reported length, finite, endless or panicking), every buffer, number of lanes, both build profiles", "why_tests_cant": "Every test goes through the iterators of the crate, whose answers fit together; soundness of a safe interface is a statement about all implementations.", "anchors": ["src/iters.rs: IntoScalar::scalar_fill, IntoScalar::scalar_collect, IntoScalar::scalar_fill_all, IntoScalar::scalar_collect_all, Unrolled::next"]}
{"id": "C136", "title": "Iterators over collections of any kind behave like iterators over slices", "statement": "SIMDArray and SIMDArrayMut can be implemented by a user of the crate; the fields of SIMDIter are public. Over every collection whose methods keep to the contract (the unchecked ones inside the bounds of scalar_len return what is there), every sequence of calls on an iterator returns what it returns over a slice with the same contents, and the passes simd_do_each, simd_reduce, scalar_collect of a map, simd_for_each, strides and zips do what they do over a slice. No method is called outside its contract.", "quantifier": "every type with any implementation of the traits which keeps to the contract, all contents, positions, defaults, closures, sequences of calls of any length, both build profiles", "why_tests_cant": "Tests use slices and vectors only; what an unchecked load outside the bounds does is different for every collection, so only a proof over all implementations covers it.", "anchors": ["src/iters.rs: SIMDArray, SIMDArrayMut, SIMDSized, SIMDIter", "src/iters.rs: SIMDIterator::end", "src/stride.rs: PackedStride"]}
{"id": "C137", "title": "Strides of strides are strides", "statement": "PackedStride is itself a collection which can be strided. Striding every s-th element from k on by s' from k' on makes every pass (simd_do_each, simd_reduce, scalar_collect of a map) exactly the calls of the single stride by s * s' from k + s * k' on, whatever the position of the inner iterator. The same for strides of a SIMDIter.", "quantifier": "all collections, lengths, strides and bases, defaults, positions of the inner iterator, closures, numbers of lanes, both build profiles", "why_tests_cant": "No test nests strides; the two index computations are different code paths whose agreement depends on divisions of the length.", "anchors": ["src/stride.rs: PackedStride, SIMDArray::load_unchecked, Iterator::next", "src/stride.rs: Stride"]}
{"id": "C138", "title": "No undefined behaviour in debug builds after caught panics", "statement": "In a build with debug assertions and overflow checks, an iterator which was in use when a panic unwound through it (of a closure, an assertion or an overflow check) and was then used again has no undefined behaviour in any method or consumer, and this after any number of caught panics in any methods and consumers, and after building further iterators from it.", "quantifier": "every nesting of constructors, every sequence of calls of which any may panic, any values left in the variables captured by closures, every argument, buffer and closure without undefined behaviour of its own", "why_tests_cant": "A panic can occur inside every call at every depth of the nesting; tests of the crate do not catch panics.", "anchors": ["src/iters.rs: SIMDMap, SIMDAdapter, scalar_fill, scalar_collect, scalar_fill_all, scalar_collect_all, simd_do_each, simd_reduce", "src/zip.rs: Zip, SIMDZipMap", "src/stride_zip.rs: StrideZip", "src/stride.rs: PackedStride"]}
{"id": "C139", "title": "A checked lane-wise pipeline panics exactly if the scalar loop does", "statement": "If a closure computes lane by lane with operators which may panic (the overflow-checked operators of the vectors on targets without SIMD, division by zero), then mapping it over a collection and collecting panics exactly if the scalar computation panics for some element, and otherwise returns the scalar results.", "quantifier": "every composition of lane-wise operators, every collection, width and default; slices, strides and zips", "why_tests_cant": "Tests use inputs which do not overflow, and lengths and defaults of their choice.", "anchors": ["src/arch/unknown/vecs.rs: impl_ops!", "src/iters.rs: simd_map, scalar_collect, scalar_fill, simd_reduce", "examples/main.rs"]}
{"id": "C140", "title": "No sequence of safe calls on a zip of strided iterators has undefined behaviour, and each row is handed out once", "statement": "Any sequence of calls of the safe methods of a zip whose iterators are strided (for example the two iterators of stride_two: pairs of consecutive elements) has no undefined behaviour; the rows handed out are rows in their order, each at most once; if nothing is skipped and end() returned None at last, each exactly once.", "quantifier": "every number of iterators, every slices, strides and offsets with one number of elements, every start position, every finite sequence of calls", "why_tests_cant": "Strided iterators and zips are tested by single passes only; the sequences of calls are unboundedly many.", "anchors": ["src/stride.rs: PackedStride", "src/zip.rs: Zip, SIMDZippedIterable, SIMDZippedIterator"]}
{"id": "C141", "title": "simd_reduce gives the lanes its documentation shows", "statement": "A lane-wise simd_reduce combines in lane j the elements j, j+w, j+2w, ...; in the last call the remaining elements fill the lanes from lane 0 on and the lanes after them hold the default (documentation of simd_reduce: for [2.0f32; 100] the result is 50.0 in each of 4 lanes, and 26.0 in the first four and 24.0 in the last four of 8 lanes).", "quantifier": "every width, slice, default, start value and lane-wise closure; the documented sum for every number of elements", "why_tests_cant": "The example of the documentation has no assertion and runs with one width; which lane an element goes to depends on the length modulo the width.", "anchors": ["src/iters.rs: SIMDIterator::simd_reduce", "src/zip.rs: SIMDZippedIterator::simd_reduce"]}
{"id": "C142", "title": "simd_do_each does not modify the iterator", "statement": "simd_do_each calls the closure on the remaining elements and does not modify the iterator (documentation of simd_do_each), so that a second pass over the same iterator sees the same elements.", "quantifier": "every slice or strided iterator at every position, every zip, every closure", "why_tests_cant": "No test calls two consumers on one iterator.", "anchors": ["src/iters.rs: SIMDIterator::simd_do_each, simd_reduce", "src/zip.rs: SIMDZippedIterator::simd_do_each"]}
{"id": "C143", "title": "Slice references made by unsafe code are valid for their element type", "statement": "Every slice reference the library makes with unsafe code (transmute of PART_MASK in partition_mask, from_raw_parts in Unrolled::next) is aligned for its element type and its elements lie inside the object it refers to.", "quantifier": "every lane type, every address of the objects, every iterator, state and chunk size", "why_tests_cant": "Invalid references are undefined behaviour which usually has no visible effect, and tests see one address only.", "anchors": ["src/arch/x86/vec_patterns.rs: PART_MASK, partition_mask", "src/arch/unknown/vec_patterns.rs: partition_mask", "src/iters.rs: Unrolled::next"]}
{"id": "C144", "title": "Collecting never overflows the size of its buffer", "statement": "scalar_collect and scalar_collect_all allocate (len + 1) * width elements: for every slice which can exist (at most isize::MAX bytes) and every closure this number and its bytes do not overflow, so that the allocation does not panic and all stores are inside it.", "quantifier": "every slice, every closure between any vector types, every usize, debug and release builds", "why_tests_cant": "Needs slices near the size of the address space; the overflow only wraps in release builds.", "anchors": ["src/iters.rs: IntoScalar::scalar_collect (with_capacity, set_len), scalar_collect_all"]}
{"id": "C145", "title": "Pipelines can be consumed again after caught panics", "statement": "If a closure in a pipeline panics and the panic is caught, the pipeline can be used again, in release builds as well: every further call of next, end, simd_reduce, simd_do_each, scalar_fill and scalar_collect returns or panics without undefined behaviour, also after further panics and changes of captured variables, and scalar_collect returns no uninitialised memory.", "quantifier": "every pipeline of slices, strided iterators, maps, zips, strided zips and their maps, every closure, every sequence of calls and caught panics, debug and release builds", "why_tests_cant": "Tests hardly ever catch panics in the middle of a pass, and the states they leave depend on where the panic happens.", "anchors": ["src/iters.rs: SIMDMap::next/end, SIMDIterator::simd_reduce/simd_do_each, IntoScalar::scalar_collect/scalar_fill", "src/zip.rs: Zip::next/end, SIMDZipMap", "src/stride_zip.rs: StrideZip::next/end"]}
{"id": "C146", "title": "Release builds compute what debug builds compute", "statement": "Whenever a program written with this library returns in a debug build, it returns the same in a release build: every method of arrays, iterators, zips and vectors, and every function which consumes an iterator, has the same result and leaves the same state, unless the debug build panics at a debug_assert! or at an overflow. Also where the debug build has undefined behaviour or runs forever, the release build has and does.", "quantifier": "every state of every iterator type and adapter, all closures (which may be compiled differently for the two builds in the same sense), all arguments, every size of usize", "why_tests_cant": "Tests are run in one of the two builds, and only on inputs chosen in advance.", "anchors": ["src/iters.rs: debug_assert! in SIMDArray::load_unchecked, UnsafeIterator::next_unchecked/end_unchecked", "src/stride.rs: PackedStride::load_unchecked", "src/vecs.rs: Packed::load_unchecked/store_unchecked/extract_unchecked/replace_unchecked/coalesce", "src/intrin/merge.rs", "src/intrin/sum.rs"]}
{"id": "C147", "title": "Zips of collections with different numbers of lanes combine elements with equal indices", "statement": "If zip accepts collections whose vectors have different numbers of lanes, a complete pass only accesses elements of the collections, and lane by lane the closure sees elements with equal indices.", "quantifier": "any number of slices, all lengths, element types and numbers of lanes, all closures; both build profiles", "why_tests_cant": "The tests only zip collections with one number of lanes; whether a pass reads out of bounds depends on both lengths and both widths.", "anchors": ["src/zip.rs:223-281", "src/iters.rs:588-612"]}
{"id": "C148", "title": "Standard iterator methods agree with len()", "statement": "The iterators implement ExactSizeIterator, which requires that size_hint() returns (len(), Some(len())). So count(), collect(), last() and nth() see len() vectors, and the standard adapters take, skip, peekable and zip around them know their lengths.", "quantifier": "every iterator type of the crate, every length and position, any number of zipped slices, any closure of a map, both build profiles", "why_tests_cant": "The tests never use these methods; that a provided method is inherited, not written, is not visible in the code under test.", "anchors": ["src/iters.rs: Iterator and ExactSizeIterator for SIMDAdapter, SIMDIter, SIMDMap", "src/stride.rs:30-56", "src/stride_zip.rs:46-51, 80-92", "src/zip.rs:235-254, 305-321"]}
{"id": "C149", "title": "A map consumed by simd_reduce or simd_do_each is the iterator consumed with both closures", "statement": "iter.simd_map(f).simd_reduce(start, g) calls the same closures on the same vectors in the same order as iter.simd_reduce(start, |acc, v| g(acc, f(v))), and has the same result, panics included; likewise for simd_do_each and for maps over zips.", "quantifier": "every iterator (slices, strides, maps, zips, maps over zips) in every state, every pair of closures with state between any vector types, every accumulator, both build profiles", "why_tests_cant": "Tests only compare final sums of total closures; which closure is called when one of them panics or keeps state is not visible there.", "anchors": ["src/iters.rs: SIMDMap::next/end, SIMDIterator::simd_reduce, simd_do_each", "src/zip.rs: SIMDZipMap::next/end, SIMDZippedIterator::simd_reduce, simd_do_each"]}
{"id": "C150", "title": "The order in which collections are zipped does not matter", "statement": "Zipping the same collections in another order, with a closure which takes its arguments in the other order, gives the same result: the same check by zip, the same calls, the same collected elements.", "quantifier": "any number of collections, every rearrangement, all lengths zip accepts, all closures with state", "why_tests_cant": "The tests zip collections of equal lengths in one order only.", "anchors": ["src/zip.rs:223-281 (impl_iter_zip!: assert, next, end)", "src/zip.rs: SIMDZippedIterator::simd_reduce, simd_do_each", "src/zip.rs: SIMDZipMap::end"]}
{"id": "C151", "title": "Collecting an intermediate result does not change what follows", "statement": "Collecting the results of a map with scalar_collect and iterating over the Vec gives what going on with the map itself gives: any reduction has the same result, and a second map collects the same elements.", "quantifier": "every slice, every first and second closure (with state; between vectors of different lanes), every pair of default vectors, every reduction", "why_tests_cant": "Tests compare one pipeline with a scalar loop, on data whose default lanes happen not to matter; whether an extra pass is harmless depends on what the closures do with those lanes.", "anchors": ["src/iters.rs: SIMDMap::end, SIMDIterator::simd_reduce, IntoScalar::scalar_collect", "src/iters.rs: SIMDIter::end (default lanes)"]}
{"id": "C152", "title": "Passes in place compose, and leave what collecting returns", "statement": "simd_for_each(f) leaves in the slice what simd_map(f).scalar_collect() returns; simd_for_each(f) followed by simd_for_each(g) leaves what one pass with the composed closure leaves.", "quantifier": "every slice, every pair of closures (any functions of vectors, with state where two passes are concerned), every pair of default vectors", "why_tests_cant": "The tests run one pass with a lane-wise closure; the default lanes of the last vector are invisible to it.", "anchors": ["src/iters.rs: SIMDIterator::simd_for_each", "src/iters.rs: SIMDIter::end (default lanes)", "src/iters.rs: IntoScalar::scalar_collect"]}
{"id": "C153", "title": "Reducing the strides of a slice one after the other reduces the slice", "statement": "Reducing each of the iterators of stride(s, ..) with an associative and commutative operation, carrying the accumulator over, and reducing the lanes of the accumulator gives what a scalar loop over the slice gives, if the default vectors hold the identity.", "quantifier": "every slice, every stride, every number of lanes, every commutative monoid, both build profiles", "why_tests_cant": "Tests use one operation and lengths which are multiples of the stride; elements left out at the end are only visible for other lengths.", "anchors": ["src/stride.rs:114-130 (stride_into)", "src/stride.rs:51-56 (len)", "src/iters.rs:157 (simd_reduce)", "src/vecs.rs:184 (scalar_reduce)"]}
{"id": "C154", "title": "Counting the elements equal to a value with eq_mask is exact", "statement": "Adding up v.eq_mask(splat(x)).count_ones() over a slice and dividing by the number of bits of an element, or adding up (v.eq_mask(splat(x)) & splat(1)).sum_upcast(), gives the number of elements of the slice which are equal to x.", "quantifier": "every slice of every length, every value, every default vector, every integer vector type, every version of the three operations, both build profiles", "why_tests_cant": "Whether the default vector contains the value looked for is only visible if the length is no multiple of the number of lanes; sums of flags also depend on the version of sum_upcast, which wraps for i8.", "anchors": ["src/intrin/eq.rs", "src/intrin/popcnt.rs", "src/intrin/sum.rs:35-47", "src/iters.rs:157 (simd_reduce)", "src/iters.rs: SIMDIter::end (default lanes)"]}
{"id": "C155", "title": "Reducing with min or max finds the smallest or largest element of a slice", "statement": "slice.simd_iter(d).simd_reduce(start, |acc, v| acc.min(v)).scalar_reduce(s0, min) is the smallest element of the slice, and the same with max the largest.", "quantifier": "every slice with an element, every default and starting vector, every integer vector type, every version of min and max, both build profiles", "why_tests_cant": "Default lanes beyond all elements are only seen if the length is no multiple of the number of lanes; the order (signed or not) only matters for large values.", "anchors": ["src/intrin/cmp.rs", "src/iters.rs:157 (simd_reduce)", "src/vecs.rs:184 (scalar_reduce)", "src/iters.rs: SIMDIter::end (default lanes)"]}
{"id": "C156", "title": "Comparing two slices with eq_mask tells whether they are equal", "statement": "Zipping two slices of one length and checking for all vectors that u.eq_mask(v).count_ones() is the number of bits of a vector gives true if and only if the slices are equal.", "quantifier": "every pair of slices of one length, every pair of default vectors, every integer vector type, every version of the operations, both build profiles", "why_tests_cant": "Different default vectors are only seen if the length is no multiple of the number of lanes.", "anchors": ["src/intrin/eq.rs", "src/intrin/popcnt.rs", "src/zip.rs: SIMDZippedIterator::simd_reduce", "src/zip.rs:223-281 (end)"]}
{"id": "C157", "title": "Reducing floats with min or max finds the smallest or largest number of a slice", "statement": "slice.simd_iter(d).simd_reduce(start, |acc, v| acc.min(v)).scalar_reduce(s0, f32::min) with infinities as default and start is the smallest number of the slice; NaNs are ignored, as by f32::min. The same with max.", "quantifier": "every slice of f32 or f64 which contains a number, every version of min and max, both build profiles", "why_tests_cant": "NaNs change the result only with the instructions, and only depending on which lanes they are in and what follows them there.", "anchors": ["src/intrin/cmp.rs", "src/iters.rs:157 (simd_reduce)", "src/vecs.rs:184 (scalar_reduce)"]}
{"id": "C158", "title": "Saturating sums of slices are those of a loop", "statement": "slice.simd_iter(splat(0)).simd_reduce(splat(0), |acc, v| acc.saturating_add(v)).scalar_reduce(0, saturating_add) is the saturating sum of the elements in order.", "quantifier": "every slice of integers of every type, every version of saturating_add, every number of lanes, both build profiles", "why_tests_cant": "Saturating addition of signed numbers is not associative: whether the lanes matter depends on which elements share a lane.", "anchors": ["src/intrin/saturating_add.rs", "src/iters.rs:157 (simd_reduce)", "src/vecs.rs:184 (scalar_reduce)"]}
{"id": "C159", "title": "Adding up count_ones counts the bits of slices", "statement": "slice.simd_iter(d).simd_reduce(0, |acc, v| acc + v.count_ones()) is the number of set bits of the elements; zipping two slices of one length and adding up (u ^ v).count_ones() gives the number of bits in which they differ.", "quantifier": "every slice and pair of slices of one length, every default vector, every integer vector type, every version of count_ones, both build profiles", "why_tests_cant": "Set bits of the default vector are only counted if the length is no multiple of the number of lanes.", "anchors": ["src/intrin/popcnt.rs", "src/iters.rs:157 (simd_reduce)", "src/zip.rs: SIMDZippedIterator::simd_reduce"]}
{"id": "C160", "title": "Products of slices are those of a loop", "statement": "slice.simd_iter(splat(1)).simd_reduce(splat(1), |acc, v| acc * v).product() returns what multiplying the elements in order does: in release builds the product modulo 2^n, in debug builds the exact product, or a panic when it overflows.", "quantifier": "every slice of integers of every type, every number of lanes, both build profiles", "why_tests_cant": "Vector multiplication wraps silently even in debug builds, and product() multiplies lanes in an order unlike that of the slice: which overflows are noticed depends on which elements share a lane.", "anchors": ["src/vecs.rs:175-181 (product)", "src/iters.rs:157 (simd_reduce)"]}
{"id": "C161", "title": "Zipping a collection with itself is one pass over the collection", "statement": "If the other collections of a zip hold values computed from the elements of the first one, with the same computation for the defaults (in particular copies of the first one), then simd_reduce, simd_do_each, and simd_map with scalar_collect give the same result, and leave the same captured variables, as over the first collection alone with the other vectors computed in the closure.", "quantifier": "every collection, slice or strided, every number of columns, all closures with state, every length and default, both build profiles", "why_tests_cant": "The last call is made from the parts of several iterators with one position; a wrong part for one column is only seen for lengths which are no multiple of the number of lanes.", "anchors": ["src/zip.rs:59-281", "src/iters.rs:157 (simd_reduce)"]}
{"id": "C162", "title": "Sums of slices overflow as those of a loop do", "statement": "slice.simd_iter(splat(0)).simd_reduce(splat(0), |acc, v| acc + v).sum() returns what adding the elements in order does in the same build: the sum modulo 2^n in release builds, in debug builds the exact sum, or a panic when it overflows.", "quantifier": "every slice of integers of every type, every version of sum, every number of lanes, both build profiles", "why_tests_cant": "Vector addition wraps silently even in debug builds, and sum() may check overflows, in an order unlike that of the slice: which overflows are noticed depends on which elements share a lane.", "anchors": ["src/intrin/sum.rs", "src/iters.rs:157 (simd_reduce)"]}
{"id": "C163", "title": "Software vectors never return a wrong sum in debug builds", "statement": "On targets without vector instructions slice.simd_iter(splat(0)).simd_reduce(splat(0), |acc, v| acc + v).sum() returns the exact sum of the elements in debug builds, or panics; in release builds it returns the sum modulo 2^n. Whatever it returns, native vectors with as many lanes return too.", "quantifier": "every slice of integers of every type, every number of lanes, both build profiles", "why_tests_cant": "A lane whose overflow went unnoticed would give wrong results only for particular elements in one lane.", "anchors": ["src/arch/unknown/vecs.rs:181-197 (impl_ops)", "src/intrin/sum.rs:21-33", "src/iters.rs:157 (simd_reduce)"]}
{"id": "C164", "title": "A pass over a strided iterator is a pass over a copy of its elements", "statement": "simd_reduce, simd_do_each, and simd_map with scalar_collect, scalar_collect_all, scalar_fill (with room for the results) or scalar_fill_all give the same results, failures and captured variables for a fresh strided iterator as for the iterator over a slice which holds the elements of the stride.", "quantifier": "every slice, stride, strided iterator (nested too), default, closure with state, vector size, both build profiles", "why_tests_cant": "Strided iterators hand out a complete last vector with end() where slices use next(), which is only seen for some lengths; the closures must not notice.", "anchors": ["src/stride.rs", "src/iters.rs:100-180", "src/into_iters.rs"]}
{"id": "C165", "title": "Adding up sum_upcast over a slice gives its exact sum", "statement": "slice.simd_iter(d).simd_reduce(0i64, |acc, v| acc + v.sum_upcast()) returns the mathematical sum of the elements of the slice, without overflow, for element types of at most 32 bits.", "quantifier": "every slice with fewer than 2^31 elements, default, vector size, version of sum_upcast, both build profiles", "why_tests_cant": "The difference shows only when the sum of one vector leaves the range of i8, or when the last vector is incomplete and the default is not zero.", "anchors": ["src/intrin/sum.rs:35-47", "src/arch/x86/intrin/sum.rs", "src/iters.rs"]}
{"id": "C166", "title": "Software vectors never return a wrong product in debug builds", "statement": "On targets without vector instructions slice.simd_iter(splat(1)).simd_reduce(splat(1), |acc, v| acc * v).product() returns the mathematical product of the elements or panics in debug builds, and the product modulo 2^n in release builds.", "quantifier": "every slice, integer type, vector size, both build profiles", "why_tests_cant": "Whether a lane overflows depends on which elements share it; native vectors wrap silently in the same program (C160).", "anchors": ["src/arch/unknown/vecs.rs:182-199", "src/vecs.rs:175-181", "src/iters.rs"]}
{"id": "C167", "title": "Mapping flip over a slice exchanges neighbouring elements", "statement": "slice.simd_iter(d).simd_map(|v| v.flip()).scalar_collect() and the same with simd_for_each exchange elements 2k and 2k+1 of the slice for every k; a single last element stays.", "quantifier": "every slice, default, element type, vector size, version of flip, both build profiles", "why_tests_cant": "The last elements are right-aligned in their vector, so whether pairs stay together depends on the parity of the length.", "anchors": ["src/intrin/swizzle.rs:25-45", "src/iters.rs", "src/into_iters.rs"]}
{"id": "C168", "title": "merge_interleaved of two zipped slices takes elements by the parity of their index", "statement": "(a.simd_iter(d), b.simd_iter(e)).zip().simd_map(|(x, y)| x.merge_interleaved(y)).scalar_collect() takes the elements with even indices from a and those with odd indices from b.", "quantifier": "all slices of one length, defaults, element types, vector sizes, versions of merge_interleaved, both build profiles", "why_tests_cant": "The last elements are right-aligned in their vector, so that the lane of an element depends on the length of the slice.", "anchors": ["src/intrin/merge.rs:64-104", "src/iters.rs:250-280", "src/zip.rs", "src/into_iters.rs"]}
{"id": "C169", "title": "An unrolled loop followed by end does what simd_reduce does", "statement": "For every amt from 1 to 8, looping over the chunks of it.unroll(amt), passing their vectors to the closure, and then passing what it.end() returns, makes the same calls in the same order and has the same result as it.simd_reduce(start, closure). Without end() only the full vectors are passed.", "quantifier": "all iterators over slices (at every position) and strides, amounts, closures with state which may panic, start values, vector sizes, both build profiles", "why_tests_cant": "The lengths modulo amt times the vector size and all closures have to agree; the scratch array keeps vectors of earlier chunks, which must not be passed again.", "anchors": ["src/iters.rs:63-70", "src/iters.rs:157-167", "src/iters.rs:368-403"]}
{"id": "C170", "title": "Unrolled loops with several accumulators give what simd_reduce gives", "statement": "A loop over the chunks of it.unroll(amt) which adds the vectors of a chunk to accumulators of their own (at least amt of them), combines the accumulators afterwards and adds what it.end() returns, gives the result of it.simd_reduce with one accumulator, for every associative and commutative operation with a neutral element; for sums it is the sum of the elements.", "quantifier": "all iterators over slices (at every position) and strides, amounts from 1 to 8, numbers of accumulators, operations as said, vector sizes, versions of sum, both build profiles", "why_tests_cant": "All lengths modulo the size of a chunk and all operations have to agree.", "anchors": ["src/iters.rs:63-70", "src/iters.rs:157-167", "src/iters.rs:368-403"]}
{"id": "C171", "title": "The sum of the absolute differences of two slices is exact", "statement": "For slices of unsigned numbers of at most 32 bits with one length, and one default vector for both, (a.simd_iter(d), b.simd_iter(d)).zip().simd_reduce(0i64, |acc, (u, v)| acc + (u.max(v) - u.min(v)).sum_upcast()) is the sum of |a[i] - b[i]|; no operation overflows, also in debug builds.", "quantifier": "all slices of one length (below 2^31 elements with a vector), defaults, vector sizes, versions of max, min, - and sum_upcast which meet C51, C59 and C42, both build profiles", "why_tests_cant": "All lengths and all pairs of elements have to be right, for every combination of versions of four operations.", "anchors": ["src/intrin/cmp.rs:10-33", "src/intrin/sum.rs:35-47", "src/iters.rs:157-167", "src/zip.rs"]}
{"id": "C172", "title": "Counting the elements up to a bound with min, eq_mask and count_ones is exact", "statement": "slice.simd_iter(d).simd_reduce(0usize, |acc, v| acc + v.min(splat(t)).eq_mask(v).count_ones()) divided by the number of bits of an element is the number of elements which are at most t; with max, of those which are at least t.", "quantifier": "all slices, bounds, defaults, signed and unsigned element types, vector sizes, versions of min, max, eq_mask and count_ones, both build profiles", "why_tests_cant": "The lanes which fill the last vector are counted like elements; whether they matter depends on the length, the default and the bound.", "anchors": ["src/intrin/cmp.rs:20-33", "src/intrin/eq.rs", "src/intrin/popcnt.rs", "src/iters.rs:157-167"]}
{"id": "C173", "title": "Software vectors never return a wrong sum from unrolled loops with several accumulators in debug builds", "statement": "Adding up a slice with software vectors in a loop over the chunks of unroll(amt), with at least amt accumulators which are combined afterwards, returns the exact sum or panics in a debug build, and returns the sum modulo 2^n in a release build.", "quantifier": "all slices, element types, vector sizes, amounts from 1 to 8, numbers of accumulators, both build profiles", "why_tests_cant": "Which intermediate sums exist depends on the length, the amount and the number of accumulators; overflows of all of them have to be noticed.", "anchors": ["src/iters.rs:63-70", "src/iters.rs:368-403", "src/arch/unknown/vecs.rs:181-197", "src/intrin/sum.rs"]}
{"id": "C174", "title": "The error of float sums with several accumulators is bounded by the number of roundings", "statement": "Adding up a slice of finite floats in a loop over the chunks of unroll(amt), with m >= amt accumulators which are added afterwards, then the leftover elements, then sum, gives a result which, if finite, differs from the exact sum by at most (1+eps)^D - 1 times the sum of the magnitudes, where D is the number of chunks plus m, plus one if there are leftover elements, plus the depth of sum; it is finite unless that bound reaches the overflow limit.", "quantifier": "all slices of finite f32 or f64, widths, lane-wise functions, orders of addition in sum, amounts from 1 to 8, numbers of accumulators", "why_tests_cant": "Rounding errors depend on all the values, the length, the amount and the number of accumulators.", "anchors": ["src/iters.rs:63-70", "src/iters.rs:368-403", "src/intrin/sum.rs", "src/arch/x86/intrin/sum.rs"]}
{"id": "C175", "title": "The dot product of two slices of integers is that of a loop", "statement": "Zipping two slices of the same length, reducing with acc + u * v from zero and adding up the lanes gives the dot product of the slices modulo 2^n, if the products of the lanes of the default vectors are zero; with software vectors in a debug build it gives the exact dot product or panics.", "quantifier": "all slices of equal length, integer types, widths, versions of sum, both build profiles, native and software vectors", "why_tests_cant": "Every length mod width and all values which overflow in a product or in one of the sums are concerned.", "anchors": ["src/zip.rs:210-220", "src/arch/unknown/vecs.rs:181-197", "src/intrin/sum.rs"]}
{"id": "C176", "title": "Saturating sums with several accumulators are those with one", "statement": "Adding up a slice with saturating_add in a loop over the chunks of unroll(amt), with at least amt accumulators which are combined with saturating_add afterwards, gives what a loop with one accumulator gives.", "quantifier": "all slices, integer types, vector sizes, versions of saturating_add, amounts from 1 to 8, numbers of accumulators", "why_tests_cant": "Whether and where a sum saturates depends on the values, the length, the amount and the number of accumulators.", "anchors": ["src/iters.rs:63-70", "src/iters.rs:368-403", "src/intrin/saturating_add.rs", "src/arch/x86/intrin/saturating_add.rs"]}
{"id": "C177", "title": "Products, minima and maxima with several accumulators are those with one", "statement": "Multiplying the elements of a slice, or finding the smallest or largest of them, in a loop over the chunks of unroll(amt), with at least amt accumulators which begin with the neutral number and are combined afterwards, gives what simd_reduce with one accumulator gives: the product modulo 2^n (or a panic of product in a debug build), the smallest or largest element.", "quantifier": "all slices, integer types, vector sizes, versions of min and max, amounts from 1 to 8, numbers of accumulators, both build profiles", "why_tests_cant": "Which elements meet in which accumulator depends on the length, the amount and the number of accumulators.", "anchors": ["src/iters.rs:63-70", "src/iters.rs:368-403", "src/intrin/cmp.rs", "src/arch/x86/intrin/cmp.rs"]}
{"id": "C178", "title": "Sums of squares, and of what any lanewise operation makes of the elements", "statement": "simd_reduce(splat(0), |acc, v| acc + g(v)).sum() over a slice of integers, for an operation g which is f in every lane and makes zeros of the default, is the sum of f(x) over the elements modulo 2^n. A loop over the chunks of unroll(amt) with at least amt accumulators gives the same. In particular sums of squares are exact whenever they fit, whatever overflows on the way.", "quantifier": "all slices, integer types, vector sizes, lanewise operations which do not fail, versions of sum, amounts from 1 to 8, numbers of accumulators, both build profiles", "why_tests_cant": "All lengths modulo the vector and the chunk, all operations and all overflows on the way have to agree.", "anchors": ["src/iters.rs:63-70", "src/iters.rs:157-167", "src/iters.rs:368-403", "src/intrin/sum.rs"]}
